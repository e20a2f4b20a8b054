import Verif.Spec.ServerLog
import Verif.Proofs.Server

namespace Gevulot.ServerLog

open ServerModel (Tid Addr AcceptErr PC Op Ret)

theorem step_spec {s s' : State} {a : ServerModel.Action × Note} (hs : step s a = some s') :
    ServerModel.step s.server a.1 = some s'.server ∧
      (∀ t, s'.log t = if who a.1 = some t then s.log t ++ lines s.server a.2 a.1 else s.log t) ∧
      ∀ t, s'.heard t = if who a.1 = some t then s.heard t ++ failure a.2 a.1 else s.heard t := by
  unfold step at hs
  split at hs
  · rename_i h
    simp only [Option.some.injEq] at hs
    subst hs
    exact ⟨h, fun _ => rfl, fun _ => rfl⟩
  · simp at hs

/-- Where a thread that has not fired `start` may be. -/
def early : PC → Bool
  | .idle | .startCheck | .startFire => true
  | _ => false

structure Inv (s : State) : Prop where
  go : ServerModel.GoInv s.server
  fit : ServerModel.FitInv s.server
  st : ServerModel.StartInv s.server
  starter : ∀ t, s.server.starter = some t → early (s.server.pc t) = false ∧ s.server.op t = some .start
  user : ∀ n, s.server.op (.go n) ≠ some .start
  idle : ∀ t, s.server.op t = none → s.log t = [] ∧ s.heard t = []
  start : ∀ t, s.server.op t = some .start → StartStory s t
  serve : ∀ t ln, s.server.op t = some (.serve ln) → ServeStory (s.log t) (s.heard t) (s.server.pc t)
  conn : ∀ t c, s.server.op t = some (.serveConn c) → ConnStory (s.log t) c (s.server.pc t)
  close : ∀ t, s.server.op t = some .close → CloseStory (s.log t) (s.server.pc t)

theorem inv_init (c : Option Addr) : Inv (init c) := by
  constructor <;> first | exact ServerModel.goInv_init c | exact ServerModel.fitInv_init c | exact ServerModel.startInv_init c | simp [init, ServerModel.init]

theorem mem_olds (s : ServerModel.State) : oldLines s ∈ olds := by
  unfold oldLines olds
  split
  · split <;> simp
  · simp

theorem complaints_append (h : List (AcceptErr × Bool)) (e : AcceptErr) (b : Bool) :
    complaints (h ++ [(e, b)]) = complaints h ++ if b then [] else [.acceptError e] := by
  cases b <;> simp [complaints]

set_option maxHeartbeats 4000000 in
theorem starter_step {s s' : ServerModel.State} {a : ServerModel.Action} (hg : ServerModel.GoInv s) (hf : ServerModel.FitInv s)
    (h : ∀ t, s.starter = some t → early (s.pc t) = false ∧ s.op t = some .start) (hs : ServerModel.step s a = some s') :
    ∀ t, s'.starter = some t → early (s'.pc t) = false ∧ s'.op t = some .start := by
  have hx := hg.fresh s.spawned
  simp only [Nat.le_refl, iff_true] at hx
  have ho := hg.opIdle
  clear hg
  intro t ht
  have h1 := h t
  have hft := hf t
  server_cases hs <;> grind [upd_apply, early, PC.fits]

theorem complaints_nil : complaints [] = [] := rfl

theorem user_step {s s' : ServerModel.State} {a : ServerModel.Action} (h : ∀ n, s.op (.go n) ≠ some .start) (hs : ServerModel.step s a = some s') :
    ∀ n, s'.op (.go n) ≠ some .start := by
  intro n
  have h1 := h n
  server_cases hs <;> grind [upd_apply]

set_option maxHeartbeats 4000000 in
theorem idle_step {s s' : State} {a : ServerModel.Action × Note} (h : Inv s) (hstep : step s a = some s') :
    ∀ t, s'.server.op t = none → s'.log t = [] ∧ s'.heard t = [] := by
  obtain ⟨hs, hl, hh⟩ := step_spec hstep
  clear hstep
  obtain ⟨a, n⟩ := a
  intro t ht
  have h1 := h.idle t
  have h2 := h.idle t
  have hft := h.fit t
  have hx := h.go.fresh s.server.spawned
  simp only [Nat.le_refl, iff_true] at hx
  have ho := h.go.opIdle
  clear h
  obtain ⟨srv, log, heard⟩ := s
  obtain ⟨srv', log', heard'⟩ := s'
  replace hl := hl t
  replace hh := hh t
  dsimp only at *
  generalize log' t = l' at *
  generalize heard' t = h' at *
  clear log' heard'
  subst hl hh
  server_cases hs <;> simp only [who, lines, failure, threadLines] at * <;> grind [upd_apply]

set_option maxHeartbeats 4000000 in
theorem serve_step {s s' : State} {a : ServerModel.Action × Note} (h : Inv s) (hstep : step s a = some s') :
    ∀ t ln, s'.server.op t = some (.serve ln) → ServeStory (s'.log t) (s'.heard t) (s'.server.pc t) := by
  obtain ⟨hs, hl, hh⟩ := step_spec hstep
  clear hstep
  obtain ⟨a, n⟩ := a
  intro t ln ht
  have h1 := h.serve t ln
  have h2 := h.idle t
  have hft := h.fit t
  have hx := h.go.fresh s.server.spawned
  simp only [Nat.le_refl, iff_true] at hx
  have ho := h.go.opIdle
  have hm := mem_olds s.server
  have hca := complaints_append (s.heard t)
  clear h
  obtain ⟨srv, log, heard⟩ := s
  obtain ⟨srv', log', heard'⟩ := s'
  replace hl := hl t
  replace hh := hh t
  dsimp only at *
  generalize log' t = l' at *
  generalize heard' t = h' at *
  clear log' heard'
  subst hl hh
  server_cases hs
  case goDone m r h =>
    simp only [who, lines, failure, threadLines, h]
    cases r <;> grind [upd_apply, ServeStory, PC.fits, Ret.fits]
  case startDo u k h =>
    simp only [who, lines, failure, threadLines, h, upd_apply] at ht ⊢
    have h3 := ho (.go srv.spawned)
    by_cases e : t = .go srv.spawned
    · subst e
      have e2 : ¬(Tid.go srv.spawned = u) := by grind
      have e3 : ¬(u = Tid.go srv.spawned) := by grind
      simp only [e2, e3, Option.some.injEq, if_true, if_false, ServeStory]
      exact h2 (h3.mpr hx)
    · grind [PC.fits]
  case install u k h =>
    simp only [who, lines, failure, threadLines, h, upd_apply] at ht ⊢
    by_cases e : u = t
    · subst e
      rw [h] at h1
      obtain ⟨e1, e2⟩ := h1 ht
      simp only [e1, e2, if_true, ServeStory]
      exact ⟨_, hm, rfl⟩
    · grind
  all_goals
    simp only [who, lines, failure, threadLines] at *
    grind [upd_apply, ServeStory, ServerModel.entry, PC.fits, Ret.fits, complaints_nil]

set_option maxHeartbeats 4000000 in
theorem conn_step {s s' : State} {a : ServerModel.Action × Note} (h : Inv s) (hstep : step s a = some s') :
    ∀ t c, s'.server.op t = some (.serveConn c) → ConnStory (s'.log t) c (s'.server.pc t) := by
  obtain ⟨hs, hl, hh⟩ := step_spec hstep
  clear hstep
  obtain ⟨a, n⟩ := a
  intro t c ht
  have h1 := h.conn t c
  have h2 := h.idle t
  have hft := h.fit t
  have hx := h.go.fresh s.server.spawned
  simp only [Nat.le_refl, iff_true] at hx
  have ho := h.go.opIdle
  clear h
  obtain ⟨srv, log, heard⟩ := s
  obtain ⟨srv', log', heard'⟩ := s'
  replace hl := hl t
  replace hh := hh t
  dsimp only at *
  generalize log' t = l' at *
  generalize heard' t = h' at *
  clear log' heard'
  subst hl hh
  server_cases hs
  case goDone m r h =>
    simp only [who, lines, threadLines, h]
    cases r <;> grind [upd_apply, ConnStory, PC.fits, Ret.fits]
  case remove u r h =>
    simp only [who, lines, threadLines, h]
    cases r <;> grind [upd_apply, ConnStory, connLine, PC.fits, Ret.fits]
  all_goals
    simp only [who, lines, threadLines] at *
    grind [upd_apply, ConnStory, connLine, ServerModel.entry, PC.fits, Ret.fits]

set_option maxHeartbeats 4000000 in
theorem close_step {s s' : State} {a : ServerModel.Action × Note} (h : Inv s) (hstep : step s a = some s') :
    ∀ t, s'.server.op t = some .close → CloseStory (s'.log t) (s'.server.pc t) := by
  obtain ⟨hs, hl, hh⟩ := step_spec hstep
  clear hstep
  obtain ⟨a, n⟩ := a
  intro t ht
  have h1 := h.close t
  have h2 := h.idle t
  have hft := h.fit t
  have hx := h.go.fresh s.server.spawned
  simp only [Nat.le_refl, iff_true] at hx
  have ho := h.go.opIdle
  clear h
  obtain ⟨srv, log, heard⟩ := s
  obtain ⟨srv', log', heard'⟩ := s'
  replace hl := hl t
  replace hh := hh t
  dsimp only at *
  generalize log' t = l' at *
  generalize heard' t = h' at *
  clear log' heard'
  subst hl hh
  server_cases hs <;> simp only [who, lines, threadLines] at * <;> grind [upd_apply, CloseStory, ServerModel.entry, PC.fits, Ret.fits]

set_option maxHeartbeats 4000000 in
theorem start_step {s s' : State} {a : ServerModel.Action × Note} (h : Inv s) (hstep : step s a = some s') :
    ∀ t, s'.server.op t = some .start → StartStory s' t := by
  obtain ⟨hs, hl, hh⟩ := step_spec hstep
  clear hstep
  obtain ⟨a, n⟩ := a
  intro t ht
  have h1 := h.start t
  have h2 := h.idle t
  have hft := h.fit t
  have hx := h.go.fresh s.server.spawned
  simp only [Nat.le_refl, iff_true] at hx
  have ho := h.go.opIdle
  have hst := h.starter
  have hrun := h.st.starter t
  have hs0 := h.st.start
  have hu := h.user
  have htr : s.server.starter ≠ some t → (s.server.tried.filter fun x => decide (x.1 = t)) = [] := by
    intro hn
    rw [List.filter_eq_nil_iff]
    intro x hx
    have := h.st.tried x hx
    grind
  clear h
  obtain ⟨srv, log, heard⟩ := s
  obtain ⟨srv', log', heard'⟩ := s'
  replace hl := hl t
  replace hh := hh t
  dsimp only at *
  simp only [StartStory] at *
  generalize log' t = l' at *
  clear hh
  subst hl
  server_cases hs <;> simp only [who, lines, threadLines] at * <;> grind [upd_apply, pending, attempt, early, ServerModel.entry, PC.fits, Ret.fits, PC.running]

theorem inv_step {s s' : State} {a : ServerModel.Action × Note} (h : Inv s) (hs : step s a = some s') : Inv s' :=
  have h0 := (step_spec hs).1
  ⟨ServerModel.goInv_step h.go h0, ServerModel.fitInv_step h.go h.fit h0, ServerModel.startInv_step h.st h0, starter_step h.go h.fit h.starter h0, user_step h.user h0,
    idle_step h hs, start_step h hs, serve_step h hs, conn_step h hs, close_step h hs⟩

theorem inv_of_reachable {c : Option Addr} {s : State} (h : Reachable step (init c) s) : Inv s :=
  h.invariant Inv (inv_init c) fun _ _ _ => inv_step

/-! ### The rest -/

theorem server_reachable {c : Option Addr} {s : State} (h : Reachable step (init c) s) : Reachable ServerModel.step (ServerModel.init c) s.server := by
  refine h.invariant (fun s => Reachable ServerModel.step (ServerModel.init c) s.server) ⟨[], rfl⟩ ?_
  intro s a s' h hs
  exact h.next (step_spec hs).1

theorem server_all {c : Option Addr} {t : ServerModel.State} (h : Reachable ServerModel.step (ServerModel.init c) t) :
    ∃ s, Reachable step (init c) s ∧ s.server = t := by
  refine h.invariant (fun t => ∃ s, Reachable step (init c) s ∧ s.server = t) ⟨init c, ⟨[], rfl⟩, rfl⟩ ?_
  rintro t a t' ⟨s, hr, rfl⟩ hs
  obtain ⟨s', h'⟩ : ∃ s', step s (a, ⟨false, fun _ => false⟩) = some s' := by
    unfold step
    rw [hs]
    exact ⟨_, rfl⟩
  refine ⟨s', hr.next h', ?_⟩
  have := (step_spec h').1
  rw [hs] at this
  exact (Option.some.inj this).symm

/-- `heard` is what `Accept` has returned. -/
theorem heard_of_reachable {c : Option Addr} {s : State} (h : Reachable step (init c) s) (t : Tid) :
    (s.heard t).map (·.1) = failures (s.server.accepts t) := by
  revert t
  refine h.invariant (fun s => ∀ t, (s.heard t).map (·.1) = failures (s.server.accepts t)) (fun t => rfl) ?_
  intro s a s' h hstep t
  obtain ⟨hs, -, hh⟩ := step_spec hstep
  clear hstep
  obtain ⟨a, n⟩ := a
  have h1 := h t
  rw [hh t]
  clear h hh
  obtain ⟨srv, log, heard⟩ := s
  obtain ⟨srv', log', heard'⟩ := s'
  dsimp only at *
  server_cases hs <;> simp only [who, failure] <;> grind [upd_apply, failures]

/-- "server: closing" is logged by the `Close` that has fired `shutdown`, once. -/
structure ClosingInv (s : State) : Prop where
  one : ∀ t u, .closing ∈ s.log t → .closing ∈ s.log u → t = u
  fired : s.server.shutdown = true ↔ ∃ t, .closing ∈ s.log t
  once : ∀ t, (s.log t).count .closing ≤ 1

/-- The step is the one in `Close` that fires `shutdown`. -/
def fires (s : ServerModel.State) : ServerModel.Action → Bool
  | .thread t => decide (s.pc t = .closeFire) && !s.shutdown
  | _ => false

theorem closing_lines (s : ServerModel.State) (n : Note) (a : ServerModel.Action) :
    (lines s n a).count .closing = if fires s a then 1 else 0 := by
  have h0 : ∀ ts : List Tid, (ts.map Line.sessionError).count .closing = 0 := by
    intro ts
    rw [List.count_eq_zero]
    simp
  have h1 : ∀ o : Option Addr, ((o.map Line.serving).toList).count .closing = 0 := by
    intro o
    rw [List.count_eq_zero]
    cases o <;> simp
  cases a with
  | thread t =>
    simp only [lines, threadLines]
    split
    all_goals simp_all [oldLines, connLine, fires]
    all_goals repeat' split
    all_goals simp_all
  | takeConfig t => simp [lines, h1, fires]
  | listen t ok =>
    simp only [lines, fires]
    repeat' split
    all_goals simp_all
  | accept t o =>
    cases o <;> simp only [lines, fires] <;> repeat' split
    all_goals simp_all
  | _ => simp [lines, fires]

theorem shutdown_step {s s' : ServerModel.State} {a : ServerModel.Action} (hs : ServerModel.step s a = some s') :
    s'.shutdown = (s.shutdown || fires s a) := by
  server_cases hs <;> simp_all [fires]

theorem closing_of_reachable {c : Option Addr} {s : State} (h : Reachable step (init c) s) : ClosingInv s := by
  refine h.invariant ClosingInv ?_ ?_
  · constructor <;> simp [init, ServerModel.init]
  intro s a s' h hstep
  obtain ⟨hs, hl, -⟩ := step_spec hstep
  clear hstep
  obtain ⟨h1, h2, h3⟩ := h
  have hsh := shutdown_step hs
  have hc := closing_lines s.server a.2 a.1
  have hw : fires s.server a.1 = true → (∃ u, who a.1 = some u) ∧ s.server.shutdown = false := by
    intro hf
    unfold fires at hf
    split at hf
    · rename_i e
      rw [e]
      exact ⟨⟨_, rfl⟩, by simpa using (by simpa using hf : _ ∧ _).2⟩
    · cases hf
  have hcount : ∀ t, (s'.log t).count .closing = (s.log t).count .closing + if who a.1 = some t ∧ fires s.server a.1 = true then 1 else 0 := by
    intro t
    rw [hl t]
    by_cases e : who a.1 = some t <;> simp [e, hc]
  have hmem : ∀ t, .closing ∈ s'.log t ↔ .closing ∈ s.log t ∨ who a.1 = some t ∧ fires s.server a.1 = true := by
    intro t
    rw [← List.count_pos_iff, ← List.count_pos_iff, hcount t]
    split <;> simp_all
  have hpos : ∀ t, .closing ∉ s.log t → (s.log t).count .closing = 0 := fun t => List.count_eq_zero.mpr
  constructor
  · intro t u ht hu
    grind
  · grind
  · intro t
    grind

end Gevulot.ServerLog
