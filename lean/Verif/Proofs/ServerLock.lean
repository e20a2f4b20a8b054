import Verif.Proofs.ServerRest
import Verif.Spec.ServerLock

namespace Gevulot.ServerLock

open ServerModel (Tid PC Ret closeListener closeResult)

theorem upd_comm {α β : Type} [DecidableEq α] (f : α → β) {a b : α} (h : a ≠ b) (x y : β) : upd (upd f a x) b y = upd (upd f b y) a x := by
  funext c
  simp only [upd_apply]
  by_cases h1 : c = a <;> by_cases h2 : c = b <;> simp_all

/-- What is left to be done in a section, done. -/
def patch (l : Option Nat) (i : List Nat) (d : Tid → Bool) (ss : List Tid) (t : Tid) (p : PC) (g : ServerModel.State) : ServerModel.State :=
  { g with listener := l, installed := i, connClosed := fun x => g.connClosed x || d x, sessions := ss, pc := upd g.pc t p }

/-- The state, with what is left to be done in a section done as soon as the first thing was done. -/
def abs (s : State) : ServerModel.State :=
  match s.held with
  | none => s.base
  | some (_, .entered) => s.base
  | some (t, .assign) =>
    match s.base.pc t with
    | .serveLock ln => patch (some ln) (s.base.installed ++ [ln]) (fun _ => false) s.base.sessions t (.serveAccept ln) s.base
    | _ => s.base
  | some (t, .forget r) => patch none s.base.installed (fun x => decide (x ∈ s.base.sessions)) [] t (.closeWait r) s.base
  | some (t, .sessions r todo) => patch none s.base.installed (fun x => decide (x ∈ todo)) [] t (.closeWait r) s.base
  | some (t, .reset r) => patch none s.base.installed (fun _ => false) [] t (.closeWait r) s.base
  | some (t, .leave p) => patch s.base.listener s.base.installed (fun _ => false) s.base.sessions t p s.base

/-- Where the thread is that has the mutex. -/
def Holds (g : ServerModel.State) (t : Tid) : Section → Prop
  | .entered => locks (g.pc t) = true
  | .assign => ∃ ln, g.pc t = .serveLock ln
  | .forget _ => g.pc t = .closeLock
  | .sessions _ _ => g.pc t = .closeLock ∧ g.listener = none
  | .reset _ => g.pc t = .closeLock ∧ g.listener = none
  | .leave p => locks (g.pc t) = true ∧ p ≠ .idle

theorem locks_of_holds {g : ServerModel.State} {t : Tid} {x : Section} (h : Holds g t x) : locks (g.pc t) = true := by
  cases x with
  | entered => exact h
  | assign => obtain ⟨ln, h⟩ := h; rw [h]; rfl
  | forget r => rw [show g.pc t = .closeLock from h]; rfl
  | sessions r todo => rw [h.1]; rfl
  | reset r => rw [h.1]; rfl
  | leave p => exact h.1

/-- A step without the mutex does not touch what the mutex guards, and can be made by others while somebody has it. -/
theorem step_patch {g g' : ServerModel.State} {a : ServerModel.Action} (hl : locked g a = false) (hs : ServerModel.step g a = some g') (l : Option Nat)
    (i : List Nat) (d : Tid → Bool) (ss : List Tid) {t : Tid} {p : PC} (ht : locks (g.pc t) = true) (hf : t ≠ .go g.spawned) :
    ServerModel.step (patch l i d ss t p g) a = some (patch l i d ss t p g') := by
  obtain ⟨⟨hp1, hp2⟩, htr⟩ := ServerModel.step_tr hs
  clear hs
  have hne : ∀ u q, g.pc u = q → locks q = false → u ≠ t := by
    rintro u q hq hlq rfl
    rw [hq, hlq] at ht; simp at ht
  have hcomm : ∀ u q, g.pc u = q → locks q = false → ∀ x, upd (upd g.pc t p) u x = upd (upd g.pc u x) t p := fun u q h1 h2 x => upd_comm _ (Ne.symm (hne u q h1 h2)) _ _
  have hpc : ∀ u q, g.pc u = q → locks q = false → upd g.pc t p u = q := fun u q h1 h2 => by rw [upd_other _ _ (hne u q h1 h2), h1]
  cases htr
  case call n op h he =>
    have he' : op.exists (patch l i d ss t p g) = true := by cases op <;> simp_all [ServerModel.Op.exists, patch]
    simp [ServerModel.step, patch, hp1, hp2, hpc _ _ h rfl, hcomm _ _ h rfl] at he' ⊢
    exact he'
  case startDo u ln h =>
    have h1 : upd (upd (upd g.pc t p) (.go g.spawned) (.serveCheck ln)) u .startLoop = upd (upd (upd g.pc (.go g.spawned) (.serveCheck ln)) u .startLoop) t p := by
      rw [upd_comm _ hf, upd_comm _ (Ne.symm (hne _ _ h rfl))]
    simp [ServerModel.step, patch, hp1, hp2, hpc _ _ h rfl, ServerModel.spawn, ServerModel.entry, h1]
  case serveDo u ln c h =>
    have h1 : upd (upd (upd g.pc t p) (.go g.spawned) .connCheck) u (.serveAccept ln) = upd (upd (upd g.pc (.go g.spawned) .connCheck) u (.serveAccept ln)) t p := by
      rw [upd_comm _ hf, upd_comm _ (Ne.symm (hne _ _ h rfl))]
    simp [ServerModel.step, patch, hp1, hp2, hpc _ _ h rfl, ServerModel.spawn, ServerModel.entry, h1]
  case sessionEnd u e h =>
    have h1 : upd (fun x => g.connClosed x || d x) u true = fun x => upd g.connClosed u true x || d x := by
      funext x
      by_cases hx : x = u <;> simp [upd_apply, hx]
    simp [ServerModel.step, patch, hp1, hp2, hpc _ _ h rfl, hcomm _ _ h rfl, h1]
  case install u ln h => simp [locked, h, locks] at hl
  case register u h => simp [locked, h, locks] at hl
  case remove u r h => simp [locked, h, locks] at hl
  case closeAll u h => simp [locked, h, locks] at hl
  case configSame a h hs =>
    simp only [ServerModel.step, patch, hp1, hp2, h, Bool.or_self, Bool.false_eq_true, if_false]
    cases hsub : g.subscribed with
    | false => simp
    | true => simp [hs hsub]
  case configPanic => simp_all [ServerModel.step, patch]
  case configSend => simp_all [ServerModel.step, patch]
  case closeConfig => simp [ServerModel.step, patch, hp1, hp2]
  case userListen => simp [ServerModel.step, patch, hp1, hp2, ServerModel.openListener]
  case userCloseListener => simp [ServerModel.step, patch, hp1, hp2]
  all_goals
    first
    | simp [ServerModel.step, patch, hpc _ _ ‹g.pc _ = _› rfl, hcomm _ _ ‹g.pc _ = _› rfl, *]; done
    | simp [ServerModel.step, patch, hpc _ _ ‹g.pc _ = _› rfl, hcomm _ _ ‹g.pc _ = _› rfl, ServerModel.openListener, *]

theorem ne_of_locks {g : ServerModel.State} {t u : Tid} {q : PC} (h : g.pc u = q) (hq : locks q = false) (ht : locks (g.pc t) = true) : t ≠ u := by
  rintro rfl
  rw [h, hq] at ht; simp at ht

/-- A step without the mutex does not touch what the mutex guards, nor a thread that waits for it or has it. -/
theorem step_keeps {g g' : ServerModel.State} {a : ServerModel.Action} (hl : locked g a = false) (hs : ServerModel.step g a = some g') :
    g'.listener = g.listener ∧ g'.installed = g.installed ∧ g'.sessions = g.sessions ∧
      ∀ t, locks (g.pc t) = true → t ≠ .go g.spawned → g'.pc t = g.pc t := by
  obtain ⟨-, htr⟩ := ServerModel.step_tr hs
  clear hs
  cases htr
  case install u ln h => simp [locked, h, locks] at hl
  case register u h => simp [locked, h, locks] at hl
  case remove u r h => simp [locked, h, locks] at hl
  case closeAll u h => simp [locked, h, locks] at hl
  all_goals refine ⟨rfl, rfl, rfl, fun t ht hf => ?_⟩
  all_goals first
    | rfl
    | (rename_i h
       have hne := ne_of_locks h rfl ht
       simp [upd_apply, hne]; done)
    | (rename_i h
       have hne := ne_of_locks h rfl ht
       simp [upd_apply, hne, hf]; done)
    | (rename_i h _
       have hne := ne_of_locks h rfl ht
       simp [upd_apply, hne, hf])

/-- What is always true. -/
structure Inv (s : State) : Prop where
  go : ServerModel.GoInv (abs s)
  holds : ∀ t x, s.held = some (t, x) → Holds s.base t x

theorem inv_init (c : Option ServerModel.Addr) : Inv (init c) := ⟨ServerModel.goInv_init c, fun t x h => by simp [init] at h⟩

theorem abs_pc_other (s : State) {u : Tid} (h : ∀ x, s.held ≠ some (u, x)) : (abs s).pc u = s.base.pc u := by
  unfold abs
  split
  · rfl
  · rfl
  · have : u ≠ _ := fun e => h _ (by rw [e]; assumption)
    split
    · simp [patch, upd_apply, this]
    · rfl
  all_goals
    have : u ≠ _ := fun e => h _ (by rw [e]; assumption)
    simp [patch, upd_apply, this]

theorem abs_spawned (s : State) : (abs s).spawned = s.base.spawned := by
  unfold abs
  split <;> first | rfl | (split <;> rfl)

theorem abs_flags (s : State) : (abs s).watchdogPanic = s.base.watchdogPanic ∧ (abs s).sendPanic = s.base.sendPanic := by
  unfold abs
  split <;> first | exact ⟨rfl, rfl⟩ | (split <;> exact ⟨rfl, rfl⟩)

/-- The thread with the mutex is not one that is yet to be started. -/
theorem Inv.not_fresh {s : State} (h : Inv s) {t : Tid} {x : Section} (hx : s.held = some (t, x)) : t ≠ .go s.base.spawned := by
  rintro rfl
  have h1 := (h.go.fresh s.base.spawned).2 (by rw [abs_spawned]; omega)
  have h2 := h.holds _ _ hx
  have h3 := locks_of_holds h2
  unfold abs at h1
  rw [hx] at h1
  cases x with
  | entered =>
    simp only at h1
    rw [h1] at h3; simp [locks] at h3
  | assign =>
    obtain ⟨ln, h2⟩ := h2
    simp [h2, patch] at h1
  | leave p =>
    simp only [patch, upd_apply, if_true] at h1
    exact h2.2 h1
  | _ => simp [patch] at h1

theorem Holds.keep {g g' : ServerModel.State} {t : Tid} {x : Section} (h : Holds g t x) (h1 : g'.pc t = g.pc t) (h2 : g'.listener = g.listener) : Holds g' t x := by
  cases x <;> simp_all [Holds]

/-- Each step is one of Model/Server.lean, or none at all. -/
theorem sim {s s' : State} {a : Action} (h : Inv s) (hs : step s a = some s') :
    (∀ t x, s'.held = some (t, x) → Holds s'.base t x) ∧
      match a with
      | .other b => ServerModel.step (abs s) b = some (abs s')
      | .inside => (∃ t, s.held = some (t, .entered) ∧ locks ((abs s).pc t) = true ∧ ServerModel.step (abs s) (.thread t) = some (abs s')) ∨ ((∀ t, s.held ≠ some (t, .entered)) ∧ abs s' = abs s)
      | _ => abs s' = abs s := by
  unfold step at hs
  split at hs
  · simp at hs
  rename_i hp
  have hp' : s.base.watchdogPanic = false ∧ s.base.sendPanic = false := by simpa using hp
  cases a with
  | other b =>
    simp only at hs
    split at hs
    · simp at hs
    rename_i hl
    have hl : locked s.base b = false := by simpa using hl
    simp only [Option.map_eq_some_iff] at hs
    obtain ⟨g', hg, rfl⟩ := hs
    obtain ⟨k1, k2, k3, k4⟩ := step_keeps hl hg
    refine ⟨?_, ?_⟩
    · intro t x hx
      have h1 := h.holds t x hx
      exact h1.keep (k4 t (locks_of_holds h1) (h.not_fresh hx)) k1
    · simp only
      cases hh : s.held with
      | none => simpa [abs, hh] using hg
      | some tx =>
        obtain ⟨t, x⟩ := tx
        have h1 := h.holds t x hh
        have h2 := locks_of_holds h1
        have h3 := h.not_fresh hh
        have h4 := k4 t h2 h3
        cases x with
        | entered => simpa [abs, hh] using hg
        | assign =>
          obtain ⟨ln, h1⟩ := h1
          simp only [abs, hh, h1, h4, k2, k3]
          exact step_patch hl hg _ _ _ _ h2 h3
        | _ =>
          simp only [abs, hh, k1, k2, k3]
          exact step_patch hl hg _ _ _ _ h2 h3
  | lock t =>
    simp only at hs
    split at hs
    · split at hs
      · simp only [Option.some.injEq] at hs; subst hs
        refine ⟨?_, ?_⟩
        · intro u x hx
          simp only [Option.some.injEq, Prod.mk.injEq] at hx
          obtain ⟨rfl, rfl⟩ := hx
          assumption
        · simp [abs, *]
      · simp at hs
    · simp at hs
  | inside =>
    simp only at hs
    split at hs
    · rename_i t hh
      split at hs
      all_goals try (simp at hs; done)
      all_goals
        simp only [Option.some.injEq] at hs; subst hs
        rename_i hpc
        refine ⟨?_, .inl ⟨t, hh, ?_, ?_⟩⟩
        · intro u x hx
          simp only [Option.some.injEq, Prod.mk.injEq] at hx
          obtain ⟨rfl, rfl⟩ := hx
          simp [Holds, hpc, locks]
        · simp [abs, hh, hpc, locks]
        · simp [abs, hh, ServerModel.step, hp', hpc, patch]
    · rename_i t hh
      split at hs
      · rename_i ln hpc
        simp only [Option.some.injEq] at hs; subst hs
        refine ⟨?_, .inr ⟨by simp [hh], ?_⟩⟩
        · intro u x hx
          simp only [Option.some.injEq, Prod.mk.injEq] at hx
          obtain ⟨rfl, rfl⟩ := hx
          simp [Holds, hpc, locks]
        · simp [abs, hh, hpc, patch]
      · simp at hs
    · rename_i t r hh
      simp only [Option.some.injEq] at hs; subst hs
      refine ⟨?_, .inr ⟨by simp [hh], ?_⟩⟩
      · intro u x hx
        simp only [Option.some.injEq, Prod.mk.injEq] at hx
        obtain ⟨rfl, rfl⟩ := hx
        exact ⟨h.holds _ _ hh, rfl⟩
      · simp [abs, hh, patch]
    · rename_i t r hh
      simp only [Option.some.injEq] at hs; subst hs
      refine ⟨?_, .inr ⟨by simp [hh], ?_⟩⟩
      · intro u x hx
        simp only [Option.some.injEq, Prod.mk.injEq] at hx
        obtain ⟨rfl, rfl⟩ := hx
        have h1 : Holds s.base t (.sessions r []) := h.holds _ _ hh
        exact h1
      · simp [abs, hh, patch]
    · rename_i t r hh
      simp only [Option.some.injEq] at hs; subst hs
      have h1 := h.holds _ _ hh
      refine ⟨?_, .inr ⟨by simp [hh], ?_⟩⟩
      · intro u x hx
        simp only [Option.some.injEq, Prod.mk.injEq] at hx
        obtain ⟨rfl, rfl⟩ := hx
        exact ⟨(locks_of_holds h1 : locks (s.base.pc t) = true), by simp⟩
      · simp [abs, hh, patch, h1.2]
    · rename_i t p hh
      simp only [Option.some.injEq] at hs; subst hs
      exact ⟨by simp, .inr ⟨by simp [hh], by simp [abs, hh, patch]⟩⟩
    · simp at hs
  | closeSession u =>
    simp only at hs
    split at hs
    · rename_i t r todo hh
      split at hs
      · rename_i hu
        simp only [Option.some.injEq] at hs; subst hs
        refine ⟨?_, ?_⟩
        · intro u' x hx
          simp only [Option.some.injEq, Prod.mk.injEq] at hx
          obtain ⟨rfl, rfl⟩ := hx
          exact h.holds _ _ hh
        · simp only [abs, hh, patch]
          congr 1
          funext x
          by_cases hx : x = u
          · subst hx; simp [hu]
          · simp [upd_apply, hx]
      · simp at hs
    · simp at hs

theorem inv_step (s : State) (a : Action) (s' : State) (h : Inv s) (hs : step s a = some s') : Inv s' := by
  obtain ⟨h1, h2⟩ := sim h hs
  refine ⟨?_, h1⟩
  cases a with
  | other b => exact ServerModel.goInv_step h.go h2
  | lock t => simp only at h2; rw [h2]; exact h.go
  | inside =>
    rcases h2 with ⟨t, -, -, h2⟩ | ⟨-, h2⟩
    · exact ServerModel.goInv_step h.go h2
    · rw [h2]; exact h.go
  | closeSession u => simp only at h2; rw [h2]; exact h.go

theorem inv_of_reachable {c : Option ServerModel.Addr} {s : State} (h : Reachable step (init c) s) : Inv s := h.invariant Inv (inv_init c) inv_step

/-- The abstraction is reachable in Model/Server.lean. -/
theorem abs_reachable {c : Option ServerModel.Addr} {s : State} (h : Reachable step (init c) s) : Reachable ServerModel.step (ServerModel.init c) (abs s) := by
  refine (h.invariant (fun s => Inv s ∧ Reachable ServerModel.step (ServerModel.init c) (abs s)) ⟨inv_init c, .refl _⟩ ?_).2
  rintro s a s' ⟨hi, hr⟩ hs
  refine ⟨inv_step s a s' hi hs, ?_⟩
  have h2 := (sim hi hs).2
  cases a with
  | other b => exact hr.next h2
  | lock t => simp only at h2; rw [h2]; exact hr
  | inside =>
    rcases h2 with ⟨t, -, -, h2⟩ | ⟨-, h2⟩
    · exact hr.next h2
    · rw [h2]; exact hr
  | closeSession u => simp only at h2; rw [h2]; exact hr

theorem looksLike_abs (s : State) : LooksLike s (abs s) := by
  refine ⟨fun h => by simp [abs, h], fun u h => abs_pc_other s h, ?_, ?_, ?_, ?_, ?_, ?_, ?_, ?_, ?_, ?_, ?_, ?_, ?_, ?_, ?_, ?_, ?_, ?_, ?_, ?_⟩
  · intro u hu
    unfold abs
    split <;> first | exact hu | (simp [patch, hu]; done) | (split <;> simp [patch, hu])
  all_goals (unfold abs; split <;> first | rfl | (split <;> rfl))

/-! ### The other direction -/

theorem close_sessions (n : Nat) : ∀ (g : ServerModel.State) (t : Tid) (r : Ret) (todo : List Tid), todo.length ≤ n → g.watchdogPanic = false → g.sendPanic = false →
    Reachable step ⟨g, some (t, .sessions r todo)⟩ ⟨{ g with connClosed := fun x => g.connClosed x || decide (x ∈ todo) }, some (t, .sessions r [])⟩ := by
  induction n with
  | zero =>
    intro g t r todo hn hp1 hp2
    have : todo = [] := by cases todo <;> simp_all
    subst this
    simpa using Reachable.refl _
  | succ n ih =>
    intro g t r todo hn hp1 hp2
    cases todo with
    | nil => simpa using Reachable.refl _
    | cons u rest =>
      have h1 : step ⟨g, some (t, .sessions r (u :: rest))⟩ (.closeSession u) =
          some ⟨{ g with connClosed := upd g.connClosed u true }, some (t, .sessions r ((u :: rest).filter (· ≠ u)))⟩ := by
        simp [step, hp1, hp2]
      refine ((Reachable.refl _).next h1).trans ?_
      have hlen : ((u :: rest).filter (· ≠ u)).length ≤ n := by
        have := List.length_filter_le (· ≠ u) rest
        simp only [List.length_cons] at hn
        simp only [List.filter_cons, ne_eq, not_true_eq_false, decide_false, Bool.false_eq_true, if_false]
        simp only [ne_eq] at this
        omega
      have h2 := ih { g with connClosed := upd g.connClosed u true } t r ((u :: rest).filter (· ≠ u)) hlen hp1 hp2
      have h3 : (fun x => upd g.connClosed u true x || decide (x ∈ (u :: rest).filter (· ≠ u))) = fun x => g.connClosed x || decide (x ∈ u :: rest) := by
        funext x
        by_cases hx : x = u
        · subst hx; simp
        · simp [upd_apply, hx]
      simp only [h3] at h2
      exact h2

/-- Each step of Model/Server.lean can be made. -/
theorem fine_step {g g' : ServerModel.State} {a : ServerModel.Action} (hs : ServerModel.step g a = some g') : Reachable step ⟨g, none⟩ ⟨g', none⟩ := by
  obtain ⟨⟨hp1, hp2⟩, htr⟩ := ServerModel.step_tr hs
  cases hl : locked g a with
  | false => exact ⟨[.other a], by simp [run, step, hp1, hp2, hl, hs]⟩
  | true =>
    cases a <;> simp [locked] at hl
    rename_i t
    clear hs
    cases htr <;> simp [‹g.pc _ = _›, locks] at hl
    case install ln h => exact ⟨[.lock t, .inside, .inside, .inside], by simp [run, step, hp1, hp2, h, locks]⟩
    case register h => exact ⟨[.lock t, .inside, .inside], by simp [run, step, hp1, hp2, h, locks]⟩
    case remove r h => exact ⟨[.lock t, .inside, .inside], by simp [run, step, hp1, hp2, h, locks]⟩
    case closeAll h =>
      have h1 : Reachable step ⟨g, none⟩ ⟨{ g with lnOpen := closeListener g, listener := none }, some (t, .sessions (closeResult g) g.sessions)⟩ :=
        ⟨[.lock t, .inside, .inside], by simp [run, step, hp1, hp2, h, locks]⟩
      have h2 := close_sessions g.sessions.length { g with lnOpen := closeListener g, listener := none } t (closeResult g) g.sessions (Nat.le_refl _) hp1 hp2
      exact (h1.trans h2).trans ⟨[.inside, .inside, .inside], by simp [run, step, hp1, hp2]⟩

theorem fine_run {g g' : ServerModel.State} (h : Reachable ServerModel.step g g') : Reachable step ⟨g, none⟩ ⟨g', none⟩ :=
  h.invariant (fun x => Reachable step ⟨g, none⟩ ⟨x, none⟩) (.refl _) fun _ _ _ hr hs => hr.trans (fine_step hs)

/-- A run, seen in Model/Server.lean. -/
theorem abs_run {s s' : State} {acts : List Action} (hi : Inv s) (hr : run step s acts = some s') : Reachable ServerModel.step (abs s) (abs s') := by
  refine (run_invariant (fun x => Inv x ∧ Reachable ServerModel.step (abs s) (abs x)) ⟨hi, .refl _⟩ ?_ hr).2
  rintro x a x' ⟨hi, hr⟩ hs
  refine ⟨inv_step x a x' hi hs, ?_⟩
  have h2 := (sim hi hs).2
  cases a with
  | other b => exact hr.next h2
  | lock t => simp only at h2; rw [h2]; exact hr
  | inside =>
    rcases h2 with ⟨t, -, -, h2⟩ | ⟨-, h2⟩
    · exact hr.next h2
    · rw [h2]; exact hr
  | closeSession u => simp only at h2; rw [h2]; exact hr

/-! ### Nobody waits for ever -/

/-- The thread that has the mutex can go on. -/
theorem holder_goes_on {s : State} (hi : Inv s) (hp : s.base.watchdogPanic = false ∧ s.base.sendPanic = false) {t : Tid} {x : Section} (hx : s.held = some (t, x)) :
    (∃ s', step s .inside = some s') ∨ ∃ u s', step s (.closeSession u) = some s' := by
  have h1 := hi.holds t x hx
  cases x with
  | entered =>
    left
    cases hpc : s.base.pc t <;> simp [Holds, hpc, locks] at h1 <;> simp [step, hp, hx, hpc]
  | assign =>
    obtain ⟨ln, h1⟩ := h1
    left; simp [step, hp, hx, h1]
  | forget r => left; simp [step, hp, hx]
  | sessions r todo =>
    cases todo with
    | nil => left; simp [step, hp, hx]
    | cons u rest => right; exact ⟨u, by simp [step, hp, hx]⟩
  | reset r => left; simp [step, hp, hx]
  | leave p => left; simp [step, hp, hx]

theorem rest_free {s : State} (hi : Inv s) (hp : s.base.watchdogPanic = false ∧ s.base.sendPanic = false) (hr : AtRest s) : s.held = none := by
  cases hx : s.held with
  | none => rfl
  | some tx =>
    rcases holder_goes_on (x := tx.2) (t := tx.1) hi hp hx with ⟨s', h⟩ | ⟨u, s', h⟩
    · rw [hr .inside rfl] at h; simp at h
    · rw [hr (.closeSession u) rfl] at h; simp at h

theorem rest_base {s : State} (hi : Inv s) (hp : s.base.watchdogPanic = false ∧ s.base.sendPanic = false) (hr : AtRest s) : ServerModel.AtRest s.base := by
  intro a ha
  have hf := rest_free hi hp hr
  cases hl : locked s.base a with
  | false =>
    have h1 := hr (.other a) ha
    simpa [step, hp, hl] using h1
  | true =>
    cases a <;> simp [locked] at hl
    rename_i t
    have h1 := hr (.lock t) rfl
    simp [step, hp, hf, hl] at h1

/-- How far the thread with the mutex is from giving it back. -/
def phase (s : State) : Nat :=
  match s.held with
  | none => 3
  | some (_, .entered) => 2
  | some (_, .assign) => 6
  | some (_, .forget _) => 8 + s.base.sessions.length
  | some (_, .sessions _ todo) => 6 + todo.length
  | some (_, .reset _) => 5
  | some (_, .leave _) => 4

theorem phase_step {m : Nat} {s s' : State} {a : Action} (hi : Inv s) (hm : ServerModel.Callers m (abs s)) (ha : a.own = true) (hs : step s a = some s') :
    10 * ServerModel.weight m (abs s') + phase s' < 10 * ServerModel.weight m (abs s) + phase s := by
  have h2 := (sim hi hs).2
  cases a with
  | other b =>
    have h3 := ServerModel.weight_step hi.go hm ha h2
    have h4 : phase s' = phase s := by
      unfold step at hs
      split at hs
      · simp at hs
      simp only at hs
      split at hs
      · simp at hs
      rename_i hl
      simp only [Option.map_eq_some_iff] at hs
      obtain ⟨g', hg, rfl⟩ := hs
      obtain ⟨-, -, k3, -⟩ := step_keeps (by simpa using hl) hg
      simp [phase, k3]
    omega
  | lock t =>
    simp only at h2
    rw [h2]
    have : phase s = 3 ∧ phase s' = 2 := by
      unfold step at hs
      split at hs
      · simp at hs
      simp only at hs
      split at hs
      · split at hs
        · simp only [Option.some.injEq] at hs; subst hs
          simp [phase, *]
        · simp at hs
      · simp at hs
    omega
  | inside =>
    rcases h2 with ⟨t, hh, -, h2⟩ | ⟨hne, h2⟩
    · have h3 := ServerModel.weight_step hi.go hm rfl h2
      have habs : abs s = s.base := by simp [abs, hh]
      have h4 : phase s = 2 ∧ phase s' ≤ 8 + ServerModel.swept (abs s) (.thread t) := by
        rw [habs]
        refine ⟨by simp [phase, hh], ?_⟩
        unfold step at hs
        split at hs
        · simp at hs
        simp only [hh] at hs
        split at hs
        all_goals try (simp at hs; done)
        all_goals
          simp only [Option.some.injEq] at hs; subst hs
          simp [phase, ServerModel.swept, *]
      omega
    · rw [h2]
      have : phase s' < phase s := by
        unfold step at hs
        split at hs
        · simp at hs
        simp only at hs
        split at hs
        · rename_i t hh; exact absurd hh (hne t)
        · split at hs
          · simp only [Option.some.injEq] at hs; subst hs; simp [phase, *]
          · simp at hs
        · simp only [Option.some.injEq] at hs; subst hs; simp [phase, *]
        · simp only [Option.some.injEq] at hs; subst hs; simp [phase, *]
        · simp only [Option.some.injEq] at hs; subst hs; simp [phase, *]
        · simp only [Option.some.injEq] at hs; subst hs; simp [phase, *]
        · simp at hs
      omega
  | closeSession u =>
    simp only at h2
    rw [h2]
    have : phase s' < phase s := by
      unfold step at hs
      split at hs
      · simp at hs
      simp only at hs
      split at hs
      · rename_i t r todo hh
        split at hs
        · rename_i hu
          simp only [Option.some.injEq] at hs; subst hs
          simp only [phase, hh]
          have : (todo.filter (· ≠ u)).length < todo.length := List.length_filter_lt_length_iff_exists.2 ⟨u, hu, by simp⟩
          omega
        · simp at hs
      · simp at hs
    omega

theorem callers_step {m : Nat} {s s' : State} {a : Action} (hi : Inv s) (ha : a.own = true) (hm : ServerModel.Callers m (abs s)) (hs : step s a = some s') :
    ServerModel.Callers m (abs s') := by
  have h2 := (sim hi hs).2
  cases a with
  | other b => exact ServerModel.callers_step ha hm h2
  | lock t => simp only at h2; rw [h2]; exact hm
  | inside =>
    rcases h2 with ⟨t, -, -, h2⟩ | ⟨-, h2⟩
    · exact ServerModel.callers_step (a := .thread t) rfl hm h2
    · rw [h2]; exact hm
  | closeSession u => simp only at h2; rw [h2]; exact hm

theorem finite {c : Option ServerModel.Addr} {s : State} (h : Reachable step (init c) s) :
    ∃ n, ∀ acts s', (∀ a ∈ acts, a.own = true) → run step s acts = some s' → acts.length ≤ n := by
  obtain ⟨m, hm⟩ := ServerModel.callers_of_reachable (abs_reachable h)
  refine ⟨10 * ServerModel.weight m (abs s) + phase s, fun acts s' ha hr => ?_⟩
  have := run_measure (fun a => a.own = true) (fun s => 10 * ServerModel.weight m (abs s) + phase s) (fun x => Inv x ∧ ServerModel.Callers m (abs x)) ⟨inv_of_reachable h, hm⟩
    (fun _ _ _ ha h hs => ⟨inv_step _ _ _ h.1 hs, callers_step h.1 ha h.2 hs⟩)
    (fun _ _ _ ha h hs => phase_step h.1 h.2 ha hs) ha hr
  omega

/-! ### The listeners while somebody has the mutex -/

/-- The listener being replaced is closed already. -/
def Replaced (s : State) : Prop := ∀ t, s.held = some (t, .assign) → ∀ ln ∈ s.base.installed, s.base.lnOpen ln = false

theorem abs_lnOpen (s : State) : (abs s).lnOpen = s.base.lnOpen ∧ (abs s).lnCount = s.base.lnCount := by
  unfold abs
  split <;> first | exact ⟨rfl, rfl⟩ | (split <;> exact ⟨rfl, rfl⟩)

theorem abs_installed (s : State) : ∀ ln ∈ s.base.installed, ln ∈ (abs s).installed := by
  intro ln hln
  unfold abs
  split <;> first | exact hln | (split <;> simp [patch, hln])

/-- A listener that was made and closed is not opened again. -/
theorem stays_closed {g g' : ServerModel.State} {a : ServerModel.Action} (hs : ServerModel.step g a = some g') {ln : Nat} (h1 : ln < g.lnCount) (h2 : g.lnOpen ln = false) :
    g'.lnOpen ln = false := by
  obtain ⟨-, htr⟩ := ServerModel.step_tr hs
  clear hs
  cases htr <;> grind [upd_apply, ServerModel.closeListener_apply]

theorem replaced_of_reachable {c : Option ServerModel.Addr} {s : State} (h : Reachable step (init c) s) : Replaced s := by
  refine (h.invariant (fun s => Inv s ∧ ServerModel.ListenInv (abs s) ∧ Replaced s) ⟨inv_init c, ServerModel.listenInv_init c, fun t ht => by simp [init] at ht⟩ ?_).2.2
  rintro s a s' ⟨hi, hl, hr⟩ hs
  have h2 := (sim hi hs).2
  refine ⟨inv_step s a s' hi hs, ?_, ?_⟩
  · cases a with
    | other b => exact ServerModel.listenInv_step hl h2
    | lock t => simp only at h2; rw [h2]; exact hl
    | inside =>
      rcases h2 with ⟨t, -, -, h2⟩ | ⟨-, h2⟩
      · exact ServerModel.listenInv_step hl h2
      · rw [h2]; exact hl
    | closeSession u => simp only at h2; rw [h2]; exact hl
  · intro t ht ln hln
    unfold step at hs
    split at hs
    · simp at hs
    cases a with
    | other b =>
      simp only at hs
      split at hs
      · simp at hs
      rename_i hlk
      simp only [Option.map_eq_some_iff] at hs
      obtain ⟨g', hg, rfl⟩ := hs
      obtain ⟨-, k2, -, -⟩ := step_keeps (by simpa using hlk) hg
      simp only at ht hln ⊢
      rw [k2] at hln
      refine stays_closed hg ?_ (hr t ht ln hln)
      have := hl.bound ln (abs_installed s ln hln)
      rwa [(abs_lnOpen s).2] at this
    | lock u =>
      simp only at hs
      split at hs
      · split at hs
        · simp only [Option.some.injEq] at hs; subst hs; simp at ht
        · simp at hs
      · simp at hs
    | inside =>
      simp only at hs
      split at hs
      · rename_i u hh
        have habs : abs s = s.base := by simp [abs, hh]
        rw [habs] at hl
        split at hs
        all_goals try (simp at hs; done)
        all_goals simp only [Option.some.injEq] at hs; subst hs; simp at ht
        simp only at hln ⊢
        rw [ServerModel.closeListener_apply]
        cases ho : s.base.lnOpen ln with
        | false => simp
        | true => simp [hl.current ln hln ho]
      · split at hs
        · simp only [Option.some.injEq] at hs; subst hs; simp at ht
        · simp at hs
      · simp only [Option.some.injEq] at hs; subst hs; simp at ht
      · simp only [Option.some.injEq] at hs; subst hs; simp at ht
      · simp only [Option.some.injEq] at hs; subst hs; simp at ht
      · simp only [Option.some.injEq] at hs; subst hs; simp at ht
      · simp at hs
    | closeSession u =>
      simp only at hs
      split at hs
      · split at hs
        · simp only [Option.some.injEq] at hs; subst hs; simp at ht
        · simp at hs
      · simp at hs

theorem current_of_reachable {c : Option ServerModel.Addr} {s : State} (h : Reachable step (init c) s) (ln : Nat) (hi : ln ∈ s.base.installed) (ho : s.base.lnOpen ln = true) :
    s.base.listener = some ln := by
  have h1 := (ServerModel.inv_of_reachable (abs_reachable h)).listen.current ln (abs_installed s ln hi) (by rw [(abs_lnOpen s).1]; exact ho)
  have h2 := replaced_of_reachable h
  have h3 := (inv_of_reachable h).holds
  unfold abs at h1
  split at h1
  · exact h1
  · exact h1
  · rename_i t hh
    rw [h2 t hh ln hi] at ho; simp at ho
  all_goals first | exact h1 | simp [patch] at h1

end Gevulot.ServerLock
