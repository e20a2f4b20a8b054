import Verif.Proofs.WholeRest
import Verif.Proofs.PiecesEnd
import Verif.Props.Served

/-!
# The whole program, with messages read and written piece by piece: how it ends, and that it comes to rest
-/

namespace Gevulot.Whole

open ServerModel (Tid PC)
open SessionModel (Peer)

variable {parse : Bytes → Option ConnectionParams} {bytes : Nat → Bytes} {path : Option Nat} {text : Nat → CliModel.Text}

theorem other_cases {s s' : State} {a : Process.Action} (h : step parse bytes s (.other a) = some s') :
    replaced a = false ∧ ∃ p, Process.step parse bytes s.proc a = some p ∧ s' = { s with proc := p } := by
  simp only [step] at h
  split at h
  · simp at h
  · rename_i hr
    obtain ⟨p, hp, rfl⟩ := Option.map_eq_some_iff.mp h
    exact ⟨by simpa using hr, p, hp, rfl⟩

theorem run_last {σ α : Type} {step : σ → α → Option σ} {s s' : σ} {acts : List α} {a : α} (h : run step s (acts ++ [a]) = some s') :
    ∃ u, run step s acts = some u ∧ step u a = some s' := by
  rw [run_append] at h
  cases hu : run step s acts with
  | none => rw [hu] at h; simp at h
  | some u =>
    rw [hu] at h
    refine ⟨u, rfl, ?_⟩
    simp only [Option.bind_some, run] at h
    cases hx : step u a with
    | none => rw [hx] at h; simp at h
    | some y => rw [hx] at h; simpa using h

theorem startup_no_panic {buffer : Bytes} {x : Panic} (hl : 4 ≤ buffer.length) : parseStartupMessage (.startup buffer) ≠ .panic x := by
  intro h
  unfold parseStartupMessage at h
  rw [Frame.messageBody, if_neg (by simp; omega)] at h
  have := startupMessageBody_not_panic (buffer.drop 4)
  simp only [Res.bind_ok] at h
  exact this (by rw [show (startupMessageBody (buffer.drop 4)).1 = _ from h]; simp [Res.IsPanic])

theorem piece_crash {s x : Pieces.State} {a : Pieces.Action} (h : Pieces.step parse s a = some x) (ha : ∀ b, a ≠ .other b)
    (hx : x.sess.base.crashed = true) :
    ∃ p n y, a = .read p n ∧ parseMessage (.standard (s.rbuf p ++ (s.sess.base.conn p).unread.take n)) = .panic y := by
  have hc := piece_alive h
  unfold Pieces.step at h
  dsimp only at h
  rw [hc] at h
  simp only [Bool.false_eq_true, if_false] at h
  cases a with
  | other b => exact absurd rfl (ha b)
  | read p n =>
    simp only at h
    split at h
    · split at h
      · simp only [Option.some.injEq] at h; subst h; simp [Pieces.State.with, hc] at hx
      · split at h
        · simp only [Option.some.injEq] at h; subst h; simp [Pieces.State.with, hc] at hx
        · simp only [Option.some.injEq] at h; subst h; simp [Pieces.State.with, hc] at hx
        · rename_i y hy
          exact ⟨p, n, y, rfl, hy⟩
    · simp at h
  | readStartup n =>
    exfalso
    simp only at h
    split at h
    · split at h
      · split at h
        · simp only [Option.some.injEq] at h; subst h; simp [Pieces.State.with, hc] at hx
        · rename_i hlt
          split at h
          · (repeat' split at h) <;> simp only [Option.some.injEq] at h <;> subst h <;> simp [Pieces.State.with, hc] at hx
          · simp only [Option.some.injEq] at h; subst h; simp [Pieces.State.with, hc] at hx
          · rename_i y hy
            refine startup_no_panic ?_ hy
            have := Pieces.startupTarget_pos (s.rbuf .client ++ (s.sess.base.conn .client).unread.take n)
            omega
      · simp at h
    · simp at h
  | _ =>
    exfalso
    simp only at h
    (repeat' split at h) <;> simp at h <;> subst h <;> simp [Pieces.State.with, hc] at hx

/-- How the program ends. -/
theorem ends {s s' : State} {a : Action} (h : Reachable (step parse bytes) (init path text) s) (hs : step parse bytes s a = some s')
    (ho : s'.proc.over = true) :
    (a = .other .main ∧ s.proc.main = .prepare ∧ s.proc.cli.main = .failed) ∨
    ∃ t p n y, a = .piece t (.read p n) ∧ parseMessage (.standard (s.rbuf t p ++ ((s.proc.sys.sess t).base.conn p).unread.take n)) = .panic y := by
  obtain ⟨hi, hr⟩ := abs_reachable h
  cases a with
  | other a =>
    left
    obtain ⟨hrep, p, hp, rfl⟩ := other_cases hs
    obtain ⟨-, t, acts, g1, g2, g3⟩ := proc_other hi hrep hp
    obtain ⟨u, hu, hua⟩ := run_last g3
    rcases Process.C73_end u _ (hr.trans ⟨_, hu⟩) a hua ho with ⟨rfl, k1, k2⟩ | ⟨t', p', x, rest, rfl, -⟩
    · have : acts = [] := Classical.byContradiction fun hn => by have := g2 hn; simp at this
      subst this
      simp only [List.map_nil, run, Option.some.injEq] at hu
      subst hu
      exact ⟨rfl, k1, k2⟩
    · simp [replaced, Pieces.replaced] at hrep
  | piece t a =>
    right
    obtain ⟨h1, h2, x, hx, rfl⟩ := piece_cases hs
    have hc : x.sess.base.crashed = true := by
      simp only [Process.State.over, Bool.or_eq_false_iff] at h1
      simp only [decide_eq_false_iff_not] at h1
      simpa [State.set, Process.State.over, h1] using ho
    obtain ⟨p, n, y, rfl, hy⟩ := piece_crash hx h2 hc
    exact ⟨t, p, n, y, rfl, hy⟩

/-! ### It comes to rest -/

/-- Only sessions that are served read and write. -/
theorem piece_called {s x : Pieces.State} {a : Pieces.Action} (hi : Pieces.Inv s) (h : Pieces.step parse s a = some x) (ha : ∀ b, a ≠ .other b) :
    s.sess.base.start ≠ .notCalled := by
  intro hn
  have hp := (hi.pumps (.inl hn)).1
  have hh : s.sess.hs = .idle := by
    have := hi.hs
    rw [hn] at this
    revert this
    cases s.sess.hs <;> simp [Pieces.hsOk]
  unfold Pieces.step at h
  dsimp only at h
  split at h
  · simp at h
  cases a with
  | other b => exact absurd rfl (ha b)
  | _ => simp [hh, hp] at h

theorem below {s : State} (h : Reachable (step parse bytes) (init path text) s) {t : Tid} (hc : (s.proc.sys.sess t).base.start ≠ .notCalled) :
    ∃ k, t = .go k ∧ k < s.proc.sys.server.spawned := by
  obtain ⟨hi, hr⟩ := abs_reachable h
  have hl := Process.linked_of_reachable hr
  have hv := ServerModel.inv_of_reachable (System.server_reachable (Process.parts_reachable hr).2.2)
  have hconn := hl.served.called t (by
    rcases (Pieces.abs_looksLike (hi t)).handshake with ⟨h1, -⟩ | ⟨_, _, _, h1, -⟩
    · rw [show ((abs s).sys.sess t).base.start = (s.proc.sys.sess t).base.start from h1]; exact hc
    · rw [show ((abs s).sys.sess t).base.start = .deferred true from h1]; simp)
  have hv : ServerModel.Inv s.proc.sys.server := hv
  have hconn : System.isConn (s.proc.sys.server.op t) = true := hconn
  cases t with
  | user n =>
    cases hx : s.proc.sys.server.op (.user n) with
    | none => rw [hx] at hconn; simp [System.isConn] at hconn
    | some op =>
      have := (hl.link.users n op hx).2.1
      subst this
      rw [hx] at hconn; simp [System.isConn] at hconn
  | go k =>
    refine ⟨k, rfl, Decidable.byContradiction fun hn => ?_⟩
    have := (hv.go.opIdle _).mpr ((hv.go.fresh k).mpr (by omega))
    rw [this] at hconn; simp [System.isConn] at hconn

theorem own_replaced {t : Tid} {x : FullSession.Action} (h : Pieces.replaced x = true) : Process.Own (.sys (.session t x)) := by
  refine .inr ?_
  cases x with
  | base x => cases x <;> simp [Pieces.replaced] at h <;> simp [FullSession.Internal, SessionModel.Action.isSession]
  | _ => trivial

/-- What is left to do, if nothing new happens. -/
def rank (n : Nat) (s : State) : Nat := Process.weight n (abs s)

def rankW (n : Nat) (s : State) : Nat := ServerModel.total (fun t => Pieces.W (s.sess t)) 0 n

def rankV (n : Nat) (s : State) : Nat := ServerModel.total (fun t => Pieces.V (s.sess t)) 0 n

theorem rank_run {n : Nat} {s s' : Process.State} {acts : List Process.Action} (h : Reachable (Process.step parse bytes) (Process.init path text) s)
    (ha : ∀ a ∈ acts, Process.Own a) (hn : s.sys.server.spawned + Process.baseW s ≤ n) (hr : run (Process.step parse bytes) s acts = some s') :
    s'.sys.server.spawned + Process.baseW s' ≤ n ∧ Process.weight n s' + acts.length ≤ Process.weight n s := by
  induction acts generalizing s with
  | nil => simp only [run, Option.some.injEq] at hr; subst hr; exact ⟨hn, by simp⟩
  | cons a acts ih =>
    simp only [run] at hr
    cases hx : Process.step parse bytes s a with
    | none => rw [hx] at hr; simp at hr
    | some y =>
      rw [hx] at hr
      obtain ⟨h1, h2⟩ := Process.weight_step (n := n) h (ha a (by simp)) (by omega) hx
      obtain ⟨h3, h4⟩ := ih (h.next hx) (fun b hb => ha b (by simp [hb])) (by omega) hr
      exact ⟨h3, by simp; omega⟩

theorem rank_step {n : Nat} {s s' : State} {a : Action} (h : Reachable (step parse bytes) (init path text) s) (ha : Own a)
    (hn : (abs s).sys.server.spawned + Process.baseW (abs s) ≤ n) (hs : step parse bytes s a = some s') :
    (abs s').sys.server.spawned + Process.baseW (abs s') ≤ n ∧
    (rank n s' < rank n s ∨ rank n s' = rank n s ∧ (rankW n s' < rankW n s ∨ rankW n s' = rankW n s ∧ rankV n s' < rankV n s)) := by
  obtain ⟨hi, hr⟩ := abs_reachable h
  cases a with
  | other a =>
    obtain ⟨hrep, p, hp, rfl⟩ := other_cases hs
    obtain ⟨-, t, acts, g1, g2, g3⟩ := proc_other hi hrep hp
    obtain ⟨k1, k2⟩ := rank_run hr (by
      intro x hx
      rcases List.mem_append.mp hx with hx | hx
      · obtain ⟨y, hy, rfl⟩ := List.mem_map.mp hx
        exact own_replaced (g1 y hy).1
      · simp only [List.mem_singleton] at hx; subst hx; exact ha) hn g3
    refine ⟨k1, .inl ?_⟩
    simp only [List.length_append, List.length_cons, List.length_nil] at k2
    simp only [rank]
    omega
  | piece t a =>
    obtain ⟨acts, g1, g2⟩ := proc_piece hi hs
    obtain ⟨k1, k2⟩ := rank_run hr (by
      intro x hx
      obtain ⟨y, hy, rfl⟩ := List.mem_map.mp hx
      exact own_replaced (g1 y hy).1) hn g2
    refine ⟨k1, ?_⟩
    by_cases he : acts = []
    · subst he
      simp only [List.map_nil, run, Option.some.injEq] at g2
      refine .inr ⟨by simp only [rank, g2], ?_⟩
      obtain ⟨ho, hno, x, hx, rfl⟩ := piece_cases hs
      obtain ⟨k, rfl, hk⟩ := below h (piece_called (hi t) hx hno)
      have hb : (Tid.go k).below 0 n := by
        have : s.proc.sys.server.spawned ≤ n := by have : (abs s).sys.server.spawned = s.proc.sys.server.spawned := rfl; omega
        simp only [Tid.below]; omega
      have he := set_sess s (.go k) x x.sess.base.crashed
      have t1 := ServerModel.total_change (f := fun u => Pieces.W (s.sess u)) (g := fun u => Pieces.W ((s.set (.go k) x x.sess.base.crashed).sess u)) hb
        (fun u hu => by rw [congrFun he u, upd_other _ _ hu])
      have t2 := ServerModel.total_change (f := fun u => Pieces.V (s.sess u)) (g := fun u => Pieces.V ((s.set (.go k) x x.sess.base.crashed).sess u)) hb
        (fun u hu => by rw [congrFun he u, upd_other _ _ hu])
      rw [congrFun he (.go k), upd_same] at t1 t2
      simp only [rankW, rankV]
      rcases Pieces.measure_step (hi (.go k)) (by cases a <;> trivial) hx with g | ⟨g, g'⟩
      · left; omega
      · right; omega
    · refine .inl ?_
      have : 0 < acts.length := List.length_pos_iff.mpr he
      simp only [List.length_map] at k2
      simp only [rank]
      omega

theorem no_infinite (f : Nat → State) (a : Nat → Action) (h0 : Reachable (step parse bytes) (init path text) (f 0))
    (h : ∀ i, Own (a i) ∧ step parse bytes (f i) (a i) = some (f (i + 1))) : False := by
  obtain ⟨n, hn⟩ : ∃ n, (abs (f 0)).sys.server.spawned + Process.baseW (abs (f 0)) = n := ⟨_, rfl⟩
  have key : ∀ r w v i, rank n (f i) = r → rankW n (f i) = w → rankV n (f i) = v → Reachable (step parse bytes) (init path text) (f i) →
      (abs (f i)).sys.server.spawned + Process.baseW (abs (f i)) ≤ n → False := by
    intro r
    induction r using Nat.strongRecOn with
    | _ r ihr =>
      intro w
      induction w using Nat.strongRecOn with
      | _ w ihw =>
        intro v
        induction v using Nat.strongRecOn with
        | _ v ihv =>
          intro i hr hw hv hi hb
          obtain ⟨hb', g⟩ := rank_step hi (h i).1 hb (h i).2
          have hi' := hi.next (h i).2
          rcases g with g | ⟨g, g' | ⟨g', g''⟩⟩
          · exact ihr _ (by omega) _ _ (i + 1) rfl rfl rfl hi' hb'
          · exact ihw _ (by omega) _ (i + 1) (by omega) rfl rfl hi' hb'
          · exact ihv _ (by omega) (i + 1) (by omega) (by omega) rfl hi' hb'
  exact key _ _ _ 0 rfl rfl rfl h0 (by omega)

/-! ### A session that nothing disturbs -/

theorem not_closing {s : State} (h : Reachable (step parse bytes) (init path text) s) (t : Tid) : ¬ Pieces.Closing (s.sess t) := by
  rintro ⟨h1, h2, m, h3⟩
  obtain ⟨hi, hr⟩ := abs_reachable h
  have hsys := (Process.parts_reachable hr).2.2
  have hb := (System.link_of_reachable hsys).before (.inl (Process.linked_of_reachable hr).link.up.1)
  have hl := Pieces.abs_looksLike (hi t)
  have hc := (SessionModel.inv_of_reachable (FullSession.base_reachable (System.session_reachable hsys t))).close
  have hst : (s.sess t).sess.base.start = .assigned := by
    have := (hi t).hs
    rw [h3] at this
    revert this
    cases (s.sess t).sess.base.start <;> simp [Pieces.hsOk]
  have hfired : ((abs s).sys.sess t).base.fired = true := by
    rw [show ((abs s).sys.sess t).base.fired = _ from hl.fired]
    exact (hi t).fired (by rw [h1]; simp)
  have hih := hc.inHandshake hfired (hb.2.2 t).1
  rcases hl.handshake with ⟨g, -⟩ | ⟨_, -, g, -⟩
  · rw [show ((abs s).sys.sess t).base.start = _ from g, hst] at hih
    simp [SessionModel.StartPC.inHandshake] at hih
  · rw [g] at h2; simp at h2

/-- An execution in pieces, and the execution that it looks like. -/
theorem sim_run {s s' : State} {acts : List Action} (h : Reachable (step parse bytes) (init path text) s)
    (hr : run (step parse bytes) s acts = some s') :
    ∃ acts', run (Process.step parse bytes) (abs s) acts' = some (abs s') ∧
      ∀ b ∈ acts', .other b ∈ acts ∨ ∃ t x, b = .sys (.session t x) ∧ Pieces.replaced x = true ∧
        ∀ k, x = .startup (some k) → .piece t .writeStartupFails ∈ acts := by
  induction acts generalizing s with
  | nil => simp only [run, Option.some.injEq] at hr; subst hr; exact ⟨[], rfl, by simp⟩
  | cons a acts ih =>
    simp only [run] at hr
    cases hx : step parse bytes s a with
    | none => rw [hx] at hr; simp at hr
    | some y =>
      rw [hx] at hr
      obtain ⟨acts', h1, h2⟩ := ih (h.next hx) hr
      have hi := (abs_reachable h).1
      have tail : ∀ b ∈ acts', .other b ∈ a :: acts ∨ ∃ t x, b = .sys (.session t x) ∧ Pieces.replaced x = true ∧
          ∀ k, x = .startup (some k) → .piece t .writeStartupFails ∈ a :: acts := by
        intro b hb
        rcases h2 b hb with h3 | ⟨t, x, h3, h4, h5⟩
        · exact .inl (List.mem_cons_of_mem _ h3)
        · exact .inr ⟨t, x, h3, h4, fun k hk => List.mem_cons_of_mem _ (h5 k hk)⟩
      cases a with
      | other a =>
        obtain ⟨hrep, p, hp, rfl⟩ := other_cases hx
        obtain ⟨-, t, xs, g1, g2, g3⟩ := proc_other hi hrep hp
        refine ⟨_, by rw [run_append, g3]; exact h1, fun b hb => ?_⟩
        rcases List.mem_append.mp hb with hb | hb
        · rcases List.mem_append.mp hb with hb | hb
          · obtain ⟨y, hy, rfl⟩ := List.mem_map.mp hb
            exact .inr ⟨t, y, rfl, (g1 y hy).1, fun k hk => absurd ((g1 y hy).2 k hk) (not_closing h t)⟩
          · simp only [List.mem_singleton] at hb; subst hb; exact .inl (by simp)
        · exact tail b hb
      | piece t a =>
        obtain ⟨xs, g1, g2⟩ := proc_piece hi hx
        refine ⟨_, by rw [run_append, g2]; exact h1, fun b hb => ?_⟩
        rcases List.mem_append.mp hb with hb | hb
        · obtain ⟨y, hy, rfl⟩ := List.mem_map.mp hb
          exact .inr ⟨t, y, rfl, (g1 y hy).1, fun k hk => by rw [(g1 y hy).2 k hk]; simp⟩
        · exact tail b hb

theorem undisturbed_run {n : Nat} {acts : List Action} {acts' : List Process.Action}
    (h1 : ∀ x, .other (.sys (.session (.go n) x)) ∈ acts → FullSession.Undisturbed x) (h2 : .piece (.go n) .writeStartupFails ∉ acts)
    (h : ∀ b ∈ acts', .other b ∈ acts ∨ ∃ t x, b = .sys (.session t x) ∧ Pieces.replaced x = true ∧
      ∀ k, x = .startup (some k) → .piece t .writeStartupFails ∈ acts) :
    ∀ x, .sys (.session (.go n) x) ∈ acts' → FullSession.Undisturbed x := by
  intro x hx
  rcases h _ hx with h3 | ⟨t, y, h3, h4, h5⟩
  · exact h1 x h3
  · simp only [Process.Action.sys.injEq, System.Action.session.injEq] at h3
    obtain ⟨rfl, rfl⟩ := h3
    cases x with
    | base x => cases x <;> simp [Pieces.replaced] at h4 <;> trivial
    | startup f =>
      cases f with
      | none => rfl
      | some k => exact absurd (h5 k rfl) h2
    | recvStartup => trivial
    | _ => simp [Pieces.replaced] at h4

theorem changes_run {acts : List Action} {acts' : List Process.Action} (h1 : ∀ a ∈ acts, ¬ Changes a)
    (h : ∀ b ∈ acts', .other b ∈ acts ∨ ∃ t x, b = .sys (.session t x) ∧ Pieces.replaced x = true ∧
      ∀ k, x = .startup (some k) → .piece t .writeStartupFails ∈ acts) : ∀ b ∈ acts', ¬ Process.Changes b := by
  intro b hb
  rcases h b hb with h3 | ⟨t, y, rfl, -⟩
  · exact h1 _ h3
  · simp [Process.Changes]

end Gevulot.Whole
