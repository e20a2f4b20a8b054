import Verif.Proofs.ServerCalm

/-!
`Close`: what it leaves behind, and that it returns.
-/

namespace Gevulot
namespace ServerModel

/-- Past a check that the server is open. -/
def PC.past : PC → Bool
  | .serveLock _ => true
  | .connRegLock => true
  | .closeLock => true
  | _ => false

/-- The server has been swept by `Close`, and nobody was past the checks. -/
structure Swept (s : State) : Prop where
  shutdown : s.shutdown = true
  past : ∀ t, (s.pc t).past = false
  closed : AllClosed s

theorem swept_of_close {s s' : State} {t : Tid} (hi : Inv s) (ht : s.pc t = .closeLock) (h1 : ∀ t' ln, s.pc t' ≠ .serveLock ln)
    (h2 : ∀ t', s.pc t' ≠ .connRegLock) (hs : step s (.thread t) = some s') : Swept s' := by
  obtain ⟨hnp, htr⟩ := step_tr hs
  have hsh := hi.sess.closing t (by rw [ht]; rfl)
  have hone := fun t' h => hi.sess.one t' t h (by rw [ht]; rfl)
  have hsw := hi.sess.sweep t ht
  have hen := hi.sess.ended
  have hl := hi.listen.current
  cases htr
  case closeAll h =>
    refine ⟨hsh, fun t' => ?_, ⟨rfl, rfl, ?_, ?_⟩⟩
    · have a1 := hone t'
      have a2 := h2 t'
      have a3 := fun ln => h1 t' ln
      simp only [upd_apply]
      split
      · rfl
      · cases hpc : s.pc t' <;> simp_all [PC.past, PC.closing]
    · intro ln hln
      simp only [closeListener_apply]
      split
      · rfl
      · rename_i hne
        cases ho : s.lnOpen ln with
        | false => rfl
        | true => exact absurd (hl ln hln ho) hne
    · intro x r hx
      simp only [upd_apply] at hx
      split at hx
      · simp at hx
      · have := hsw x (by rcases hx with hx | hx <;> rw [hx] <;> rfl)
        simp [this]
  all_goals simp_all

theorem swept_step {s s' : State} {a : Action} (hi : Inv s) (h : Swept s) (hs : step s a = some s') : Swept s' ∧ s'.installed = s.installed := by
  obtain ⟨h1, h2, h3, h4, h5, h6⟩ := h
  have hb := hi.listen.bound
  have hx := hi.go.fresh s.spawned
  simp only [Nat.le_refl, iff_true] at hx
  have e1 : ∀ op, (entry op).past = false := by intro op; cases op <;> rfl
  have e2 : ∀ op, entry op ≠ .connRun := by intro op; cases op <;> simp [entry]
  have e3 : ∀ op r, entry op ≠ .connRemove r := by intro op; cases op <;> simp [entry]
  clear hi
  server_cases hs
  case install t ln h =>
    have := h2 t
    rw [h] at this
    simp [PC.past] at this
  case register t h =>
    have := h2 t
    rw [h] at this
    simp [PC.past] at this
  case closeAll t h =>
    have := h2 t
    rw [h] at this
    simp [PC.past] at this
  all_goals refine ⟨⟨?_, ?_, ?_, ?_, ?_, ?_⟩, rfl⟩
  all_goals grind [upd_apply, PC.past]

theorem swept_run {s s' : State} {acts : List Action} (hi : Inv s) (h : Swept s) (hr : run step s acts = some s') :
    Swept s' ∧ s'.installed = s.installed := by
  have := run_invariant (fun x => Inv x ∧ Swept x ∧ x.installed = s.installed) ⟨hi, h, rfl⟩ (fun _ _ _ h hs => by
    have := swept_step h.1 h.2.1 hs
    exact ⟨inv_step _ _ _ h.1 hs, this.1, this.2.trans h.2.2⟩) hr
  exact this.2

/-! ### Closing in a quiet moment -/

/-- Before `Close`, the listeners opened by `Start` are installed, or about to be. -/
def OpenInv (s : State) : Prop := s.shutdown = false → ∀ x ∈ s.tried, ∀ ln, x.2.2 = some ln →
  ln ∈ s.installed ∨ ∃ t, s.pc t = .startDo ln ∨ (s.pc t).pending = some ln

/-- What is about to be served stays so, or is installed. -/
theorem waiting_step {s s' : State} {a : Action} {ln : Nat} (hi : Inv s) (hsh : s.shutdown = false)
    (h : ∃ t, s.pc t = .startDo ln ∨ (s.pc t).pending = some ln) (hs : step s a = some s') :
    ln ∈ s'.installed ∨ ∃ t, s'.pc t = .startDo ln ∨ (s'.pc t).pending = some ln := by
  obtain ⟨x, hxx⟩ := h
  have hx := hi.go.fresh s.spawned
  simp only [Nat.le_refl, iff_true] at hx
  by_cases hd : s'.pc x = .startDo ln ∨ (s'.pc x).pending = some ln
  · exact .inr ⟨x, hd⟩
  · clear hi
    revert hd
    server_cases hs
    all_goals intro hd
    case startDo t l h =>
      by_cases hxt : x = t
      · subst hxt
        rw [h] at hxx
        simp only [PC.startDo.injEq, PC.pending, reduceCtorEq, or_false] at hxx
        subst hxx
        refine .inr ⟨.go s.spawned, .inr ?_⟩
        simp only
        rw [upd_other _ _ (by rintro rfl; rw [h] at hx; simp at hx), upd_same]; rfl
      · exfalso
        grind [upd_apply, PC.pending]
    case install t l h =>
      left
      simp only [List.mem_append, List.mem_singleton]
      grind [upd_apply, PC.pending]
    all_goals exfalso; grind [upd_apply, PC.pending]

theorem openInv_step {s s' : State} {a : Action} (hi : Inv s) (h : OpenInv s) (hs : step s a = some s') : OpenInv s' := by
  intro hsh' x hx ln hln
  have hsh : s.shutdown = false := by
    cases hb : s.shutdown with
    | false => rfl
    | true => rw [(grows_step hi hs).shutdown hb] at hsh'; simp at hsh'
  by_cases hxo : x ∈ s.tried
  · rcases h hsh x hxo ln hln with h' | h'
    · exact .inl ((grows_step hi hs).installed.subset h')
    · exact waiting_step hi hsh h' hs
  · right
    clear h hsh' hsh hi
    revert hx
    server_cases hs
    case listenOk t a h =>
      intro hx
      simp only [List.mem_append, List.mem_singleton] at hx
      rcases hx with hx | hx
      · exact absurd hx hxo
      · subst hx
        simp only [Option.some.injEq] at hln; subst hln
        exact ⟨t, .inl (upd_same _ _ _)⟩
    case listenFail t a h =>
      intro hx
      simp only [List.mem_append, List.mem_singleton] at hx
      rcases hx with hx | hx
      · exact absurd hx hxo
      · subst hx; simp at hln
    all_goals exact fun hx => absurd hx hxo

theorem openInv_of_reachable {c : Option Addr} {s : State} (h : Reachable step (init c) s) : OpenInv s :=
  (h.invariant (fun s => Inv s ∧ OpenInv s) ⟨inv_init c, by intro _ x hx; simp [init] at hx⟩
    (fun _ _ _ h hs => ⟨inv_step _ _ _ h.1 hs, openInv_step h.1 h.2 hs⟩)).2

/-- After the call of `Close` by `c` in a quiet moment. -/
structure QuietClose (c : Tid) (s : State) : Prop where
  shutdown : s.shutdown = true
  quiet : ∀ t, (s.pc t).quiet = true ∨ ∃ ln, s.pc t = .serveCheck ln
  loop : (∃ t, s.pc t = .startLoop) → s.updates = []
  tried : ∀ x ∈ s.tried, ∀ ln, x.2.2 = some ln → ln ∈ s.installed
  swept : s.pc c = .closeLock ∨ Swept s

theorem quietClose_step {c : Tid} {s s' : State} {a : Action} (hi : Inv s) (h : QuietClose c s) (ha : ∀ x, a ≠ .config x) (hs : step s a = some s') :
    QuietClose c s' := by
  have h1 := h.shutdown
  have h2 := h.quiet
  have hsw : s'.pc c = .closeLock ∨ Swept s' := by
    rcases h.swept with hc | hc
    · by_cases hac : a = .thread c
      · subst hac
        refine .inr (swept_of_close hi hc ?_ ?_ hs)
        · intro t' ln ht'
          have := h2 t'
          rw [ht'] at this
          simp [PC.quiet] at this
        · intro t' ht'
          have := h2 t'
          rw [ht'] at this
          simp [PC.quiet] at this
      · left
        have hx := hi.go.fresh s.spawned
        simp only [Nat.le_refl, iff_true] at hx
        clear h h2 hi
        server_cases hs <;> grind [upd_apply]
    · exact .inr (swept_step hi hc hs).1
  have h3 := h.loop
  have h4 := h.tried
  have hq : ∀ t, (s'.pc t).quiet = true ∨ ∃ ln, s'.pc t = .serveCheck ln := by
    intro x
    have h5 := h2 x
    have hl := h3
    have e1 : ∀ op, (entry op).quiet = true ∨ ∃ ln, entry op = .serveCheck ln := by intro op; cases op <;> simp [entry, PC.quiet]
    clear h hsw h3 h4 hi
    server_cases hs
    case call n op h he =>
      simp only [upd_apply]
      split
      · exact e1 op
      · exact h5
    case takeConfig t y rest h hu => rw [hl ⟨t, h⟩] at hu; simp at hu
    case startDo t ln h => have := h2 t; rw [h] at this; simp [PC.quiet] at this
    all_goals grind [upd_apply, PC.quiet]
  refine ⟨(grows_step hi hs).shutdown h1, hq, ?_, ?_, hsw⟩
  · rintro ⟨x, hx⟩
    have h5 := h2
    have e1 : ∀ op, entry op ≠ .startLoop := by intro op; cases op <;> simp [entry]
    have hupd : s'.updates = s.updates ∧ s.pc x = .startLoop := by
      have hxx := hi.go.fresh s.spawned
      simp only [Nat.le_refl, iff_true] at hxx
      clear h hsw h4 hi hq
      revert hx
      server_cases hs
      case takeConfig t y rest h hu => rw [h3 ⟨t, h⟩] at hu; simp at hu
      all_goals grind [upd_apply, PC.quiet]
    rw [hupd.1]; exact h3 ⟨x, hupd.2⟩
  · have h5 : s'.tried = s.tried := by
      clear h hsw h4 hi hq h3
      server_cases hs
      case listenOk t y h => have := h2 t; rw [h] at this; simp [PC.quiet] at this
      case listenFail t y h => have := h2 t; rw [h] at this; simp [PC.quiet] at this
      all_goals rfl
    intro x hx ln hln
    rw [h5] at hx
    exact (grows_step hi hs).installed.subset (h4 x hx ln hln)

theorem quietClose_start {s s' : State} {c : Tid} (hi : Inv s) (ho : OpenInv s) (hc : s.pc c = .closeFire) (hsh : s.shutdown = false)
    (hq : Quiet s) (hs : step s (.thread c) = some s') : QuietClose c s' := by
  obtain ⟨hnp, htr⟩ := step_tr hs
  cases htr
  case closeFire h =>
    refine ⟨rfl, fun t => .inl ?_, ?_, ?_, .inl (upd_same _ _ _)⟩
    · have := hq.1 t
      grind [upd_apply, PC.quiet]
    · rintro ⟨t, ht⟩
      refine hq.2 ⟨t, ?_⟩
      grind [upd_apply]
    · intro x hx ln hln
      rcases ho hsh x hx ln hln with h' | ⟨t, h' | h'⟩
      · exact h'
      · have := hq.1 t
        rw [h'] at this; simp [PC.quiet] at this
      · have := hq.1 t
        cases hpc : s.pc t <;> rw [hpc] at h' this <;> simp [PC.pending, PC.quiet] at h' this
  all_goals simp_all

/-! ### `Close` returns -/

theorem WindsDown.trans {s1 s2 s3 : State} (h : WindsDown s1 s2) (h' : WindsDown s2 s3) : WindsDown s1 s3 := by
  induction h with
  | refl => exact h'
  | step a b _ ih => exact .step a b (ih h')

theorem WindsDown.run {s s' : State} (h : WindsDown s s') : ∃ acts, run ServerModel.step s acts = some s' := by
  induction h with
  | refl s => exact ⟨[], rfl⟩
  | @step s a s' s'' _ b _ ih =>
    obtain ⟨acts, h⟩ := ih
    exact ⟨a :: acts, by simp [Gevulot.run, b, h]⟩

/-- Goroutines run `Serve` or `ServeConn`. -/
def JobInv (s : State) : Prop := ∀ n, s.op (.go n) ≠ some .start ∧ s.op (.go n) ≠ some .close

theorem jobInv_step {s s' : State} {a : Action} (h : JobInv s) (hs : step s a = some s') : JobInv s' := by
  intro n
  have h1 := h n
  clear h
  server_cases hs <;> grind [upd_apply]

def PC.rank : PC → Nat
  | .done => 0
  | .returned _ => 1
  | .connRemove _ => 2
  | .connRun => 3
  | .serveAccept _ => 2
  | _ => 4

/-- A goroutine of a swept server that has not finished can go on. -/
theorem go_act {s : State} {n : Nat} (hi : Inv s) (hj : JobInv s) (h : Swept s) (hp : s.watchdogPanic = false ∧ s.sendPanic = false)
    (hlst : ∀ t ln, (s.pc t).accepting = some ln → ln ∈ s.installed) (hn : n < s.spawned) (hd : s.pc (.go n) ≠ .done) :
    ∃ a, a.winding s ∧ (a = .thread (.go n) ∨ a = .accept (.go n) (.err ⟨true, false⟩) ∨ a = .sessionEnd (.go n) none) ∧ ∃ s', step s a = some s' := by
  have h1 := hj n
  have h2 : (s.pc (.go n)).fits (s.op (.go n)) := hi.fit (.go n)
  have h3 := h.past (.go n)
  have h5 := h.closed.conns (.go n)
  cases hpc : s.pc (.go n) <;> rw [hpc] at h2 h3 <;> simp only [PC.fits] at h2 <;> simp only [PC.past, Bool.false_eq_true, reduceCtorEq] at h3
  case idle =>
    have := (hi.go.fresh n).mp hpc
    omega
  case serveAccept ln =>
    have h6 := h.closed.listeners ln (hlst (.go n) ln (by rw [hpc]; rfl))
    refine ⟨.accept (.go n) (.err ⟨true, false⟩), ⟨rfl, ?_⟩, .inr (.inl rfl), by simp [step, hp, hpc, AcceptErr.survived]⟩
    intro ln' h'; rw [hpc] at h'; simp only [PC.serveAccept.injEq] at h'; exact h' ▸ h6
  case connRun => exact ⟨.sessionEnd (.go n) none, h5 .nil (.inl hpc), .inr (.inr rfl), by simp [step, hp, hpc]⟩
  case done => exact absurd hpc hd
  case startCheck => exact absurd h2 h1.1
  case startFire => exact absurd h2 h1.1
  case startSubscribe => exact absurd h2 h1.1
  case startLoop => exact absurd h2 h1.1
  case startListen => exact absurd h2 h1.1
  case startDo => exact absurd h2 h1.1
  case closeFire => exact absurd h2 h1.2
  case closeWait => exact absurd h2.1 h1.2
  all_goals exact ⟨.thread (.go n), trivial, .inl rfl, by simp [step, hp, hpc]⟩

theorem go_step {s : State} {n : Nat} (hi : Inv s) (hj : JobInv s) (h : Swept s) (hp : s.watchdogPanic = false ∧ s.sendPanic = false)
    (hlst : ∀ t ln, (s.pc t).accepting = some ln → ln ∈ s.installed) (hn : n < s.spawned) (hd : s.pc (.go n) ≠ .done)
    (hh : (s.pc (.go n)).inHand = none) :
    ∃ a s', a.winding s ∧ step s a = some s' ∧ (s'.pc (.go n)).rank < (s.pc (.go n)).rank ∧ (∀ x, x ≠ .go n → s'.pc x = s.pc x) ∧
      (s'.pc (.go n)).inHand = none ∧ s'.spawned = s.spawned ∧ s'.watchdogPanic = false ∧ s'.sendPanic = false := by
  obtain ⟨a, ha, hk, s', hs⟩ := go_act hi hj h hp hlst hn hd
  refine ⟨a, s', ha, hs, ?_⟩
  have h1 := hj n
  have h2 : (s.pc (.go n)).fits (s.op (.go n)) := hi.fit (.go n)
  have h3 := h.past (.go n)
  have h4 := h.shutdown
  clear hi hj h ha hlst
  have hsurv : (AcceptErr.survived ⟨true, false⟩) = false := rfl
  obtain ⟨hnp, htr⟩ := step_tr hs
  clear hs
  rcases hk with rfl | rfl | rfl
  all_goals cases htr
  all_goals refine ⟨?_, ?_, ?_, ?_, ?_, ?_⟩
  all_goals grind [upd_apply, PC.rank, PC.past, PC.fits, PC.inHand]

/-- What is needed to wind down. -/
structure Wind (s : State) : Prop where
  inv : Inv s
  job : JobInv s
  swept : Swept s
  fine : s.watchdogPanic = false ∧ s.sendPanic = false
  lst : ∀ t ln, (s.pc t).accepting = some ln → ln ∈ s.installed

theorem accepting_installed {s s' : State} {a : Action} (hi : Inv s) (h : ∀ t ln, (s.pc t).accepting = some ln → ln ∈ s.installed) (hs : step s a = some s') :
    ∀ t ln, (s'.pc t).accepting = some ln → ln ∈ s'.installed := by
  have e1 : ∀ op, (entry op).accepting = none := by intro op; cases op <;> rfl
  clear hi
  server_cases hs <;> grind [upd_apply, PC.accepting]

/-- The goroutines that have accepted a connection start a goroutine for it. -/
theorem all_start {s : State} (h : Wind s) (k : Nat) (hk : k ≤ s.spawned) :
    ∃ s', WindsDown s s' ∧ Wind s' ∧ (∀ n, n < k → (s'.pc (.go n)).inHand = none) ∧ (∀ n, s.spawned ≤ n → (s'.pc (.go n)).inHand = none) ∧
      (∀ n, s'.pc (.user n) = s.pc (.user n)) ∧ s.spawned ≤ s'.spawned := by
  induction k with
  | zero =>
    refine ⟨s, .refl s, h, fun _ hn => absurd hn (Nat.not_lt_zero _), fun n hn => ?_, fun _ => rfl, Nat.le_refl _⟩
    rw [(h.inv.go.fresh n).mpr hn]; rfl
  | succ k ih =>
    obtain ⟨s1, a1, a2, a3, a4, a5, a6⟩ := ih (by omega)
    cases hh : (s1.pc (.go k)).inHand with
    | none =>
      refine ⟨s1, a1, a2, fun n hn => ?_, a4, a5, a6⟩
      by_cases hnk : n = k
      · subst hnk; exact hh
      · exact a3 n (by omega)
    | some c =>
      obtain ⟨ln, hpc⟩ : ∃ ln, s1.pc (.go k) = .serveDo ln c := by
        cases hpc : s1.pc (.go k) <;> rw [hpc] at hh <;> simp [PC.inHand] at hh ⊢
        exact hh
      obtain ⟨s2, hs⟩ : ∃ s2, step s1 (.thread (.go k)) = some s2 := by simp [step, a2.fine, hpc]
      have hf := a2.inv.go.fresh s1.spawned
      simp only [Nat.le_refl, iff_true] at hf
      have key : (∀ n, n ≠ k → (s1.pc (.go n)).inHand = none → (s2.pc (.go n)).inHand = none) ∧ (s2.pc (.go k)).inHand = none ∧
          (∀ n, s2.pc (.user n) = s1.pc (.user n)) ∧ s1.spawned ≤ s2.spawned ∧ s2.watchdogPanic = false ∧ s2.sendPanic = false := by
        have hs2 := hs
        obtain ⟨hnp, htr⟩ := step_tr hs2
        cases htr <;> refine ⟨?_, ?_, ?_, ?_, ?_, ?_⟩ <;> grind [upd_apply, PC.inHand]
      obtain ⟨b1, b2, b3, b4, b5, b6⟩ := key
      have hw : Wind s2 := ⟨inv_step _ _ _ a2.inv hs, jobInv_step a2.job hs, (swept_step a2.inv a2.swept hs).1, ⟨b5, b6⟩, accepting_installed a2.inv a2.lst hs⟩
      refine ⟨s2, a1.trans (.step (a := .thread (.go k)) trivial hs (.refl _)), hw, fun n hn => ?_, fun n hn => b1 n (by omega) (a4 n hn),
        fun n => (b3 n).trans (a5 n), Nat.le_trans a6 b4⟩
      by_cases hnk : n = k
      · subst hnk; exact b2
      · exact b1 n hnk (a3 n (by omega))

theorem go_finish {s : State} {n : Nat} (h : Wind s) (hn : n < s.spawned) (hh : (s.pc (.go n)).inHand = none) :
    ∃ s', WindsDown s s' ∧ Wind s' ∧ s'.pc (.go n) = .done ∧ (∀ x, x ≠ .go n → s'.pc x = s.pc x) ∧ s'.spawned = s.spawned := by
  generalize hr : (s.pc (.go n)).rank = r
  induction r using Nat.strongRecOn generalizing s with
  | ind r ih =>
    by_cases hd : s.pc (.go n) = .done
    · exact ⟨s, .refl s, h, hd, fun _ _ => rfl, rfl⟩
    · obtain ⟨a, s1, ha, hs, h1, h2, hh1, h3, h4, h5⟩ := go_step h.inv h.job h.swept h.fine h.lst hn hd hh
      have hw : Wind s1 := ⟨inv_step _ _ _ h.inv hs, jobInv_step h.job hs, (swept_step h.inv h.swept hs).1, ⟨h4, h5⟩, accepting_installed h.inv h.lst hs⟩
      obtain ⟨s2, g1, g2, g3, g4, g5⟩ := ih _ (hr ▸ h1) hw (h3.symm ▸ hn) hh1 rfl
      exact ⟨s2, .step ha hs g1, g2, g3, fun x hx => (g4 x hx).trans (h2 x hx), g5.trans h3⟩

theorem all_finish {s : State} (h : Wind s) (hh : ∀ n, (s.pc (.go n)).inHand = none) (k : Nat) (hk : k ≤ s.spawned) :
    ∃ s', WindsDown s s' ∧ Wind s' ∧ (∀ n, n < k → s'.pc (.go n) = .done) ∧ (∀ n, k ≤ n → s'.pc (.go n) = s.pc (.go n)) ∧
      (∀ n, s'.pc (.user n) = s.pc (.user n)) ∧ s'.spawned = s.spawned := by
  induction k with
  | zero => exact ⟨s, .refl s, h, fun _ hn => absurd hn (Nat.not_lt_zero _), fun _ _ => rfl, fun _ => rfl, rfl⟩
  | succ k ih =>
    obtain ⟨s1, a1, a2, a3, a6, a4, a5⟩ := ih (by omega)
    obtain ⟨s2, b1, b2, b3, b4, b5⟩ := go_finish (n := k) a2 (by omega) (by rw [a6 k (Nat.le_refl _)]; exact hh k)
    refine ⟨s2, a1.trans b1, b2, ?_, ?_, ?_, b5.trans a5⟩
    · intro n hn
      by_cases hnk : n = k
      · subst hnk; exact b3
      · rw [b4 _ (by simpa using hnk)]; exact a3 n (by omega)
    · intro n hn
      rw [b4 _ (by simp; omega)]; exact a6 n (by omega)
    · intro n
      rw [b4 _ (by simp)]; exact a4 n

theorem live_zero {s : State} : live s = 0 ↔ ∀ n, n < s.spawned → s.pc (.go n) = .done := by
  unfold live
  rw [List.countP_eq_zero]
  constructor
  · intro h n hn
    have := h n (List.mem_range.mpr hn)
    cases hpc : s.pc (.go n) <;> rw [hpc] at this <;> simp [PC.isDone] at this ⊢
  · intro h n hn
    rw [h n (List.mem_range.mp hn)]; simp [PC.isDone]

theorem close_returns {s : State} {n : Nat} {r : Ret} (h : Wind s) (hc : s.pc (.user n) = .closeWait r) :
    ∃ s', WindsDown s s' ∧ s'.pc (.user n) = .returned r := by
  obtain ⟨s0, c1, c2, c3, c4, c5, -⟩ := all_start h s.spawned (Nat.le_refl _)
  obtain ⟨s1, a1, a2, a3, -, a4, a5⟩ := all_finish c2 (fun n => if hn : n < s.spawned then c3 n hn else c4 n (by omega)) s0.spawned (Nat.le_refl _)
  have hw : s1.wg = 0 := by
    rw [a2.inv.go.wg, live_zero]
    intro m hm
    exact a3 m (a5 ▸ hm)
  have hpc : s1.pc (.user n) = .closeWait r := ((a4 n).trans (c5 n)).trans hc
  refine ⟨{ s1 with pc := upd s1.pc (.user n) (.returned r) }, c1.trans (a1.trans (.step (a := .thread (.user n)) trivial ?_ (.refl _))), upd_same _ _ _⟩
  simp [step, a2.fine, hpc, hw]

/-! ### The results of calls -/

structure ResultInv (s : State) : Prop where
  config : ∀ t, s.pc t = .returned .errConfig → s.starter = some t ∧ s.configClosed = true
  again : ∀ t, s.pc t = .returned .errStarted → s.starter ≠ none ∧ s.starter ≠ some t
  notYet : ∀ t, s.pc t = .startFire → s.starter ≠ some t
  entered : ∀ t, (s.pc t).isIdle = true ∨ s.pc t = .startCheck → s.starter ≠ some t
  accepted : ∀ t, s.accepts t ≠ [] → (s.pc t).accepting ≠ none ∨ (∃ e, s.pc t = .returned (.errAccept e)) ∨ s.pc t = .done

theorem resultInv_init (c : Option Addr) : ResultInv (init c) := by
  constructor <;> simp [init]

set_option maxHeartbeats 1000000 in
theorem resultInv_step {s s' : State} {a : Action} (hi : Inv s) (h : ResultInv s) (hs : step s a = some s') : ResultInv s' := by
  obtain ⟨h1, h2, h3, h4, h5⟩ := h
  have hx := hi.go.fresh s.spawned
  simp only [Nat.le_refl, iff_true] at hx
  have h6 := hi.start.start
  have h7 := hi.start.starter
  have hf : ∀ t, (s.pc t).fits (s.op t) := hi.fit
  have e1 : ∀ op, entry op ≠ .startFire := by intro op; cases op <;> simp [entry]
  have e2 : ∀ op r, entry op ≠ .returned r := by intro op; cases op <;> simp [entry]
  clear hi
  server_cases hs
  all_goals constructor
  all_goals grind [upd_apply, PC.isIdle, PC.fits, Ret.fits, PC.running, PC.accepting]

theorem resultInv_of_reachable {c : Option Addr} {s : State} (h : Reachable step (init c) s) : ResultInv s :=
  (h.invariant (fun s => Inv s ∧ ResultInv s) ⟨inv_init c, resultInv_init c⟩ (fun _ _ _ h hs => ⟨inv_step _ _ _ h.1 hs, resultInv_step h.1 h.2 hs⟩)).2

theorem jobInv_of_reachable {c : Option Addr} {s : State} (h : Reachable step (init c) s) : JobInv s :=
  h.invariant JobInv (by intro n; simp [init]) (fun _ _ _ h hs => jobInv_step h hs)

theorem installed_of_reachable {c : Option Addr} {s : State} (h : Reachable step (init c) s) : ∀ t ln, (s.pc t).accepting = some ln → ln ∈ s.installed :=
  (h.invariant (fun s => Inv s ∧ ∀ t ln, (s.pc t).accepting = some ln → ln ∈ s.installed) ⟨inv_init c, by intro t ln; simp [init, PC.accepting]⟩
    (fun _ _ _ h hs => ⟨inv_step _ _ _ h.1 hs, accepting_installed h.1 h.2 hs⟩)).2

end ServerModel
end Gevulot

namespace Gevulot.ServerModel

theorem startOp_of_reachable {c : Option Addr} {s : State} (h : Reachable step (init c) s) : ∀ t, s.starter = some t → s.op t = some .start := by
  refine (h.invariant (fun s => Inv s ∧ ∀ t, s.starter = some t → s.op t = some .start) ⟨inv_init c, by intro t; simp [init]⟩ (fun s a s' h hs => ⟨inv_step _ _ _ h.1 hs, ?_⟩)).2
  obtain ⟨hi, h⟩ := h
  intro t ht
  have hf := hi.fit t
  by_cases hst : s.starter = some t
  · exact (grows_step hi hs).op t _ (h t hst)
  · clear h hi
    revert ht
    server_cases hs <;> grind [upd_apply, PC.fits]

def PC.ret : PC → Option Ret
  | .connRemove r => some r
  | .closeWait r => some r
  | .returned r => some r
  | _ => none

theorem closedInv_of_reachable {c : Option Addr} {s : State} (h : Reachable step (init c) s) : ∀ t, s.pc t = .returned .errClosed → s.shutdown = true := by
  have key := h.invariant (fun s => Inv s ∧ ∀ t, (s.pc t).ret = some .errClosed → s.shutdown = true) ⟨inv_init c, by intro t; simp [init, PC.ret]⟩ (fun s a s' h hs => ⟨inv_step _ _ _ h.1 hs, by
    obtain ⟨hi, h⟩ := h
    have e2 : ∀ op, (entry op).ret = none := by intro op; cases op <;> rfl
    have e3 : closeResult s ≠ .errClosed := by
      unfold closeResult
      split
      · split <;> simp
      · simp
    clear hi
    server_cases hs
    all_goals grind [upd_apply, PC.ret]⟩)
  exact fun t ht => key.2 t (by rw [ht]; rfl)

end Gevulot.ServerModel
