import Verif.Spec.WaitGroup
import Verif.Proofs.ServerRest

/-!
Proofs about the server with its wait group.
-/

namespace Gevulot

namespace ServerModel

/-- The thread is about to call `do`. -/
def PC.adding : PC → Bool
  | .startDo _ => true
  | .serveDo _ _ => true
  | _ => false

/-- The thread is in `Close`, in `Wait` or before it. -/
def PC.waiting : PC → Bool
  | .closeWait _ => true
  | _ => false

/-- The goroutine is about to call `Done`. -/
def PC.ending : Tid → PC → Bool
  | .go _, .returned _ => true
  | _, _ => false

/-- What a step of the server does to the wait group. -/
inductive Kind (s s' : State) : Action → Prop where
  | add (t) (h : (s.pc t).adding = true) (hw : s'.wg = s.wg + 1) (hn : s'.spawned = s.spawned + 1)
      (hp : ∀ u, (s'.pc u).waiting = (s.pc u).waiting ∧ (s.pc u = .done → s'.pc u = .done)) : Kind s s' (.thread t)
  | done (t) (h : (s.pc t).ending t = true) (hw : s'.wg + 1 = s.wg) (hd : s'.pc t = .done) (hn : s'.spawned = s.spawned)
      (hp : ∀ u, (s'.pc u).waiting = (s.pc u).waiting ∧ (s.pc u = .done → s'.pc u = .done)) : Kind s s' (.thread t)
  | close (t r) (h : s.pc t = .closeWait r) (hw : s.wg = 0) (hs : s' = { s with pc := upd s.pc t (.returned r) }) : Kind s s' (.thread t)
  | other (a) (h : ∀ t, a = .thread t → (s.pc t).adding = false ∧ (s.pc t).waiting = false ∧ (s.pc t).ending t = false) (hw : s'.wg = s.wg)
      (hn : s'.spawned = s.spawned)
      (hp : ∀ u, ((s.pc u).waiting = true → (s'.pc u).waiting = true) ∧ (s.pc u = .done → s'.pc u = .done)) : Kind s s' a

/-- The counter is the number of goroutines, so a goroutine that has not finished is counted. -/
theorem wg_pos {s : State} (hi : GoInv s) {n : Nat} (h1 : s.pc (.go n) ≠ .idle) (h2 : s.pc (.go n) ≠ .done) : 0 < s.wg := by
  have h3 : n < s.spawned := Nat.lt_of_not_le fun h => h1 ((hi.fresh n).mpr h)
  have h4 := hi.wg
  refine Nat.pos_of_ne_zero fun h => h2 ?_
  exact live_zero.mp (h4.symm.trans h) n h3

theorem kind_of_step {s s' : State} {a : Action} (hi : GoInv s) (hs : step s a = some s') : Kind s s' a := by
  have hf := (hi.fresh s.spawned).mpr (Nat.le_refl _)
  have hnd := hi.notDone
  have hwg : ∀ n r, s.pc (.go n) = .returned r → 0 < s.wg := fun n r h => wg_pos hi (by rw [h]; simp) (by rw [h]; simp)
  have e1 : ∀ op, (entry op).waiting = false := by intro op; cases op <;> rfl
  clear hi
  server_cases hs
  case startDo t ln h => refine .add t (by rw [h]; rfl) rfl rfl ?_; grind [upd_apply, PC.waiting]
  case serveDo t ln c h => refine .add t (by rw [h]; rfl) rfl rfl ?_; grind [upd_apply, PC.waiting]
  case goDone n r h =>
    have := hwg n r h
    refine .done _ (by rw [h]; rfl) ?_ (upd_same _ _ _) rfl ?_
    · simp only; omega
    · grind [upd_apply, PC.waiting]
  case closeDone t r h hw => exact .close t r h hw rfl
  all_goals
    refine .other _ ?_ rfl rfl ?_
    · grind [PC.adding, PC.waiting, PC.ending]
    · grind [upd_apply, PC.waiting]

theorem kind_add {s s' : State} {t : Tid} (hi : GoInv s) (ht : (s.pc t).adding = true) (hs : step s (.thread t) = some s') :
    s'.wg = s.wg + 1 ∧ s'.spawned = s.spawned + 1 ∧ ∀ u, (s'.pc u).waiting = (s.pc u).waiting ∧ (s.pc u = .done → s'.pc u = .done) := by
  cases kind_of_step hi hs with
  | add _ h hw hn hp => exact ⟨hw, hn, hp⟩
  | done _ h => cases hpc : s.pc t <;> cases t <;> rw [hpc] at ht h <;> simp [PC.adding, PC.ending] at ht h
  | close _ r h => rw [h] at ht; simp [PC.adding] at ht
  | other _ h => have := (h t rfl).1; rw [this] at ht; simp at ht

theorem kind_done {s s' : State} {t : Tid} (hi : GoInv s) (ht : (s.pc t).ending t = true) (hs : step s (.thread t) = some s') :
    s'.wg + 1 = s.wg ∧ s'.pc t = .done ∧ s'.spawned = s.spawned ∧ ∀ u, (s'.pc u).waiting = (s.pc u).waiting ∧ (s.pc u = .done → s'.pc u = .done) := by
  cases kind_of_step hi hs with
  | add _ h => cases hpc : s.pc t <;> cases t <;> rw [hpc] at ht h <;> simp [PC.adding, PC.ending] at ht h
  | done _ h hw hd hn hp => exact ⟨hw, hd, hn, hp⟩
  | close _ r h => rw [h] at ht; cases t <;> simp [PC.ending] at ht
  | other _ h => have := (h t rfl).2.2; rw [this] at ht; simp at ht

theorem kind_close {s s' : State} {t : Tid} (hi : GoInv s) (ht : (s.pc t).waiting = true) (hs : step s (.thread t) = some s') :
    s.wg = 0 ∧ ∃ r, s.pc t = .closeWait r ∧ s' = { s with pc := upd s.pc t (.returned r) } := by
  cases kind_of_step hi hs with
  | add _ h => cases hpc : s.pc t <;> rw [hpc] at ht h <;> simp [PC.adding, PC.waiting] at ht h
  | done _ h => cases hpc : s.pc t <;> cases t <;> rw [hpc] at ht h <;> simp [PC.waiting, PC.ending] at ht h
  | close _ r h hw he => exact ⟨hw, r, h, he⟩
  | other _ h => have := (h t rfl).2.1; rw [this] at ht; simp at ht

theorem kind_other {s s' : State} {a : Action} (hi : GoInv s)
    (ha : ∀ t, a = .thread t → (s.pc t).adding = false ∧ (s.pc t).waiting = false ∧ (s.pc t).ending t = false) (hs : step s a = some s') :
    s'.wg = s.wg ∧ s'.spawned = s.spawned ∧ ∀ u, ((s.pc u).waiting = true → (s'.pc u).waiting = true) ∧ (s.pc u = .done → s'.pc u = .done) := by
  cases kind_of_step hi hs with
  | add t h => have := (ha t rfl).1; rw [this] at h; simp at h
  | done t h => have := (ha t rfl).2.2; rw [this] at h; simp at h
  | close t r h => have := (ha t rfl).2.1; rw [h] at this; simp [PC.waiting] at this
  | other _ h hw hn hp => exact ⟨hw, hn, hp⟩

end ServerModel

namespace WaitGroup

open ServerModel (Tid PC)

/-- The transitions, one by one. -/
inductive Tr (s : State) : Action → State → Prop where
  | other (a srv) (h : ServerModel.step s.server a = some srv)
      (hk : ∀ t, a = .thread t → (s.server.pc t).adding = false ∧ (s.server.pc t).waiting = false ∧ (s.server.pc t).ending t = false) :
      Tr s (.server a) { s with server := srv }
  | add (t srv) (hi : s.wpc t = .idle) (ha : (s.server.pc t).adding = true) (h : ServerModel.step s.server (.thread t) = some srv)
      (hok : s.waiters = 0 ∨ srv.wg ≠ 1) : Tr s (.server (.thread t)) { s with server := srv }
  | misuse (t srv) (hi : s.wpc t = .idle) (ha : (s.server.pc t).adding = true) (h : ServerModel.step s.server (.thread t) = some srv)
      (hw : s.waiters ≠ 0) (hv : srv.wg = 1) : Tr s (.server (.thread t)) { s with server := srv, panic := some .misuse }
  | done (t srv) (hi : s.wpc t = .idle) (ha : (s.server.pc t).ending t = true) (h : ServerModel.step s.server (.thread t) = some srv)
      (hn : s.server.wg ≠ 0) (hok : srv.wg ≠ 0 ∨ s.waiters = 0) : Tr s (.server (.thread t)) { s with server := srv }
  | last (t srv) (hi : s.wpc t = .idle) (ha : (s.server.pc t).ending t = true) (h : ServerModel.step s.server (.thread t) = some srv)
      (hn : s.server.wg ≠ 0) (hv : srv.wg = 0) (hw : s.waiters ≠ 0) :
      Tr s (.server (.thread t)) { s with server := srv, wpc := upd s.wpc t (.check s.waiters) }
  | negative (t) (ha : (s.server.pc t).ending t = true) (hn : s.server.wg = 0) : Tr s (.server (.thread t)) { s with panic := some .negative }
  | pass (t r srv) (hi : s.wpc t = .idle) (ha : s.server.pc t = .closeWait r) (hv : s.server.wg = 0) (h : ServerModel.step s.server (.thread t) = some srv) :
      Tr s (.server (.thread t)) { s with server := srv }
  | load (t r) (hi : s.wpc t = .idle) (ha : s.server.pc t = .closeWait r) (hv : s.server.wg ≠ 0) :
      Tr s (.server (.thread t)) { s with wpc := upd s.wpc t (.cas s.server.wg s.waiters) }
  | checked (t w) (hi : s.wpc t = .check w) (hv : s.server.wg = 0) (hw : s.waiters = w) : Tr s (.wg t) { s with wpc := upd s.wpc t (.reset w) }
  | unchecked (t w) (hi : s.wpc t = .check w) (hn : ¬ (s.server.wg = 0 ∧ s.waiters = w)) : Tr s (.wg t) { s with panic := some .misuse }
  | reset (t w) (hi : s.wpc t = .reset w) :
      Tr s (.wg t) { s with server := { s.server with wg := 0 }, waiters := 0, wpc := upd s.wpc t (.release w) }
  | released (t) (hi : s.wpc t = .release 0) : Tr s (.wg t) { s with wpc := upd s.wpc t .idle }
  | release (t w) (hi : s.wpc t = .release (w + 1)) : Tr s (.wg t) { s with sema := s.sema + 1, wpc := upd s.wpc t (.release w) }
  | cas (t v w) (hi : s.wpc t = .cas v w) (hv : s.server.wg = v) (hw : s.waiters = w) : Tr s (.wg t) { s with waiters := w + 1, wpc := upd s.wpc t .sleep }
  | again (t v w) (hi : s.wpc t = .cas v w) (hn : ¬ (s.server.wg = v ∧ s.waiters = w)) : Tr s (.wg t) { s with wpc := upd s.wpc t .idle }
  | wake (t) (hi : s.wpc t = .sleep) (hs : s.sema ≠ 0) : Tr s (.wg t) { s with sema := s.sema - 1, wpc := upd s.wpc t .awake }
  | return (t srv) (hi : s.wpc t = .awake) (hv : s.server.wg = 0) (hw : s.waiters = 0) (h : ServerModel.step s.server (.thread t) = some srv) :
      Tr s (.wg t) { s with server := srv, wpc := upd s.wpc t .idle }
  | reused (t) (hi : s.wpc t = .awake) (hn : ¬ (s.server.wg = 0 ∧ s.waiters = 0)) : Tr s (.wg t) { s with panic := some .reused }

theorem step_tr {s s' : State} {a : Action} (hs : step s a = some s') :
    (s.panic = none ∧ s.server.watchdogPanic = false ∧ s.server.sendPanic = false) ∧ Tr s a s' := by
  unfold step at hs
  split at hs
  · simp at hs
  rename_i ho
  have ho' : s.panic = none ∧ s.server.watchdogPanic = false ∧ s.server.sendPanic = false := by
    simpa [State.over, and_assoc] using ho
  refine ⟨ho', ?_⟩
  have other : ∀ a srv, ServerModel.step s.server a = some srv → (∀ t, a ≠ .thread t) → Tr s (.server a) { s with server := srv } :=
    fun a srv h1 h2 => .other a srv h1 (fun t ht => absurd ht (h2 t))
  split at hs
  · rename_i t
    split at hs
    · simp at hs
    rename_i hi
    have hi : s.wpc t = .idle := Decidable.byContradiction hi
    split at hs <;> try simp only [Option.some.injEq] at hs
    · rename_i _ ln srv hp h
      subst hs
      unfold add
      split
      · rename_i hx; exact .misuse t srv hi (by rw [hp]; rfl) h hx.1 hx.2
      · rename_i hx; exact .add t srv hi (by rw [hp]; rfl) h (by by_cases hw : s.waiters = 0 <;> simp_all)
    · rename_i _ ln c srv hp h
      subst hs
      unfold add
      split
      · rename_i hx; exact .misuse t srv hi (by rw [hp]; rfl) h hx.1 hx.2
      · rename_i hx; exact .add t srv hi (by rw [hp]; rfl) h (by by_cases hw : s.waiters = 0 <;> simp_all)
    · rename_i _ r srv hp h
      have hen : (s.server.pc t).ending t = true := by
        cases t with
        | go n => rw [hp]; rfl
        | user n => simp [ServerModel.step, ho'.2, hp] at h
      subst hs
      unfold done
      split
      · rename_i hx; exact .negative t hen hx
      · rename_i hn
        split
        · rename_i hx; exact .last t srv hi hen h hn hx.1 hx.2
        · rename_i hx; exact .done t srv hi hen h hn (by by_cases hw : s.waiters = 0 <;> simp_all)
    · rename_i _ r srv hp h
      subst hs
      have hv : s.server.wg = 0 := by
        simp only [ServerModel.step, ho'.2, hp] at h
        simp at h
        exact h.1
      exact .pass t r srv hi hp hv h
    · rename_i _ r hp h
      subst hs
      have hv : s.server.wg ≠ 0 := by
        intro hv
        simp [ServerModel.step, ho'.2, hp, hv] at h
      exact .load t r hi hp hv
    · subst hs
      refine .other _ _ ‹_› ?_
      rintro u hu
      cases hu
      cases hp : s.server.pc t <;> simp_all [PC.adding, PC.waiting]
      all_goals (cases t <;> rfl)
    · simp at hs
  · rename_i a hne
    split at hs
    · simp only [Option.some.injEq] at hs; subst hs
      exact other _ _ ‹_› (fun t ht => hne t (by rw [ht]))
    · simp at hs
  · rename_i t
    split at hs
    · simp at hs
    · split at hs <;> simp only [Option.some.injEq] at hs <;> subst hs
      · rename_i hx; exact .checked t _ ‹_› hx.1 hx.2
      · exact .unchecked t _ ‹_› ‹_›
    · simp only [Option.some.injEq] at hs; subst hs; exact .reset t _ ‹_›
    · simp only [Option.some.injEq] at hs; subst hs; exact .released t ‹_›
    · simp only [Option.some.injEq] at hs; subst hs; exact .release t _ ‹_›
    · split at hs <;> simp only [Option.some.injEq] at hs <;> subst hs
      · rename_i hx; exact .cas t _ _ ‹_› hx.1 hx.2
      · exact .again t _ _ ‹_› ‹_›
    · split at hs
      · simp at hs
      · simp only [Option.some.injEq] at hs; subst hs; exact .wake t ‹_› ‹_›
    · split at hs
      · rename_i hx
        split at hs
        · simp only [Option.some.injEq] at hs; subst hs; exact .return t _ ‹_› hx.1 hx.2 ‹_›
        · simp at hs
      · simp only [Option.some.injEq] at hs; subst hs; exact .reused t ‹_› ‹_›

/-! ### The states of the wait group -/

/-- The thread is in `Wait`. -/
def WPC.waits : WPC → Bool
  | .cas _ _ => true
  | .sleep => true
  | .awake => true
  | _ => false

/-- The thread is in `Done` and has to release the waiters. -/
def WPC.frees : WPC → Bool
  | .check _ => true
  | .reset _ => true
  | .release w => decide (w ≠ 0)
  | _ => false

/-- The states of the wait group: nobody waits, or may have loaded the counter; -/
inductive Phase : (wg waiters sema : Nat) → (Tid → WPC) → Prop where
  | free {v wpc} (hf : ∀ t, (wpc t).frees = false) (hw : ∀ t, (wpc t).waits = true → ∃ v, v ≠ 0 ∧ wpc t = .cas v 0) : Phase v 0 0 wpc
  /-- `u` waits; -/
  | waiting {v wpc} (u) (hv : v ≠ 0) (hu : wpc u = .sleep) (hf : ∀ t, (wpc t).frees = false) (hw : ∀ t, (wpc t).waits = true → t = u) : Phase v 1 0 wpc
  /-- `u` waits, and `d` has brought the counter to zero and is going to release it; -/
  | zero {wpc} (u d) (hu : wpc u = .sleep) (hd : wpc d = .check 1 ∨ wpc d = .reset 1) (hf : ∀ t, (wpc t).frees = true → t = d)
      (hw : ∀ t, (wpc t).waits = true → t = u) : Phase 0 1 0 wpc
  | release {v wpc} (u d) (hu : wpc u = .sleep) (hd : wpc d = .release 1) (hf : ∀ t, (wpc t).frees = true → t = d)
      (hw : ∀ t, (wpc t).waits = true → t = u) : Phase v 0 0 wpc
  /-- `u` is released; -/
  | released {v wpc} (u) (hu : wpc u = .sleep) (hf : ∀ t, (wpc t).frees = false) (hw : ∀ t, (wpc t).waits = true → t = u) : Phase v 0 1 wpc
  /-- `u` is awake. -/
  | awake {v wpc} (u) (hu : wpc u = .awake) (hf : ∀ t, (wpc t).frees = false) (hw : ∀ t, (wpc t).waits = true → t = u) : Phase v 0 0 wpc

theorem Phase.count {v v' w m : Nat} {wpc : Tid → WPC} (h : Phase v w m wpc) (hv : w ≠ 0 → (v' = 0 ↔ v = 0)) : Phase v' w m wpc := by
  cases h with
  | free hf hw => exact .free hf hw
  | waiting u h hu hf hw => exact .waiting u (by have := hv (by simp); omega) hu hf hw
  | zero u d hu hd hf hw =>
    have : v' = 0 := (hv (by simp)).mpr rfl
    subst this; exact .zero u d hu hd hf hw
  | release u d hu hd hf hw => exact .release u d hu hd hf hw
  | released u hu hf hw => exact .released u hu hf hw
  | awake u hu hf hw => exact .awake u hu hf hw

structure WInv (s : State) : Prop where
  waits : ∀ t, (s.wpc t).waits = true → (s.server.pc t).waiting = true
  gone : ∀ t, s.wpc t ≠ .idle → (s.wpc t).waits = false → s.server.pc t = .done
  phase : Phase s.server.wg s.waiters s.sema s.wpc

theorem winv_init (c : Option ServerModel.Addr) : WInv (init c) := by
  refine ⟨?_, ?_, .free ?_ ?_⟩ <;> simp [init, WPC.waits, WPC.frees]

theorem waiting_one {s : State} (hi : ServerModel.Inv s.server) {t u : Tid} (ht : (s.server.pc t).waiting = true) (hu : (s.server.pc u).waiting = true) : t = u := by
  have key : ∀ v, (s.server.pc v).waiting = true → (s.server.pc v).closing = true := by
    intro v hv; cases hp : s.server.pc v <;> rw [hp] at hv <;> simp [PC.waiting, PC.closing] at hv ⊢
  exact hi.sess.one t u (key _ ht) (key _ hu)

theorem winv_step {s s' : State} {a : Action} (hi : ServerModel.Inv s.server) (h : WInv s) (hs : step s a = some s') (hp : s'.panic = none) : WInv s' := by
  have hone := fun t u => @waiting_one s hi t u
  have hg := hi.go
  clear hi
  obtain ⟨ho, htr⟩ := step_tr hs
  clear hs
  obtain ⟨h1, h2, h3⟩ := h
  cases htr
  case other a srv hb hk =>
    obtain ⟨k1, k2, k3⟩ := ServerModel.kind_other hg hk hb
    exact ⟨fun t ht => (k3 t).1 (h1 t ht), fun t ht ht' => (k3 t).2 (h2 t ht ht'), h3.count fun _ => by simp only [k1]⟩
  case add t srv hidle ha hb hok =>
    obtain ⟨k1, k2, k3⟩ := ServerModel.kind_add hg ha hb
    refine ⟨fun t ht => (k3 t).1 ▸ h1 t ht, fun t ht ht' => (k3 t).2 (h2 t ht ht'), h3.count fun hw => ?_⟩
    simp only [k1] at hok ⊢; omega
  case done t srv hidle ha hb hn hok =>
    obtain ⟨k1, k4, k2, k3⟩ := ServerModel.kind_done hg ha hb
    refine ⟨fun t ht => (k3 t).1 ▸ h1 t ht, fun t ht ht' => (k3 t).2 (h2 t ht ht'), h3.count fun hw => ?_⟩
    simp only; omega
  case pass t r srv hidle ha hv hb =>
    obtain ⟨k1, r', k2, rfl⟩ := ServerModel.kind_close hg (by rw [ha]; rfl) hb
    refine ⟨fun u hu => ?_, fun u hu hu' => ?_, h3⟩
    · simp only at hu ⊢
      rw [upd_other _ _ (by rintro rfl; rw [hidle] at hu; simp [WPC.waits] at hu)]; exact h1 u hu
    · simp only at hu hu' ⊢
      rw [upd_other _ _ (by rintro rfl; exact hu hidle)]; exact h2 u hu hu'
  case last t srv hidle ha hb hn hv hw =>
    obtain ⟨k1, k4, k2, k3⟩ := ServerModel.kind_done hg ha hb
    refine ⟨fun u hu => ?_, fun u hu hu' => ?_, ?_⟩
    · by_cases hx : u = t
      · subst hx; simp [WPC.waits] at hu
      · simp only [upd_other _ _ hx] at hu; exact (k3 u).1 ▸ h1 u hu
    · by_cases hx : u = t
      · subst hx; exact k4
      · simp only [upd_other _ _ hx] at hu hu'; exact (k3 u).2 (h2 u hu hu')
    · simp only [hv]
      generalize s.server.wg = v at h3 hn
      generalize s.waiters = w at h3 hw
      generalize s.sema = m at h3
      generalize s.wpc = p at h3 hidle
      cases h3 with
      | waiting u hv hu hf hw => refine .zero u t ?_ ?_ ?_ ?_ <;> grind [upd_apply, WPC.waits, WPC.frees]
      | _ => simp at hw hn
  case «return» t srv hidle hv hw hb =>
    obtain ⟨k1, r', k2, rfl⟩ := ServerModel.kind_close hg (h1 t (by rw [hidle]; rfl)) hb
    refine ⟨fun u hu => ?_, fun u hu hu' => ?_, ?_⟩
    · by_cases hx : u = t
      · subst hx; simp [WPC.waits] at hu
      · simp only [upd_other _ _ hx] at hu ⊢; exact h1 u hu
    · by_cases hx : u = t
      · subst hx; simp at hu
      · simp only [upd_other _ _ hx] at hu hu' ⊢; exact h2 u hu hu'
    · simp only
      clear hb hone h1 h2 k1 k2 hp
      generalize s.server.wg = v at h3 hv
      generalize s.waiters = w at h3 hw
      generalize s.sema = m at h3
      generalize s.wpc = p at h3 hidle
      subst hw
      cases h3 with
      | awake u hu hf hw => refine .free ?_ ?_ <;> grind [upd_apply, WPC.waits, WPC.frees]
      | _ => exfalso; grind [WPC.waits]
  case load t r hidle ha hv =>
    have hx : ∀ u, (s.wpc u).waits = true → u = t := fun u hu => hone u t (h1 u hu) (by rw [ha]; rfl)
    refine ⟨fun u hu => ?_, fun u hu hu' => ?_, ?_⟩
    · by_cases hx : u = t
      · subst hx; rw [ha]; rfl
      · simp only [upd_other _ _ hx] at hu; exact h1 u hu
    · by_cases hx : u = t
      · subst hx; simp [WPC.waits] at hu'
      · simp only [upd_other _ _ hx] at hu hu'; exact h2 u hu hu'
    · simp only
      clear ho h1 h2 hone hp ha
      generalize s.server.wg = v at h3 hv
      generalize s.waiters = w at h3
      generalize s.sema = m at h3
      generalize s.wpc = p at h3 hidle hx
      cases h3 with
      | free hf hw => refine .free ?_ ?_ <;> grind [upd_apply, WPC.waits, WPC.frees]
      | _ => exfalso; grind [WPC.waits]
  all_goals try (simp at hp; done)
  all_goals
    refine ⟨?_, ?_, ?_⟩
    · clear h3; grind [upd_apply, WPC.waits]
    · clear h3; grind [upd_apply, WPC.waits]
    · simp only
      have hx : ∀ t u, (s.wpc t).waits = true → (s.wpc u).waits = true → t = u := fun t u ht hu => hone t u (h1 t ht) (h1 u hu)
      clear h1 h2 hone hp ho hg
      revert h3
      first | generalize s.server.wg = v at * | skip
      generalize s.waiters = w at *
      generalize s.sema = m at *
      generalize s.wpc = p at *
      intro h3
      cases h3 with
      | free hf hw =>
        first
          | (exfalso; grind [WPC.waits, WPC.frees])
          | (subst_vars; refine .free ?_ ?_ <;> grind [upd_apply, WPC.waits, WPC.frees])
          | (subst_vars; refine .waiting ‹Tid› ?_ ?_ ?_ ?_ <;> grind [upd_apply, WPC.waits, WPC.frees])
      | waiting u hv hu hf hw =>
        first
          | (exfalso; grind [WPC.waits, WPC.frees])
          | (subst_vars; refine .waiting u ?_ ?_ ?_ ?_ <;> grind [upd_apply, WPC.waits, WPC.frees])
      | zero u d hu hd hf hw =>
        first
          | (exfalso; grind [WPC.waits, WPC.frees])
          | (subst_vars; refine .zero u d ?_ ?_ ?_ ?_ <;> grind [upd_apply, WPC.waits, WPC.frees])
          | (subst_vars; refine .release u d ?_ ?_ ?_ ?_ <;> grind [upd_apply, WPC.waits, WPC.frees])
      | release u d hu hd hf hw =>
        first
          | (exfalso; grind [WPC.waits, WPC.frees])
          | (subst_vars; refine .release u d ?_ ?_ ?_ ?_ <;> grind [upd_apply, WPC.waits, WPC.frees])
          | (subst_vars; refine .released u ?_ ?_ ?_ <;> grind [upd_apply, WPC.waits, WPC.frees])
      | released u hu hf hw =>
        first
          | (exfalso; grind [WPC.waits, WPC.frees])
          | (subst_vars; refine .released u ?_ ?_ ?_ <;> grind [upd_apply, WPC.waits, WPC.frees])
          | (subst_vars; refine .awake u ?_ ?_ ?_ <;> grind [upd_apply, WPC.waits, WPC.frees])
      | awake u hu hf hw =>
        first
          | (exfalso; grind [WPC.waits, WPC.frees])
          | (subst_vars; refine .awake u ?_ ?_ ?_ <;> grind [upd_apply, WPC.waits, WPC.frees])

/-- While nobody panics, the counter changes as in the model of the server. -/
structure Good (c : Option ServerModel.Addr) (s : State) : Prop where
  server : Reachable ServerModel.step (ServerModel.init c) s.server
  inv : s.panic = none → WInv s

theorem good_step {c : Option ServerModel.Addr} {s s' : State} {a : Action} (h : Good c s) (hs : step s a = some s') : Good c s' := by
  have hi := ServerModel.inv_of_reachable h.server
  obtain ⟨ho, htr⟩ := step_tr hs
  have hw := h.inv ho.1
  refine ⟨?_, fun hp => winv_step hi hw hs hp⟩
  cases htr
  case reset t w hidle =>
    have : s.server.wg = 0 := by
      have h3 := hw.phase
      generalize s.server.wg = v at h3
      generalize s.waiters = w at h3
      generalize s.sema = m at h3
      generalize s.wpc = p at h3 hidle
      cases h3 <;> first | rfl | grind [WPC.frees]
    rw [show { s.server with wg := 0 } = s.server by rw [← this]]
    exact h.server
  all_goals first
    | exact h.server
    | exact h.server.next ‹_›

theorem good_of_reachable {c : Option ServerModel.Addr} {s : State} (h : Reachable step (init c) s) : Good c s :=
  h.invariant (Good c) ⟨.refl _, fun _ => winv_init c⟩ (fun _ _ _ h hs => good_step h hs)

/-! ### Panics -/

theorem adding_iff {s : State} {t : Tid} : (s.server.pc t).adding = true ↔ CallsDo s t := by
  unfold CallsDo
  cases h : s.server.pc t <;> simp [PC.adding]

theorem ending_pos {s : State} (hi : ServerModel.GoInv s.server) {t : Tid} (h : (s.server.pc t).ending t = true) : 0 < s.server.wg := by
  cases t with
  | user n => cases hp : s.server.pc (.user n) <;> rw [hp] at h <;> simp [PC.ending] at h
  | go n =>
    refine ServerModel.wg_pos (n := n) hi ?_ ?_ <;> intro hp <;> rw [hp] at h <;> simp [PC.ending] at h

theorem adding_pos {s : State} (hi : ServerModel.GoInv s.server) {n : Nat} (h : (s.server.pc (.go n)).adding = true) : 0 < s.server.wg := by
  refine ServerModel.wg_pos (n := n) hi ?_ ?_ <;> intro hp <;> rw [hp] at h <;> simp [PC.adding] at h

/-- With a waiter, the counter is positive or somebody has brought it to zero. -/
theorem waiter_phase {s : State} (h : WInv s) (hw : s.waiters ≠ 0) : s.waiters = 1 ∧ ∃ u, s.wpc u = .sleep := by
  have h3 := h.phase
  generalize s.server.wg = v at h3
  generalize s.sema = m at h3
  generalize s.waiters = w at h3 hw
  generalize s.wpc = p at h3
  cases h3 with
  | waiting u _ hu => exact ⟨rfl, u, hu⟩
  | zero u d hu => exact ⟨rfl, u, hu⟩
  | _ => simp at hw

theorem check_phase {s : State} (h : WInv s) {t : Tid} {w : Nat} (ht : s.wpc t = .check w) : s.server.wg = 0 ∧ s.waiters = w := by
  have h3 := h.phase
  generalize s.server.wg = v at h3
  generalize s.sema = m at h3
  generalize s.waiters = w at h3
  generalize s.wpc = p at h3 ht
  cases h3 <;> grind [WPC.frees]

theorem awake_phase {s : State} (h : WInv s) {t : Tid} (ht : s.wpc t = .awake) : s.waiters = 0 := by
  have h3 := h.phase
  generalize s.server.wg = v at h3
  generalize s.sema = m at h3
  generalize s.waiters = w at h3
  generalize s.wpc = p at h3 ht
  cases h3 <;> grind [WPC.waits]

/-- A panic, and how it comes to it. -/
theorem panic_step {c : Option ServerModel.Addr} {s s' : State} {a : Action} (h : Good c s) (hs : step s a = some s') (hp : s'.panic ≠ none) :
    (s'.panic = some .misuse ∧ ∃ n, a = .server (.thread (.user n)) ∧ CallsDo s (.user n) ∧ s.server.wg = 0 ∧ s.waiters = 1 ∧ ∃ u, s.wpc u = .sleep) ∨
    (s'.panic = some .reused ∧ ∃ t, a = .wg t ∧ s.wpc t = .awake ∧ s.server.wg ≠ 0) := by
  have hi := (ServerModel.inv_of_reachable h.server).go
  obtain ⟨ho, htr⟩ := step_tr hs
  have hw := h.inv ho.1
  cases htr
  case misuse t srv hidle ha hb hw' hv =>
    obtain ⟨k1, -⟩ := ServerModel.kind_add hi ha hb
    obtain ⟨k2, k3⟩ := waiter_phase hw hw'
    left
    cases t with
    | user n => exact ⟨rfl, n, rfl, adding_iff.mp ha, by omega, k2, k3⟩
    | go n => have := adding_pos hi ha; omega
  case negative t ha hn => have := ending_pos hi ha; omega
  case unchecked t w hidle hn => exact absurd (check_phase hw hidle) hn
  case reused t hidle hn =>
    have := awake_phase hw hidle
    exact .inr ⟨rfl, t, rfl, hidle, fun hv => hn ⟨hv, this⟩⟩
  all_goals exact absurd ho.1 hp

/-- In careful executions, the counter is zero from when `Close` is released on until it returns. -/
structure CInv (c : Option ServerModel.Addr) (s : State) : Prop where
  good : Good c s
  fine : s.panic = none
  zero : Waiting s → s.waiters = 0 → s.server.wg = 0

theorem cinv_step {c : Option ServerModel.Addr} {s s' : State} {a : Action} (h : CInv c s) (ha : Careful s a) (hs : step s a = some s') : CInv c s' := by
  have hi := (ServerModel.inv_of_reachable h.good.server).go
  have hw := h.good.inv h.fine
  refine ⟨good_step h.good hs, ?_, ?_⟩
  · refine Decidable.byContradiction fun hp => ?_
    rcases panic_step h.good hs hp with ⟨-, n, rfl, h1, h2, h3, u, h4⟩ | ⟨-, t, rfl, h1, h2⟩
    · exact ha h1 h2 ⟨u, .inl h4⟩
    · exact h2 (h.zero ⟨t, .inr h1⟩ (awake_phase hw h1))
  · obtain ⟨ho, htr⟩ := step_tr hs
    have h0 := h.zero
    cases htr
    case other a srv hb hk =>
      obtain ⟨k1, -⟩ := ServerModel.kind_other hi hk hb
      intro h1 h2
      simp only [k1]; exact h0 h1 h2
    case add t srv hidle hadd hb hok =>
      intro h1 h2
      have h3 := h0 h1 h2
      cases t with
      | user n => exact absurd h1 (ha (adding_iff.mp hadd) h3)
      | go n => have := adding_pos hi hadd; omega
    case misuse t srv hidle hadd hb hok hv =>
      intro h1 h2
      have h3 := h0 h1 h2
      cases t with
      | user n => exact absurd h1 (ha (adding_iff.mp hadd) h3)
      | go n => have := adding_pos hi hadd; omega
    case done t srv hidle hend hb hn hok =>
      intro h1 h2
      exact absurd (h0 h1 h2) hn
    case last t srv hidle hend hb hn hv hw => exact fun _ _ => hv
    case negative t hend hn => exact fun _ _ => hn
    case pass t r srv hidle hp hv hb =>
      obtain ⟨k1, r', k2, rfl⟩ := ServerModel.kind_close hi (by rw [hp]; rfl) hb
      exact fun _ _ => hv
    case «return» t srv hidle hv hw' hb =>
      obtain ⟨k1, r', k2, rfl⟩ := ServerModel.kind_close hi (hw.waits t (by rw [hidle]; rfl)) hb
      exact fun _ _ => hv
    case reset => exact fun _ _ => rfl
    case load t r hidle hp hv =>
      rintro ⟨u, hu⟩ h2
      refine h0 ⟨u, ?_⟩ h2
      simp only [upd_apply] at hu
      split at hu <;> simp_all
    case cas t v w hidle hv hw' => intro _ h2; simp at h2
    case wake t hidle hs => exact fun _ h2 => h0 ⟨t, .inl hidle⟩ h2
    all_goals
      rintro ⟨u, hu⟩ h2
      refine h0 ⟨u, ?_⟩ h2
      first
        | exact hu
        | (simp only [upd_apply] at hu
           split at hu <;> simp_all)

theorem cinv_of_careful {c : Option ServerModel.Addr} {s : State} (h : ReachableCarefully c s) : CInv c s := by
  induction h with
  | init => exact ⟨⟨.refl _, fun _ => winv_init c⟩, rfl, fun _ _ => rfl⟩
  | step _ ha hs ih => exact cinv_step ih ha hs

end WaitGroup
end Gevulot
