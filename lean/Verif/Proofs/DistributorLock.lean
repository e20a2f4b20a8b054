import Verif.Proofs.DistributorRest
import Verif.Spec.DistributorLock

namespace Gevulot.DistributorLock

open DistributorModel (Config Check ChanId Holder PC MonPC Ev shouldSend send register startMonitor afterSubscribe unregister finishSubscribe)

/-- What the mutex guards and where these goroutines are, replaced. -/
def patch (lk : Option Holder) (ks : List ChanId) (ck : ChanId → List Check) (hi : List Ev) (st : Bool) (mc : Nat) (d : Nat → Option PC) (e : Nat → Option MonPC)
    (g : DistributorModel.State) : DistributorModel.State :=
  { g with lock := lk, keys := ks, checks := ck, hist := hi, started := st, monCount := mc, pc := fun u => (d u).getD (g.pc u), mon := fun i => (e i).getD (g.mon i) }

/-- Steps which have nothing to do with the mutex. -/
def away (g : DistributorModel.State) : DistributorModel.Action → Bool
  | .thread t => !guards (g.pc t)
  | .monLock _ | .monNotify _ _ => false
  | _ => true

theorem getD_upd {α : Type} (d : Nat → Option α) (f : Nat → α) (u : Nat) (x : α) (h : d u = none) : (fun v => (d v).getD (upd f u x v)) = upd (fun v => (d v).getD (f v)) u x := by
  funext v
  simp only [upd_apply]
  by_cases hv : v = u
  · subst hv; simp [h]
  · simp [hv]

/-- Such a step can be made all the same while others are in a section. -/
theorem step_patch {g g' : DistributorModel.State} {a : DistributorModel.Action} (ha : away g a = true) (hs : DistributorModel.step g a = some g')
    (lk : Option Holder) (ks : List ChanId) (ck : ChanId → List Check) (hi : List Ev) (st : Bool) (mc : Nat) (d : Nat → Option PC) (e : Nat → Option MonPC)
    (hd : ∀ u, d u ≠ none → guards (g.pc u) = true) (he : ∀ i, e i ≠ none → g.mon i ≠ .select) :
    DistributorModel.step (patch lk ks ck hi st mc d e g) a = some (patch lk ks ck hi st mc d e g') := by
  have hd0 : ∀ u, guards (g.pc u) = false → d u = none := by
    intro u hu
    cases hx : d u with
    | none => rfl
    | some p => have := hd u (by simp [hx]); rw [hu] at this; simp at this
  have he0 : ∀ i, g.mon i = .select → e i = none := by
    intro i hu
    cases hx : e i with
    | none => rfl
    | some p => exact absurd hu (he i (by simp [hx]))
  clear hd he
  have hp : g.panicked = false := by
    cases h : g.panicked with
    | false => rfl
    | true => simp [DistributorModel.step, h] at hs
  cases a with
  | produce c =>
    simp only [DistributorModel.step, hp, Bool.false_eq_true, if_false] at hs
    split at hs
    · simp at hs
    · simp only [Option.some.injEq] at hs; subst hs
      simp_all [DistributorModel.step, patch]
  | closeSource =>
    simp only [DistributorModel.step, hp, Bool.false_eq_true, if_false] at hs
    split at hs
    · simp at hs
    · simp only [Option.some.injEq] at hs; subst hs
      simp_all [DistributorModel.step, patch]
  | call t op =>
    simp only [DistributorModel.step, hp, Bool.false_eq_true, if_false] at hs
    split at hs
    · rename_i hpc
      have hdt := hd0 t (by rw [hpc]; rfl)
      cases op <;> simp only [Option.some.injEq] at hs <;> subst hs <;> simp [DistributorModel.step, patch, hp, hpc, hdt, getD_upd _ _ _ _ hdt]
    · simp at hs
  | thread t =>
    have hdt := hd0 t (by simpa [away] using ha)
    simp only [DistributorModel.step, hp, Bool.false_eq_true, if_false] at hs
    cases hpc : g.pc t <;> simp [away, hpc, guards] at ha <;> simp only [hpc] at hs
    case getEnter => simp only [Option.some.injEq] at hs; subst hs; simp [DistributorModel.step, patch, hp, hpc, hdt, getD_upd _ _ _ _ hdt]
    case subCheck => simp only [Option.some.injEq] at hs; subst hs; simp [DistributorModel.step, patch, hp, hpc, hdt, getD_upd _ _ _ _ hdt]
    case closeFire =>
      split at hs <;> simp only [Option.some.injEq] at hs <;> subst hs <;> simp [DistributorModel.step, patch, hp, hpc, hdt, getD_upd _ _ _ _ hdt, *]
    all_goals simp at hs
  | cancel t =>
    simp only [DistributorModel.step, hp, Bool.false_eq_true, if_false] at hs
    split at hs
    · rename_i hpc
      have hdt := hd0 t (by rw [hpc]; rfl)
      split at hs
      · simp only [Option.some.injEq] at hs; subst hs
        simp [DistributorModel.step, patch, hp, hpc, hdt, getD_upd _ _ _ _ hdt, *]
      · simp at hs
    · simp at hs
  | monTake i =>
    simp only [DistributorModel.step, hp, Bool.false_eq_true, if_false] at hs
    split at hs
    · rename_i hm
      have hei := he0 i hm
      split at hs
      · simp only [Option.some.injEq] at hs; subst hs
        simp [DistributorModel.step, patch, hp, hm, hei, getD_upd _ _ _ _ hei, *]
      · split at hs
        · split at hs <;> simp only [Option.some.injEq] at hs <;> subst hs <;> simp [DistributorModel.step, patch, hp, hm, hei, getD_upd _ _ _ _ hei, *]
        · simp at hs
    · simp at hs
  | monDone i =>
    simp only [DistributorModel.step, hp, Bool.false_eq_true, if_false] at hs
    split at hs
    · rename_i hm
      have hei := he0 i hm
      split at hs
      · simp only [Option.some.injEq] at hs; subst hs
        simp [DistributorModel.step, patch, hp, hm, hei, getD_upd _ _ _ _ hei, *]
      · simp at hs
    · simp at hs
  | monLock i => simp [away] at ha
  | monNotify i ch => simp [away] at ha
  | userRecv n =>
    simp only [DistributorModel.step, hp, Bool.false_eq_true, if_false] at hs
    split at hs
    · simp only [Option.some.injEq] at hs; subst hs; simp [DistributorModel.step, patch, hp, *]
    · split at hs <;> simp only [Option.some.injEq] at hs <;> subst hs <;> simp [DistributorModel.step, patch, hp, *]
  | userLeave n =>
    simp only [DistributorModel.step, hp, Bool.false_eq_true, if_false] at hs
    split at hs
    · simp only [Option.some.injEq] at hs; subst hs; simp [DistributorModel.step, patch, hp, *]
    · simp at hs
  | userClose n =>
    simp only [DistributorModel.step, hp, Bool.false_eq_true, if_false] at hs
    split at hs <;> simp only [Option.some.injEq] at hs <;> subst hs <;> simp [DistributorModel.step, patch, hp, *]

/-- Such a step does not touch what the mutex guards. -/
theorem step_keeps {g g' : DistributorModel.State} {a : DistributorModel.Action} (ha : away g a = true) (hs : DistributorModel.step g a = some g') :
    (g'.lock = g.lock ∧ g'.keys = g.keys ∧ g'.checks = g.checks ∧ g'.hist = g.hist ∧ g'.started = g.started ∧ g'.monCount = g.monCount ∧ g'.lastConfig = g.lastConfig) ∧
      (∀ u, guards (g.pc u) = true → g'.pc u = g.pc u) ∧ (∀ i, g.mon i ≠ .select → g'.mon i = g.mon i) := by
  obtain ⟨-, htr⟩ := DistributorModel.step_tr hs
  clear hs
  have key : ∀ u t q p, g.pc t = q → guards q = false → guards (g.pc u) = true → upd g.pc t p u = g.pc u := by
    intro u t q p h1 h2 h3
    by_cases hu : u = t
    · subst hu; rw [h1, h2] at h3; simp at h3
    · rw [upd_other _ _ hu]
  have keym : ∀ i j p, g.mon j = .select → g.mon i ≠ .select → upd g.mon j p i = g.mon i := by
    intro i j p h1 h2
    by_cases hu : i = j
    · subst hu; exact absurd h1 h2
    · rw [upd_other _ _ hu]
  cases htr
  all_goals try (simp [away, guards, *] at ha; done)
  all_goals refine ⟨⟨rfl, rfl, rfl, rfl, rfl, rfl, rfl⟩, fun u hu => ?_, fun i hi => ?_⟩
  all_goals first
    | rfl
    | exact keym _ _ _ ‹g.mon _ = _› hi
    | exact key _ _ _ _ ‹g.pc _ = _› rfl hu

/-- How `Get` goes on after its look at the current configuration. -/
def seen (g : DistributorModel.State) (t : Nat) : PC :=
  match g.lastConfig with
  | some c => .returned (.config c)
  | none => .subCheck (.getter t) []

/-- The transitions, one by one. -/
inductive Tr (s : State) : Action → State → Prop where
  | other (b g') (hg : guarded s.base b = false) (h : DistributorModel.step s.base b = some g') : Tr s (.other b) { s with base := g' }
  | rlock (t) (hpc : s.base.pc t = .getSnapshot) (hr : s.rd t = none) (hl : s.base.lock = none) (hh : s.held = none) (hw : s.want = none) :
      Tr s (.rlock t) { s with readers := t :: s.readers, rd := upd s.rd t (some none) }
  | read (t) (hr : s.rd t = some none) : Tr s (.read t) { s with rd := upd s.rd t (some (some (seen s.base t))) }
  | runlock (t p) (hr : s.rd t = some (some p)) :
      Tr s (.runlock t) { s with base := { s.base with pc := upd s.base.pc t p }, readers := s.readers.filter (· ≠ t), rd := upd s.rd t none }
  | announce (h) (hk : locks s.base h = true) (hl : s.base.lock = none) (hh : s.held = none) (hw : s.want = none) : Tr s (.announce h) { s with want := some h }
  | lockSub (t ch ks) (hw : s.want = some (.thread t)) (hr : s.readers = []) (hpc : s.base.pc t = .subLock ch ks) :
      Tr s .lock { s with base := { s.base with lock := some (.thread t), pc := upd s.base.pc t (.subLocked ch ks) }, want := none }
  | lockThread (t) (hw : s.want = some (.thread t)) (hr : s.readers = []) (hpc : ∀ ch ks, s.base.pc t ≠ .subLock ch ks) :
      Tr s .lock { s with held := some (.thread t, .entered), want := none }
  | lockMon (i) (hw : s.want = some (.monitor i)) (hr : s.readers = []) : Tr s .lock { s with held := some (.monitor i, .entered), want := none }
  | sendPanic (t ch ks c g') (hh : s.held = none) (hl : s.base.lock = some (.thread t)) (hpc : s.base.pc t = .subLocked ch ks) (hc : s.base.lastConfig = some c)
      (hw : shouldSend ks none c = true) (hs : send s.base ch c = some g') (hp : g'.panicked = true) : Tr s .inside { s with base := g' }
  | sent (t ch ks c g') (hh : s.held = none) (hl : s.base.lock = some (.thread t)) (hpc : s.base.pc t = .subLocked ch ks) (hc : s.base.lastConfig = some c)
      (hw : shouldSend ks none c = true) (hs : send s.base ch c = some g') (hp : g'.panicked = false) :
      Tr s .inside { s with base := g', held := some (.thread t, .register ch ks) }
  | silent (t ch ks) (hh : s.held = none) (hl : s.base.lock = some (.thread t)) (hpc : s.base.pc t = .subLocked ch ks)
      (hc : ∀ c, s.base.lastConfig = some c → shouldSend ks none c = false) : Tr s .inside { s with held := some (.thread t, .register ch ks) }
  | register (t ch ks) (hh : s.held = some (.thread t, .register ch ks)) : Tr s .inside { s with base := register s.base ch ks, held := some (.thread t, .start ch) }
  | start (t ch) (hh : s.held = some (.thread t, .start ch)) : Tr s .inside { s with base := startMonitor s.base, held := some (.thread t, .leave (afterSubscribe ch)) }
  | leave (t p) (hh : s.held = some (.thread t, .leave p)) : Tr s .inside { s with base := { s.base with lock := none, pc := upd s.base.pc t p }, held := none }
  | getUnsub (t r) (hh : s.held = some (.thread t, .entered)) (hpc : s.base.pc t = .getUnsub r) :
      Tr s .inside { s with base := unregister s.base (.getter t), held := some (.thread t, .leave (.returned r)) }
  | unsub (t n) (hh : s.held = some (.thread t, .entered)) (hpc : s.base.pc t = .unsubLock n) :
      Tr s .inside { s with base := unregister s.base (.user n), held := some (.thread t, .leave (.returned .ok)) }
  | close (t) (hh : s.held = some (.thread t, .entered)) (hpc : s.base.pc t = .closeLock) :
      Tr s .inside { s with base := { s.base with hist := s.base.hist ++ [.closeAll] }, held := some (.thread t, .deleting s.base.keys) }
  | monGot (i c) (hh : s.held = some (.monitor i, .entered)) (hm : s.base.mon i = .gotten c) :
      Tr s .inside { s with base := { s.base with lock := some (.monitor i), lastConfig := some c, hist := s.base.hist ++ [.update c], mon := upd s.base.mon i (.notifying s.base.lastConfig c s.base.keys) }, held := none }
  | monClose (i) (hh : s.held = some (.monitor i, .entered)) (hm : s.base.mon i = .closeLock) :
      Tr s .inside { s with base := { s.base with hist := s.base.hist ++ [.closeAll] }, held := some (.monitor i, .deleting s.base.keys) }
  | closed (t) (hh : s.held = some (.thread t, .deleting [])) : Tr s .inside { s with held := some (.thread t, .leave (.returned .ok)) }
  | monClosed (i) (hh : s.held = some (.monitor i, .deleting [])) : Tr s .inside { s with held := some (.monitor i, .leaveMon .exited) }
  | leaveMon (i q) (hh : s.held = some (.monitor i, .leaveMon q)) : Tr s .inside { s with base := { s.base with lock := none, mon := upd s.base.mon i q }, held := none }
  | delete (h todo ch) (hh : s.held = some (h, .deleting todo)) (hc : ch ∈ todo) :
      Tr s (.delete ch) { s with base := { s.base with keys := s.base.keys.filter (· ≠ ch) }, held := some (h, .deleting (todo.filter (· ≠ ch))) }

theorem step_tr {s s' : State} {a : Action} (hs : step s a = some s') : s.base.panicked = false ∧ Tr s a s' := by
  unfold step at hs
  split at hs
  · simp at hs
  rename_i hp
  refine ⟨by simpa using hp, ?_⟩
  clear hp
  cases a with
  | other b =>
    simp only at hs
    split at hs
    · simp at hs
    rename_i hg
    simp only [Option.map_eq_some_iff] at hs
    obtain ⟨g', h, rfl⟩ := hs
    exact .other b g' (by simpa using hg) h
  | rlock t =>
    simp only at hs
    split at hs
    · rename_i h1 h2
      split at hs
      · rename_i h3
        simp only [Option.some.injEq] at hs; subst hs
        exact .rlock t h1 h2 h3.1 (by simpa using h3.2.1) h3.2.2
      · simp at hs
    · simp at hs
  | read t =>
    simp only at hs
    split at hs
    · rename_i h1
      have h2 := Tr.read t h1
      split at hs <;> (rename_i hc; simp only [Option.some.injEq] at hs; subst hs; simpa only [seen, hc] using h2)
    · simp at hs
  | runlock t =>
    simp only at hs
    split at hs
    · rename_i p h1
      simp only [Option.some.injEq] at hs; subst hs
      exact .runlock t p h1
    · simp at hs
  | announce h =>
    simp only at hs
    split at hs
    · rename_i h3
      simp only [Option.some.injEq] at hs; subst hs
      exact .announce h h3.1 h3.2.1 (by simpa using h3.2.2.1) h3.2.2.2
    · simp at hs
  | lock =>
    simp only at hs
    split at hs
    · rename_i t hw hr
      split at hs
      · rename_i ch ks hpc
        simp only [Option.some.injEq] at hs; subst hs
        exact .lockSub t ch ks hw hr hpc
      · rename_i hpc
        simp only [Option.some.injEq] at hs; subst hs
        exact .lockThread t hw hr hpc
    · rename_i i hw hr
      simp only [Option.some.injEq] at hs; subst hs
      exact .lockMon i hw hr
    · simp at hs
  | inside =>
    simp only at hs
    split at hs
    · rename_i hh
      split at hs
      · rename_i t hl
        split at hs
        · rename_i ch ks hpc
          split at hs
          · rename_i c hc
            split at hs
            · rename_i hw
              split at hs
              · simp at hs
              · rename_i g' hsend
                split at hs
                · rename_i hp
                  simp only [Option.some.injEq] at hs; subst hs
                  exact .sendPanic t ch ks c g' hh hl hpc hc hw hsend hp
                · rename_i hp
                  simp only [Option.some.injEq] at hs; subst hs
                  exact .sent t ch ks c g' hh hl hpc hc hw hsend (by simpa using hp)
            · rename_i hw
              simp only [Option.some.injEq] at hs; subst hs
              exact .silent t ch ks hh hl hpc (by intro c' h; rw [hc] at h; simp only [Option.some.injEq] at h; subst h; simpa using hw)
          · rename_i hc
            simp only [Option.some.injEq] at hs; subst hs
            exact .silent t ch ks hh hl hpc (by intro c' h; rw [hc] at h; simp at h)
        · simp at hs
      · simp at hs
    · simp only [Option.some.injEq] at hs; subst hs; exact .register _ _ _ ‹_›
    · simp only [Option.some.injEq] at hs; subst hs; exact .start _ _ ‹_›
    · simp only [Option.some.injEq] at hs; subst hs; exact .leave _ _ ‹_›
    · split at hs
      · simp only [Option.some.injEq] at hs; subst hs; exact .getUnsub _ _ ‹_› ‹_›
      · simp only [Option.some.injEq] at hs; subst hs; exact .unsub _ _ ‹_› ‹_›
      · simp only [Option.some.injEq] at hs; subst hs; exact .close _ ‹_› ‹_›
      · simp at hs
    · split at hs
      · simp only [Option.some.injEq] at hs; subst hs; exact .monGot _ _ ‹_› ‹_›
      · simp only [Option.some.injEq] at hs; subst hs; exact .monClose _ ‹_› ‹_›
      · simp at hs
    · simp only [Option.some.injEq] at hs; subst hs; exact .closed _ ‹_›
    · simp only [Option.some.injEq] at hs; subst hs; exact .monClosed _ ‹_›
    · simp only [Option.some.injEq] at hs; subst hs; exact .leaveMon _ _ ‹_›
    · simp at hs
  | delete ch =>
    simp only at hs
    split at hs
    · rename_i h todo hh
      split at hs
      · rename_i hc
        simp only [Option.some.injEq] at hs; subst hs
        exact .delete h todo ch hh hc
      · simp at hs
    · simp at hs

/-- One of them. -/
def only {α : Type} (t : Nat) (x : α) : Nat → Option α := fun u => if u = t then some x else none

/-- The state, with what is left to be done in a section done as soon as the first thing was done. -/
def abs (s : State) : DistributorModel.State :=
  match s.held with
  | none => patch s.base.lock s.base.keys s.base.checks s.base.hist s.base.started s.base.monCount (fun u => (s.rd u).join) (fun _ => none) s.base
  | some (.thread t, .register ch ks) =>
    patch none (if ch ∈ s.base.keys then s.base.keys else ch :: s.base.keys) (upd s.base.checks ch ks) (s.base.hist ++ [.subscribe ch ks]) true
      (if s.base.started then s.base.monCount else s.base.monCount + 1) (only t (afterSubscribe ch)) (if s.base.started then fun _ => none else only s.base.monCount .select) s.base
  | some (.thread t, .start ch) =>
    patch none s.base.keys s.base.checks s.base.hist true
      (if s.base.started then s.base.monCount else s.base.monCount + 1) (only t (afterSubscribe ch)) (if s.base.started then fun _ => none else only s.base.monCount .select) s.base
  | some (.thread t, .leave p) => patch none s.base.keys s.base.checks s.base.hist s.base.started s.base.monCount (only t p) (fun _ => none) s.base
  | some (.thread t, .deleting _) => patch none [] s.base.checks s.base.hist s.base.started s.base.monCount (only t (.returned .ok)) (fun _ => none) s.base
  | some (.monitor i, .deleting _) => patch none [] s.base.checks s.base.hist s.base.started s.base.monCount (fun _ => none) (only i .exited) s.base
  | some (.monitor i, .leaveMon q) => patch none s.base.keys s.base.checks s.base.hist s.base.started s.base.monCount (fun _ => none) (only i q) s.base
  | _ => s.base

/-- Where those are who have the mutex for writing. -/
def Holds (g : DistributorModel.State) : Holder → Section → Prop
  | .thread t, .entered => ((∃ r, g.pc t = .getUnsub r) ∨ (∃ n, g.pc t = .unsubLock n) ∨ g.pc t = .closeLock) ∧ g.lock = none
  | .monitor i, .entered => guardsMon (g.mon i) = true ∧ g.lock = none
  | .thread t, .register ch ks => g.pc t = .subLocked ch ks ∧ g.lock = some (.thread t) ∧ (g.started = false → g.mon g.monCount = .notStarted)
  | .thread t, .start ch => (∃ ks, g.pc t = .subLocked ch ks) ∧ g.lock = some (.thread t) ∧ (g.started = false → g.mon g.monCount = .notStarted)
  | .thread t, .leave p => guards (g.pc t) = true ∧ p ≠ .getSnapshot
  | .thread t, .deleting todo => g.pc t = .closeLock ∧ g.lock = none ∧ ∀ k ∈ g.keys, k ∈ todo
  | .monitor i, .deleting todo => g.mon i = .closeLock ∧ g.lock = none ∧ ∀ k ∈ g.keys, k ∈ todo
  | .monitor i, .leaveMon _ => g.mon i = .closeLock
  | _, _ => False

/-- What is always true. -/
structure Inv (s : State) : Prop where
  lock : DistributorModel.LockInv (abs s)
  holds : ∀ h x, s.held = some (h, x) → Holds s.base h x
  quiet : s.held ≠ none → s.readers = [] ∧ s.want = none
  rd : ∀ u, s.rd u ≠ none ↔ u ∈ s.readers
  reading : ∀ u ∈ s.readers, s.base.pc u = .getSnapshot
  readLock : s.readers ≠ [] → s.base.lock = none
  want : ∀ h, s.want = some h → s.base.lock = none ∧ locks s.base h = true
  snap : ∀ u p, s.rd u = some (some p) → p = seen s.base u

theorem patch_id (g : DistributorModel.State) : patch g.lock g.keys g.checks g.hist g.started g.monCount (fun _ => none) (fun _ => none) g = g := by
  simp [patch]

theorem rd_none {s : State} (h : Inv s) (hr : s.readers = []) : s.rd = fun _ => none := by
  funext u
  cases hx : s.rd u with
  | none => rfl
  | some p => have := (h.rd u).1 (by simp [hx]); rw [hr] at this; simp at this

theorem abs_free {s : State} (h : Inv s) (hh : s.held = none) (hr : s.readers = []) : abs s = s.base := by
  simp [abs, hh, rd_none h hr, patch]

theorem abs_entered {s : State} {k : Holder} (hh : s.held = some (k, .entered)) : abs s = s.base := by
  cases k <;> simp [abs, hh]

theorem inv_bare {g : DistributorModel.State} (h : DistributorModel.LockInv g) : Inv (bare g) := by
  refine ⟨?_, ?_, ?_, ?_, ?_, ?_, ?_, ?_⟩ <;> simp [bare, abs, patch_id, h]

/-- Whoever notifies has the mutex, and nobody else is in a section. -/
theorem notifying_alone {s : State} (h : Inv s) {i : Nat} {old new rem} (hm : s.base.mon i = .notifying old new rem) :
    s.held = none ∧ s.readers = [] ∧ s.want = none ∧ s.base.lock = some (.monitor i) := by
  have h1 : s.held = none := by
    cases hx : s.held with
    | none => rfl
    | some kx =>
      obtain ⟨k, x⟩ := kx
      exfalso
      have h2 := h.holds k x hx
      have h3 := (h.lock.monitor i)
      cases k <;> cases x <;> simp only [Holds] at h2 <;> simp only [abs, hx, patch] at h3 <;> simp_all [DistributorModel.MonPC.locked, only]
      case thread.register | thread.start =>
        cases hst : s.base.started with
        | true => simp [hst] at h3
        | false =>
          by_cases hi : i = s.base.monCount
          · subst hi; simp_all
          · simp [hst, only, hi] at h3
      all_goals grind
  have h2 : s.base.lock = some (.monitor i) := by
    have h3 := h.lock.monitor i
    simp only [abs, h1, patch, Option.getD_none] at h3
    exact h3.2 (by rw [hm]; rfl)
  refine ⟨h1, ?_, ?_, h2⟩
  · cases hr : s.readers with
    | nil => rfl
    | cons u us => have := h.readLock (by simp [hr]); rw [this] at h2; simp at h2
  · cases hr : s.want with
    | none => rfl
    | some k => have := (h.want k hr).1; rw [this] at h2; simp at h2

theorem Holds.guards {g : DistributorModel.State} {t : Nat} {x : Section} (h : Holds g (.thread t) x) : guards (g.pc t) = true := by
  cases x <;> simp only [Holds] at h
  case entered => rcases h.1 with ⟨r, h⟩ | ⟨n, h⟩ | h <;> rw [h] <;> rfl
  case register => rw [h.1]; rfl
  case start => obtain ⟨⟨ks, h⟩, -⟩ := h; rw [h]; rfl
  case deleting => rw [h.1]; rfl
  case leave => exact h.1

theorem Holds.guardsMon {g : DistributorModel.State} {i : Nat} {x : Section} (h : Holds g (.monitor i) x) : guardsMon (g.mon i) = true := by
  cases x <;> simp only [Holds] at h
  case entered => exact h.1
  case deleting => rw [h.1]; rfl
  case leaveMon => rw [h]; rfl

theorem ne_select {m : MonPC} (h : guardsMon m = true) : m ≠ .select := by
  rintro rfl; simp [DistributorLock.guardsMon] at h

theorem Holds.keep {g g' : DistributorModel.State} {k : Holder} {x : Section} (h : Holds g k x)
    (h1 : g'.lock = g.lock ∧ g'.keys = g.keys ∧ g'.checks = g.checks ∧ g'.hist = g.hist ∧ g'.started = g.started ∧ g'.monCount = g.monCount ∧ g'.lastConfig = g.lastConfig)
    (h2 : ∀ u, DistributorLock.guards (g.pc u) = true → g'.pc u = g.pc u) (h3 : ∀ i, g.mon i ≠ .select → g'.mon i = g.mon i) : Holds g' k x := by
  obtain ⟨k1, k2, -, -, k5, k6, -⟩ := h1
  have k7 : g.started = false → g.mon g.monCount = .notStarted → g'.mon g.monCount = .notStarted := by
    intro _ h
    rw [h3 _ (by rw [h]; simp), h]
  cases k with
  | thread t =>
    have h4 := h2 t h.guards
    cases x <;> simp only [Holds, h4, k1, k2, k5, k6] at h ⊢ <;> first | exact h | exact ⟨h.1, h.2.1, fun e => k7 e (h.2.2 e)⟩
  | monitor i =>
    have h4 := h3 i (ne_select h.guardsMon)
    cases x <;> simp only [Holds, h4, k1, k2] at h ⊢ <;> exact h

/-- The step of Model/Distributor.lean that is made by a step here. -/
def commit (s : State) : Action → Option DistributorModel.Action
  | .other b => some b
  | .read t => some (.thread t)
  | .lock =>
    match s.want with
    | some (.thread t) =>
      match s.base.pc t with
      | .subLock _ _ => some (.thread t)
      | _ => none
    | _ => none
  | .inside =>
    match s.held with
    | none =>
      match s.base.lock with
      | some (.thread t) => some (.thread t)
      | _ => none
    | some (.thread t, .entered) => some (.thread t)
    | some (.monitor i, .entered) => some (.monLock i)
    | _ => none
  | _ => none

theorem only_ne {α : Type} {t u : Nat} {x : α} (h : only t x u ≠ none) : u = t := by
  unfold only at h
  split at h
  · assumption
  · simp at h

/-- An unguarded step is away from the mutex, or made by the monitor that notifies. -/
theorem away_or {g g' : DistributorModel.State} {b : DistributorModel.Action} (hg : guarded g b = false) (h : DistributorModel.step g b = some g') :
    away g b = true ∨ ∃ i old new rem, g.mon i = .notifying old new rem := by
  cases b <;> simp [away, guarded] at hg ⊢
  case thread t => exact .inl hg
  case monLock i =>
    unfold DistributorModel.step at h
    cases hm : g.mon i <;> simp [hm, guardsMon] at h hg
    exact ⟨i, _, _, _, hm⟩
  case monNotify i ch =>
    unfold DistributorModel.step at h
    cases hm : g.mon i <;> simp [hm] at h
    exact ⟨i, _, _, _, hm⟩

theorem sim_other {s : State} {g' : DistributorModel.State} {b : DistributorModel.Action} (h : Inv s) (hg : guarded s.base b = false) (hs : DistributorModel.step s.base b = some g') :
    DistributorModel.step (abs s) b = some (abs { s with base := g' }) := by
  rcases away_or hg hs with ha | ⟨i, old, new, rem, hm⟩
  · obtain ⟨⟨k1, k2, k3, k4, k5, k6, k7⟩, k8, k9⟩ := step_keeps ha hs
    cases hx : s.held with
    | none =>
      simp only [abs, hx, k1, k2, k3, k4, k5, k6]
      refine step_patch ha hs _ _ _ _ _ _ _ _ (fun u hu => ?_) (fun i hi => by simp at hi)
      have : s.rd u ≠ none := by intro e; simp [e] at hu
      rw [h.reading u ((h.rd u).1 this)]; rfl
    | some kx =>
      obtain ⟨k, x⟩ := kx
      have h1 := h.holds k x hx
      cases k with
      | thread t =>
        cases x <;> simp only [abs, hx, k1, k2, k3, k4, k5, k6] <;> try exact hs
        all_goals refine step_patch ha hs _ _ _ _ _ _ _ _ (fun u hu => ?_) (fun i hi => ?_)
        all_goals try (rw [only_ne hu]; exact h1.guards)
        all_goals try (simp at hi; done)
        all_goals
          simp only [Holds] at h1
          split at hi
          · simp at hi
          · rename_i hst
            rw [only_ne hi, h1.2.2 (by simpa using hst)]; simp
      | monitor i =>
        cases x <;> simp only [abs, hx, k1, k2, k3, k4, k5, k6] <;> try exact hs
        all_goals refine step_patch ha hs _ _ _ _ _ _ _ _ (fun u hu => ?_) (fun i hi => ?_)
        all_goals try (simp at hu; done)
        all_goals (rw [only_ne hi]; exact ne_select h1.guardsMon)
  · obtain ⟨h1, h2, h3, h4⟩ := notifying_alone h hm
    have h5 : abs { s with base := g' } = g' := by simp [abs, h1, rd_none h h2, patch]
    rw [h5, abs_free h h1 h2]; exact hs

theorem send_keeps {g g' : DistributorModel.State} {ch : ChanId} {c : Config} (h : send g ch c = some g') :
    (g'.lock = g.lock ∧ g'.keys = g.keys ∧ g'.checks = g.checks ∧ g'.hist = g.hist ∧ g'.started = g.started ∧ g'.monCount = g.monCount ∧ g'.lastConfig = g.lastConfig) ∧
      (∀ u, guards (g.pc u) = true → g'.pc u = g.pc u) ∧ g'.mon = g.mon := by
  rcases DistributorModel.send_cases h with ⟨rfl, -⟩ | ⟨n, f, -, -, -, rfl⟩ | ⟨t, -, ht, rfl⟩
  · exact ⟨⟨rfl, rfl, rfl, rfl, rfl, rfl, rfl⟩, fun _ _ => rfl, rfl⟩
  · exact ⟨⟨rfl, rfl, rfl, rfl, rfl, rfl, rfl⟩, fun _ _ => rfl, rfl⟩
  · refine ⟨⟨rfl, rfl, rfl, rfl, rfl, rfl, rfl⟩, fun u hu => ?_, rfl⟩
    by_cases h : u = t
    · subst h; rw [ht] at hu; simp [guards] at hu
    · exact upd_other _ _ h

theorem only_getD {α : Type} (t : Nat) (x : α) (f : Nat → α) : (fun u => (only t x u).getD (f u)) = upd f t x := by
  funext u
  by_cases h : u = t <;> simp [only, upd_apply, h]

theorem started_getD (b : Bool) (n : Nat) (x : MonPC) (f : Nat → MonPC) :
    (fun i => ((if b then fun _ => none else only n x) i).getD (f i)) = if b then f else upd f n x := by
  cases b
  · simpa using only_getD n x f
  · simp

theorem not_started {g : DistributorModel.State} (h : DistributorModel.LockInv g) (hs : g.started = false) : g.mon g.monCount = .notStarted := by
  cases hm : g.mon g.monCount <;> first | rfl | (have := (h.mons g.monCount).1 (by rw [hm]; simp); omega)

/-- Each step is one of Model/Distributor.lean, or none at all. -/
theorem sim {s s' : State} {a : Action} (h : Inv s) (hs : step s a = some s') :
    match commit s a with
    | some b => DistributorModel.step (abs s) b = some (abs s')
    | none => abs s' = abs s := by
  obtain ⟨hp, htr⟩ := step_tr hs
  clear hs
  have hgone : ∀ {t}, s.base.lock = some (.thread t) → s.readers = [] := by
    intro t hl
    cases hr : s.readers with
    | nil => rfl
    | cons u us => have := h.readLock (by simp [hr]); rw [this] at hl; simp at hl
  cases htr with
  | other b g' hg hs => exact sim_other h hg hs
  | rlock t hpc hr hl hh hw =>
    simp only [commit, abs, hh, patch]
    congr 1
    funext u
    by_cases hu : u = t
    · subst hu; simp [hr]
    · simp [upd_apply, hu]
  | read t hr =>
    have hm := (h.rd t).1 (by simp [hr])
    have hh : s.held = none := by
      cases hx : s.held with
      | none => rfl
      | some kx => rw [(h.quiet (by simp [hx])).1] at hm; simp at hm
    have hl := h.readLock (by intro e; rw [e] at hm; simp at hm)
    have hpc := h.reading t hm
    simp only [commit, abs, hh, patch, DistributorModel.step, hp, hl, hr, hpc]
    have hu : (fun u => ((upd s.rd t (some (some (seen s.base t))) u).join).getD (s.base.pc u)) = upd (fun u => ((s.rd u).join).getD (s.base.pc u)) t (seen s.base t) := by
      funext u
      by_cases hu : u = t <;> simp [upd_apply, hu]
    simp only [hu]
    cases hc : s.base.lastConfig <;> simp [seen, hc]
  | runlock t p hr =>
    have hm := (h.rd t).1 (by simp [hr])
    have hh : s.held = none := by
      cases hx : s.held with
      | none => rfl
      | some kx => rw [(h.quiet (by simp [hx])).1] at hm; simp at hm
    simp only [commit, abs, hh, patch]
    congr 1
    funext u
    by_cases hu : u = t
    · subst hu; simp [hr]
    · simp [upd_apply, hu]
  | announce k hk hl hh hw => simp [commit, abs, hh]
  | lockSub t ch ks hw hr hpc =>
    have hh : s.held = none := by
      cases hx : s.held with
      | none => rfl
      | some kx => rw [(h.quiet (by simp [hx])).2] at hw; simp at hw
    have hl := (h.want _ hw).1
    simp [commit, hw, hpc, abs, hh, rd_none h hr, patch, DistributorModel.step, hp, hl]
  | lockThread t hw hr hpc =>
    have hh : s.held = none := by
      cases hx : s.held with
      | none => rfl
      | some kx => rw [(h.quiet (by simp [hx])).2] at hw; simp at hw
    have hc : commit s .lock = none := by
      simp only [commit, hw]
    simp only [hc]
    rw [abs_entered rfl, abs_free h hh hr]
  | lockMon i hw hr =>
    have hh : s.held = none := by
      cases hx : s.held with
      | none => rfl
      | some kx => rw [(h.quiet (by simp [hx])).2] at hw; simp at hw
    simp only [commit, hw]
    rw [abs_entered rfl, abs_free h hh hr]
  | sendPanic t ch ks c g' hh hl hpc hc hw hs hp' =>
    have hr := hgone hl
    rw [show commit s .inside = some (.thread t) by simp [commit, hh, hl]]
    simp only
    rw [abs_free h hh hr]
    have h1 : abs { s with base := g' } = g' := by simp [abs, hh, rd_none h hr, patch]
    simp [h1, DistributorModel.step, hp, hpc, hc, hw, hs, hp']
  | sent t ch ks c g' hh hl hpc hc hw hs hp' =>
    have hr := hgone hl
    rw [show commit s .inside = some (.thread t) by simp [commit, hh, hl]]
    simp only
    rw [abs_free h hh hr]
    simp [abs, patch, DistributorModel.step, hp, hpc, hc, hw, hs, hp', DistributorModel.finishSubscribe_eq, only_getD, started_getD]
  | silent t ch ks hh hl hpc hc =>
    have hr := hgone hl
    rw [show commit s .inside = some (.thread t) by simp [commit, hh, hl]]
    simp only
    rw [abs_free h hh hr]
    cases hc' : s.base.lastConfig with
    | none => simp [abs, patch, DistributorModel.step, hp, hpc, hc', DistributorModel.finishSubscribe_eq, only_getD, started_getD]
    | some c => simp [abs, patch, DistributorModel.step, hp, hpc, hc', hc c hc', DistributorModel.finishSubscribe_eq, only_getD, started_getD]
  | register t ch ks hh => simp only [commit, hh, abs, patch, DistributorModel.register]; rfl
  | start t ch hh =>
    cases hst : s.base.started <;> simp [commit, hh, abs, patch, startMonitor, hst, only_getD]
  | leave t p hh =>
    have hr := (h.quiet (by simp [hh])).1
    simp [commit, hh, abs, patch, rd_none h hr, only_getD]
  | getUnsub t r hh hpc =>
    have hl := (h.holds _ _ hh).2
    simp [commit, hh, abs, patch, DistributorModel.step, hp, hpc, hl, only_getD, unregister]
  | unsub t n hh hpc =>
    have hl := (h.holds _ _ hh).2
    simp [commit, hh, abs, patch, DistributorModel.step, hp, hpc, hl, only_getD, unregister]
  | close t hh hpc =>
    have hl := (h.holds _ _ hh).2
    simp [commit, hh, abs, patch, DistributorModel.step, hp, hpc, hl, only_getD]
  | monGot i c hh hm =>
    have hl := (h.holds _ _ hh).2
    have hr := (h.quiet (by simp [hh])).1
    simp [commit, hh, abs, patch, DistributorModel.step, hp, hm, hl, rd_none h hr]
  | monClose i hh hm =>
    have hl := (h.holds _ _ hh).2
    simp [commit, hh, abs, patch, DistributorModel.step, hp, hm, hl, only_getD]
  | closed t hh =>
    have hk : s.base.keys = [] := by
      have := (h.holds _ _ hh).2.2
      cases hk : s.base.keys with
      | nil => rfl
      | cons k ks => have := this k (by simp [hk]); simp at this
    simp [commit, hh, abs, patch, hk]
  | monClosed i hh =>
    have hk : s.base.keys = [] := by
      have := (h.holds _ _ hh).2.2
      cases hk : s.base.keys with
      | nil => rfl
      | cons k ks => have := this k (by simp [hk]); simp at this
    simp [commit, hh, abs, patch, hk]
  | leaveMon i q hh =>
    have hr := (h.quiet (by simp [hh])).1
    simp [commit, hh, abs, patch, rd_none h hr, only_getD]
  | delete k todo ch hh hc =>
    have h1 := h.holds _ _ hh
    cases k <;> simp [commit, hh, abs, patch]

/-- The rest of the invariant. -/
theorem frame {s s' : State} {a : Action} (h : Inv s) (hs : step s a = some s') :
    (∀ k x, s'.held = some (k, x) → Holds s'.base k x) ∧ (s'.held ≠ none → s'.readers = [] ∧ s'.want = none) ∧ (∀ u, s'.rd u ≠ none ↔ u ∈ s'.readers) ∧
      (∀ u ∈ s'.readers, s'.base.pc u = .getSnapshot) ∧ (s'.readers ≠ [] → s'.base.lock = none) ∧
      (∀ k, s'.want = some k → s'.base.lock = none ∧ locks s'.base k = true) ∧ ∀ u p, s'.rd u = some (some p) → p = seen s'.base u := by
  obtain ⟨hp, htr⟩ := step_tr hs
  clear hs
  have hgone : ∀ {t}, s.base.lock = some (.thread t) → s.readers = [] ∧ s.want = none := by
    intro t hl
    refine ⟨?_, ?_⟩
    · cases hr : s.readers with
      | nil => rfl
      | cons u us => have := h.readLock (by simp [hr]); rw [this] at hl; simp at hl
    · cases hr : s.want with
      | none => rfl
      | some k => have := (h.want k hr).1; rw [this] at hl; simp at hl
  have hfree : ∀ {k}, s.want = some k → s.held = none := by
    intro k hw
    cases hx : s.held with
    | none => rfl
    | some kx => rw [(h.quiet (by simp [hx])).2] at hw; simp at hw
  have hread : ∀ {t p}, s.rd t = some p → s.held = none ∧ t ∈ s.readers := by
    intro t p hr
    have hm := (h.rd t).1 (by simp [hr])
    refine ⟨?_, hm⟩
    cases hx : s.held with
    | none => rfl
    | some kx => rw [(h.quiet (by simp [hx])).1] at hm; simp at hm
  obtain ⟨i1, i2, i3, i4, i5, i6, i7, i8⟩ := h
  have h : Inv s := ⟨i1, i2, i3, i4, i5, i6, i7, i8⟩
  -- inside a section there are neither readers nor anybody who waits for them
  have alone : ∀ (g' : DistributorModel.State) (x : Option (Holder × Section)), s.readers = [] → s.want = none → (∀ k y, x = some (k, y) → Holds g' k y) →
      (∀ k y, x = some (k, y) → Holds g' k y) ∧ (x ≠ none → s.readers = [] ∧ s.want = none) ∧ (∀ u, s.rd u ≠ none ↔ u ∈ s.readers) ∧
      (∀ u ∈ s.readers, g'.pc u = .getSnapshot) ∧ (s.readers ≠ [] → g'.lock = none) ∧
      (∀ k, s.want = some k → g'.lock = none ∧ locks g' k = true) ∧ ∀ u p, s.rd u = some (some p) → p = seen g' u := by
    intro g' x hr hw hx
    refine ⟨hx, fun _ => ⟨hr, hw⟩, i4, ?_, ?_, ?_, ?_⟩
    · simp [hr]
    · simp [hr]
    · simp [hw]
    · simp [rd_none h hr]
  cases htr with
  | other b g' hg hs =>
    rcases away_or hg hs with ha | ⟨i, old, new, rem, hm⟩
    · obtain ⟨k, k8, k9⟩ := step_keeps ha hs
      refine ⟨fun q x hx => (i2 q x hx).keep k k8 k9, i3, i4, ?_, ?_, ?_, ?_⟩
      · intro u hu
        simp only at hu ⊢
        rw [k8 u (by rw [i5 u hu]; rfl), i5 u hu]
      · intro hr; simp only at hr ⊢; rw [k.1]; exact i6 hr
      · intro q hq
        simp only at hq ⊢
        obtain ⟨j1, j2⟩ := i7 q hq
        refine ⟨by rw [k.1]; exact j1, ?_⟩
        cases q with
        | thread t =>
          have : guards (s.base.pc t) = true := by cases hx : s.base.pc t <;> simp [locks, hx] at j2 <;> rfl
          simpa [locks, k8 t this] using j2
        | monitor i => simpa [locks, k9 i (ne_select j2)] using j2
      · intro u p hu; simp only at hu ⊢; rw [i8 u p hu]; simp [seen, k.2.2.2.2.2.2]
    · obtain ⟨h1, h2, h3, h4⟩ := notifying_alone h hm
      exact alone g' s.held h2 h3 (by simp [h1])
  | rlock t hpc hr hl hh hw =>
    refine ⟨by simp [hh], by simp [hh], ?_, ?_, fun _ => hl, by simp [hw], ?_⟩
    · intro u
      by_cases hu : u = t
      · subst hu; simp
      · simp only [upd_other _ _ hu, List.mem_cons, hu, false_or]; exact i4 u
    · intro u hu
      rcases List.mem_cons.1 hu with rfl | hu
      · exact hpc
      · exact i5 u hu
    · intro u p hu
      by_cases hu' : u = t
      · subst hu'; simp at hu
      · simp only [upd_other _ _ hu'] at hu; exact i8 u p hu
  | read t hr =>
    obtain ⟨hh, hm⟩ := hread hr
    refine ⟨by simp [hh], by simp [hh], ?_, i5, i6, i7, ?_⟩
    · intro u
      by_cases hu : u = t
      · subst hu; simpa using hm
      · simp only [upd_other _ _ hu]; exact i4 u
    · intro u p hu
      by_cases hu' : u = t
      · subst hu'; simp only [upd_same, Option.some.injEq] at hu; exact hu.symm
      · simp only [upd_other _ _ hu'] at hu; exact i8 u p hu
  | runlock t p hr =>
    obtain ⟨hh, hm⟩ := hread hr
    have hl := i6 (by intro e; rw [e] at hm; simp at hm)
    refine ⟨by simp [hh], by simp [hh], ?_, ?_, fun _ => hl, ?_, ?_⟩
    · intro u
      by_cases hu : u = t
      · subst hu; simp
      · simp only [upd_other _ _ hu, List.mem_filter, ne_eq, hu, not_false_eq_true, decide_true, and_true]; exact i4 u
    · intro u hu
      obtain ⟨hu, hne⟩ := List.mem_filter.1 hu
      simp only [ne_eq, decide_not, Bool.not_eq_true', decide_eq_false_iff_not] at hne
      simp only [upd_other _ _ hne]; exact i5 u hu
    · intro k hk
      refine ⟨hl, ?_⟩
      have j := (i7 k hk).2
      cases k with
      | thread u =>
        have hne : u ≠ t := by rintro rfl; simp [locks, i5 u hm] at j
        simpa [locks, upd_apply, hne] using j
      | monitor i => exact j
    · intro u q hu
      by_cases hu' : u = t
      · subst hu'; simp at hu
      · simp only [upd_other _ _ hu'] at hu; exact i8 u q hu
  | announce k hk hl hh hw =>
    refine ⟨by simp [hh], by simp [hh], i4, i5, i6, ?_, i8⟩
    intro q hq
    simp only [Option.some.injEq] at hq; subst hq
    exact ⟨hl, hk⟩
  | lockSub t ch ks hw hr hpc =>
    have hh := hfree hw
    refine ⟨by simp [hh], by simp [hh], i4, by simp [hr], by simp [hr], by simp, by simp [rd_none h hr]⟩
  | lockThread t hw hr hpc =>
    obtain ⟨hl, hk⟩ := i7 _ hw
    refine ⟨?_, fun _ => ⟨hr, rfl⟩, i4, by simp [hr], by simp [hr], by simp, by simp [rd_none h hr]⟩
    intro k x hx
    simp only [Option.some.injEq, Prod.mk.injEq] at hx
    obtain ⟨rfl, rfl⟩ := hx
    refine ⟨?_, hl⟩
    cases hq : s.base.pc t <;> simp [locks, hq] at hk <;> simp_all
  | lockMon i hw hr =>
    obtain ⟨hl, hk⟩ := i7 _ hw
    refine ⟨?_, fun _ => ⟨hr, rfl⟩, i4, by simp [hr], by simp [hr], by simp, by simp [rd_none h hr]⟩
    intro k x hx
    simp only [Option.some.injEq, Prod.mk.injEq] at hx
    obtain ⟨rfl, rfl⟩ := hx
    exact ⟨hk, hl⟩
  | sendPanic t ch ks c g' hh hl hpc hc hw hs hp' =>
    obtain ⟨hr, hw⟩ := hgone hl
    exact alone g' s.held hr hw (by simp [hh])
  | sent t ch ks c g' hh hl hpc hc hw hs hp' =>
    obtain ⟨hr, hw⟩ := hgone hl
    refine alone g' _ hr hw ?_
    intro k x hx
    simp only [Option.some.injEq, Prod.mk.injEq] at hx
    obtain ⟨rfl, rfl⟩ := hx
    obtain ⟨⟨k1, k2, k3, k4, k5, k6, k7⟩, k8, k9⟩ := send_keeps hs
    have hi := i1
    rw [abs_free h hh hr] at hi
    exact ⟨by rw [k8 t (by rw [hpc]; rfl), hpc], by rw [k1, hl], by rw [k5, k9, k6]; exact not_started hi⟩
  | silent t ch ks hh hl hpc hc =>
    obtain ⟨hr, hw⟩ := hgone hl
    refine alone s.base _ hr hw ?_
    intro k x hx
    simp only [Option.some.injEq, Prod.mk.injEq] at hx
    obtain ⟨rfl, rfl⟩ := hx
    have hi := i1
    rw [abs_free h hh hr] at hi
    exact ⟨hpc, hl, not_started hi⟩
  | register t ch ks hh =>
    obtain ⟨hr, hw⟩ := i3 (by simp [hh])
    refine alone _ _ hr hw ?_
    intro k x hx
    simp only [Option.some.injEq, Prod.mk.injEq] at hx
    obtain ⟨rfl, rfl⟩ := hx
    obtain ⟨h1, h2, h3⟩ := i2 _ _ hh
    exact ⟨⟨ks, h1⟩, h2, h3⟩
  | start t ch hh =>
    obtain ⟨hr, hw⟩ := i3 (by simp [hh])
    refine alone _ _ hr hw ?_
    intro k x hx
    simp only [Option.some.injEq, Prod.mk.injEq] at hx
    obtain ⟨rfl, rfl⟩ := hx
    have h1 := (i2 _ _ hh).guards
    have h2 : (startMonitor s.base).pc = s.base.pc := by unfold startMonitor; split <;> rfl
    exact ⟨by rw [h2]; exact h1, by cases ch <;> simp [afterSubscribe]⟩
  | leave t p hh =>
    obtain ⟨hr, hw⟩ := i3 (by simp [hh])
    exact alone _ none hr hw (by simp)
  | getUnsub t r hh hpc =>
    obtain ⟨hr, hw⟩ := i3 (by simp [hh])
    refine alone _ _ hr hw ?_
    intro k x hx
    simp only [Option.some.injEq, Prod.mk.injEq] at hx
    obtain ⟨rfl, rfl⟩ := hx
    exact ⟨(i2 _ _ hh).guards, by simp⟩
  | unsub t n hh hpc =>
    obtain ⟨hr, hw⟩ := i3 (by simp [hh])
    refine alone _ _ hr hw ?_
    intro k x hx
    simp only [Option.some.injEq, Prod.mk.injEq] at hx
    obtain ⟨rfl, rfl⟩ := hx
    exact ⟨(i2 _ _ hh).guards, by simp⟩
  | close t hh hpc =>
    obtain ⟨hr, hw⟩ := i3 (by simp [hh])
    refine alone _ _ hr hw ?_
    intro k x hx
    simp only [Option.some.injEq, Prod.mk.injEq] at hx
    obtain ⟨rfl, rfl⟩ := hx
    exact ⟨hpc, (i2 _ _ hh).2, fun _ hk => hk⟩
  | monGot i c hh hm =>
    obtain ⟨hr, hw⟩ := i3 (by simp [hh])
    exact alone _ none hr hw (by simp)
  | monClose i hh hm =>
    obtain ⟨hr, hw⟩ := i3 (by simp [hh])
    refine alone _ _ hr hw ?_
    intro k x hx
    simp only [Option.some.injEq, Prod.mk.injEq] at hx
    obtain ⟨rfl, rfl⟩ := hx
    exact ⟨hm, (i2 _ _ hh).2, fun _ hk => hk⟩
  | closed t hh =>
    obtain ⟨hr, hw⟩ := i3 (by simp [hh])
    refine alone s.base _ hr hw ?_
    intro k x hx
    simp only [Option.some.injEq, Prod.mk.injEq] at hx
    obtain ⟨rfl, rfl⟩ := hx
    exact ⟨(i2 _ _ hh).guards, by simp⟩
  | monClosed i hh =>
    obtain ⟨hr, hw⟩ := i3 (by simp [hh])
    refine alone s.base _ hr hw ?_
    intro k x hx
    simp only [Option.some.injEq, Prod.mk.injEq] at hx
    obtain ⟨rfl, rfl⟩ := hx
    exact (i2 _ _ hh).1
  | leaveMon i q hh =>
    obtain ⟨hr, hw⟩ := i3 (by simp [hh])
    exact alone _ none hr hw (by simp)
  | delete k todo ch hh hc =>
    obtain ⟨hr, hw⟩ := i3 (by simp [hh])
    refine alone _ _ hr hw ?_
    intro q x hx
    simp only [Option.some.injEq, Prod.mk.injEq] at hx
    obtain ⟨rfl, rfl⟩ := hx
    have h1 := i2 _ _ hh
    have h2 : ∀ {ks : List ChanId}, (∀ k ∈ ks, k ∈ todo) → ∀ k ∈ ks.filter (· ≠ ch), k ∈ todo.filter (· ≠ ch) := by
      intro ks h k hk
      rw [List.mem_filter] at hk ⊢
      exact ⟨h k hk.1, hk.2⟩
    cases k with
    | thread t => exact ⟨h1.1, h1.2.1, h2 h1.2.2⟩
    | monitor i => exact ⟨h1.1, h1.2.1, h2 h1.2.2⟩

theorem inv_step (s : State) (a : Action) (s' : State) (h : Inv s) (hs : step s a = some s') : Inv s' := by
  obtain ⟨h1, h2, h3, h4, h5, h6, h7⟩ := frame h hs
  refine ⟨?_, h1, h2, h3, h4, h5, h6, h7⟩
  have hsim := sim h hs
  split at hsim
  · exact DistributorModel.lockInv_step h.lock hsim
  · rw [hsim]; exact h.lock

theorem inv_of_reachable {caps : Nat → Nat} {s : State} (h : Reachable step (init caps) s) : Inv s :=
  h.invariant Inv (inv_bare (DistributorModel.lockInv_init caps)) inv_step

theorem abs_init (caps : Nat → Nat) : abs (init caps) = DistributorModel.init caps := by simp [abs, init, bare, patch]

/-- A run, seen in Model/Distributor.lean. -/
theorem abs_run {s s' : State} {acts : List Action} (hi : Inv s) (hr : run step s acts = some s') : Reachable DistributorModel.step (abs s) (abs s') := by
  refine (run_invariant (fun x => Inv x ∧ Reachable DistributorModel.step (abs s) (abs x)) ⟨hi, .refl _⟩ ?_ hr).2
  rintro x a x' ⟨hi, hr⟩ hs
  refine ⟨inv_step x a x' hi hs, ?_⟩
  have h2 := sim hi hs
  split at h2
  · exact hr.next h2
  · rw [h2]; exact hr

theorem abs_reachable {caps : Nat → Nat} {s : State} (h : Reachable step (init caps) s) : Reachable DistributorModel.step (DistributorModel.init caps) (abs s) := by
  obtain ⟨acts, h⟩ := h
  rw [← abs_init]
  exact abs_run (inv_of_reachable (.refl _)) h

theorem looksLike_abs {s : State} (h : Inv s) : LooksLike s (abs s) := by
  refine ⟨fun hf => abs_free h hf.1 hf.2, ?_, ?_, ?_, ?_, ?_, ?_, ?_, ?_, ?_, ?_⟩
  · intro t hx hr
    have hrd : s.rd t = none := by
      cases hy : s.rd t with
      | none => rfl
      | some p => exact absurd ((h.rd t).1 (by simp [hy])) hr
    unfold abs
    split
    · simp [patch, hrd]
    all_goals first
      | rfl
      | (have hne : t ≠ _ := fun e => hx _ (by rw [e]; assumption)
         simp [patch, only, hne]; done)
      | simp [patch]
  · intro hh
    simp [abs, hh, patch]
  all_goals (unfold abs; split <;> rfl)

/-! ### The other direction -/

theorem delete_all (n : Nat) : ∀ (g : DistributorModel.State) (k : Holder) (todo : List ChanId), todo.length ≤ n → g.panicked = false →
    Reachable step { bare g with held := some (k, .deleting todo) } { bare { g with keys := g.keys.filter (· ∉ todo) } with held := some (k, .deleting []) } := by
  induction n with
  | zero =>
    intro g k todo hn hp
    have : todo = [] := by cases todo <;> simp_all
    subst this
    have : g.keys.filter (· ∉ ([] : List ChanId)) = g.keys := by simp
    rw [this]
    exact .refl _
  | succ n ih =>
    intro g k todo hn hp
    cases todo with
    | nil =>
      have : g.keys.filter (· ∉ ([] : List ChanId)) = g.keys := by simp
      rw [this]
      exact .refl _
    | cons ch rest =>
      have h1 : step { bare g with held := some (k, .deleting (ch :: rest)) } (.delete ch) =
          some { bare { g with keys := g.keys.filter (· ≠ ch) } with held := some (k, .deleting ((ch :: rest).filter (· ≠ ch))) } := by
        simp [step, bare, hp]
      refine ((Reachable.refl _).next h1).trans ?_
      have hlen : ((ch :: rest).filter (· ≠ ch)).length ≤ n := by
        have := List.length_filter_le (· ≠ ch) rest
        simp only [List.length_cons] at hn
        simp only [List.filter_cons, ne_eq, not_true_eq_false, decide_false, Bool.false_eq_true, if_false]
        simp only [ne_eq] at this
        omega
      have h2 := ih { g with keys := g.keys.filter (· ≠ ch) } k ((ch :: rest).filter (· ≠ ch)) hlen hp
      have h3 : (g.keys.filter (· ≠ ch)).filter (· ∉ (ch :: rest).filter (· ≠ ch)) = g.keys.filter (· ∉ ch :: rest) := by
        rw [List.filter_filter]
        refine List.filter_congr fun x _ => ?_
        by_cases hx : x = ch <;> simp [hx]
      simp only [h3] at h2
      exact h2

theorem upd_back {α : Type} (f : Nat → α) (t : Nat) (x y : α) : upd (upd f t x) t y = upd f t y := by
  funext u
  by_cases h : u = t <;> simp [upd_apply, h]

theorem upd_const {α : Type} (t : Nat) (x : α) : upd (fun _ => x) t x = fun _ => x := by
  funext u
  by_cases h : u = t <;> simp [upd_apply, h]

/-- Each step of Model/Distributor.lean can be made. -/
theorem fine_step {g g' : DistributorModel.State} {a : DistributorModel.Action} (hi : DistributorModel.LockInv g) (hs : DistributorModel.step g a = some g') :
    Reachable step (bare g) (bare g') := by
  have hp : g.panicked = false := by
    cases h : g.panicked with
    | false => rfl
    | true => simp [DistributorModel.step, h] at hs
  cases hg : guarded g a with
  | false => exact ⟨[.other a], by simp [run, step, bare, hp, hg, hs]⟩
  | true =>
    cases a <;> simp [guarded] at hg
    case thread t =>
      simp only [DistributorModel.step, hp, Bool.false_eq_true, if_false] at hs
      cases hpc : g.pc t <;> simp [hpc, guards] at hg <;> simp only [hpc] at hs
      case getSnapshot =>
        split at hs
        · rename_i hl
          split at hs <;> (rename_i hc; simp only [Option.some.injEq] at hs; subst hs
                           exact ⟨[.rlock t, .read t, .runlock t], by simp [run, step, bare, hp, hpc, hl, hc, upd_back, upd_const]⟩)
        · simp at hs
      case subLock ch ks =>
        split at hs
        · rename_i hl
          simp only [Option.some.injEq] at hs; subst hs
          exact ⟨[.announce (.thread t), .lock], by simp [run, step, bare, hp, hpc, hl, locks]⟩
        · simp at hs
      case subLocked ch ks =>
        have hl := (hi.thread t).2 (by rw [hpc]; rfl)
        cases hc : g.lastConfig with
        | none =>
          simp only [hc, Option.some.injEq] at hs; subst hs
          refine ⟨[.inside, .inside, .inside, .inside], ?_⟩
          cases hst : g.started <;> simp [run, step, bare, hp, hpc, hl, hc, finishSubscribe, register, startMonitor, hst]
        | some c =>
          simp only [hc] at hs
          split at hs
          · rename_i hw
            split at hs
            · simp at hs
            · rename_i g1 hsend
              split at hs
              · rename_i hp1
                simp only [Option.some.injEq] at hs; subst hs
                exact ⟨[.inside], by simp [run, step, bare, hp, hpc, hl, hc, hw, hsend, hp1]⟩
              · rename_i hp1
                simp only [Option.some.injEq] at hs; subst hs
                refine ⟨[.inside, .inside, .inside, .inside], ?_⟩
                cases hst : g1.started <;> simp [run, step, bare, hp, hpc, hl, hc, hw, hsend, hp1, finishSubscribe, register, startMonitor, hst]
          · rename_i hw
            simp only [Option.some.injEq] at hs; subst hs
            refine ⟨[.inside, .inside, .inside, .inside], ?_⟩
            cases hst : g.started <;> simp [run, step, bare, hp, hpc, hl, hc, hw, finishSubscribe, register, startMonitor, hst]
      case getUnsub r =>
        split at hs
        · rename_i hl
          simp only [Option.some.injEq] at hs; subst hs
          exact ⟨[.announce (.thread t), .lock, .inside, .inside], by simp [run, step, bare, hp, hpc, hl, locks, unregister]⟩
        · simp at hs
      case unsubLock n =>
        split at hs
        · rename_i hl
          simp only [Option.some.injEq] at hs; subst hs
          exact ⟨[.announce (.thread t), .lock, .inside, .inside], by simp [run, step, bare, hp, hpc, hl, locks, unregister]⟩
        · simp at hs
      case closeLock =>
        split at hs
        · rename_i hl
          simp only [Option.some.injEq] at hs; subst hs
          have h1 : Reachable step (bare g) { bare { g with hist := g.hist ++ [.closeAll] } with held := some (.thread t, .deleting g.keys) } :=
            ⟨[.announce (.thread t), .lock, .inside], by simp [run, step, bare, hp, hpc, hl, locks]⟩
          have h2 := delete_all g.keys.length { g with hist := g.hist ++ [.closeAll] } (.thread t) g.keys (Nat.le_refl _) hp
          have h3 : g.keys.filter (· ∉ g.keys) = [] := by rw [List.filter_eq_nil_iff]; intro x hx; simp [hx]
          simp only [h3] at h2
          exact (h1.trans h2).trans ⟨[.inside, .inside], by simp [run, step, bare, hp, hl]⟩
        · simp at hs
    case monLock i =>
      simp only [DistributorModel.step, hp, Bool.false_eq_true, if_false] at hs
      cases hm : g.mon i <;> simp [hm, guardsMon] at hg <;> simp only [hm] at hs
      case gotten c =>
        split at hs
        · rename_i hl
          simp only [Option.some.injEq] at hs; subst hs
          exact ⟨[.announce (.monitor i), .lock, .inside], by simp [run, step, bare, hp, hm, hl, locks, guardsMon]⟩
        · simp at hs
      case closeLock =>
        split at hs
        · rename_i hl
          simp only [Option.some.injEq] at hs; subst hs
          have h1 : Reachable step (bare g) { bare { g with hist := g.hist ++ [.closeAll] } with held := some (.monitor i, .deleting g.keys) } :=
            ⟨[.announce (.monitor i), .lock, .inside], by simp [run, step, bare, hp, hm, hl, locks, guardsMon]⟩
          have h2 := delete_all g.keys.length { g with hist := g.hist ++ [.closeAll] } (.monitor i) g.keys (Nat.le_refl _) hp
          have h3 : g.keys.filter (· ∉ g.keys) = [] := by rw [List.filter_eq_nil_iff]; intro x hx; simp [hx]
          simp only [h3] at h2
          exact (h1.trans h2).trans ⟨[.inside, .inside], by simp [run, step, bare, hp, hl]⟩
        · simp at hs

theorem fine_run {g g' : DistributorModel.State} (hi : DistributorModel.LockInv g) (h : Reachable DistributorModel.step g g') : Reachable step (bare g) (bare g') :=
  (h.invariant (fun x => DistributorModel.LockInv x ∧ Reachable step (bare g) (bare x)) ⟨hi, .refl _⟩
    fun _ _ _ hr hs => ⟨DistributorModel.lockInv_step hr.1 hs, hr.2.trans (fine_step hr.1 hs)⟩).2

/-! ### Nobody waits for ever -/

/-- Whoever is in a section, or waits for the readers to leave, can go on, or a reader can. -/
theorem goes_on {s : State} (h : Inv s) (hp : s.base.panicked = false) :
    (∀ k x, s.held = some (k, x) → (∃ s', step s .inside = some s') ∨ ∃ ch s', step s (.delete ch) = some s') ∧
    (∀ t ∈ s.readers, (∃ s', step s (.read t) = some s') ∨ ∃ s', step s (.runlock t) = some s') ∧
    (s.want ≠ none → s.readers = [] → ∃ s', step s .lock = some s') := by
  refine ⟨?_, ?_, ?_⟩
  · intro k x hx
    have h1 := h.holds k x hx
    cases k with
    | thread t =>
      cases x <;> simp only [Holds] at h1
      case entered => left; rcases h1.1 with ⟨r, h1⟩ | ⟨n, h1⟩ | h1 <;> simp [step, hp, hx, h1]
      case deleting todo =>
        cases todo with
        | nil => left; simp [step, hp, hx]
        | cons ch rest => right; exact ⟨ch, by simp [step, hp, hx]⟩
      all_goals left; simp [step, hp, hx]
    | monitor i =>
      cases x <;> simp only [Holds] at h1
      case entered => left; cases hm : s.base.mon i <;> simp [hm, guardsMon] at h1 <;> simp [step, hp, hx, hm]
      case deleting todo =>
        cases todo with
        | nil => left; simp [step, hp, hx]
        | cons ch rest => right; exact ⟨ch, by simp [step, hp, hx]⟩
      all_goals left; simp [step, hp, hx]
  · intro t ht
    cases hr : s.rd t with
    | none => exact absurd hr ((h.rd t).2 ht)
    | some p =>
      cases p with
      | none => left; cases hc : s.base.lastConfig <;> simp [step, hp, hr, hc]
      | some p => right; simp [step, hp, hr]
  · intro hw hr
    cases hk : s.want with
    | none => exact absurd hk hw
    | some k =>
      cases k with
      | thread t => simp only [step, hp, hk, hr, Bool.false_eq_true, if_false]; split <;> simp
      | monitor i => simp [step, hp, hk, hr]

theorem rest_free {s : State} (h : Inv s) (hp : s.base.panicked = false) (hr : AtRest s) : Free s ∧ s.want = none := by
  obtain ⟨h1, h2, h3⟩ := goes_on h hp
  have e2 : s.readers = [] := by
    cases hx : s.readers with
    | nil => rfl
    | cons t ts =>
      rcases h2 t (by simp [hx]) with ⟨s', h⟩ | ⟨s', h⟩
      · rw [hr _ rfl] at h; simp at h
      · rw [hr _ rfl] at h; simp at h
  refine ⟨⟨?_, e2⟩, ?_⟩
  · cases hx : s.held with
    | none => rfl
    | some kx =>
      rcases h1 kx.1 kx.2 hx with ⟨s', h⟩ | ⟨ch, s', h⟩
      · rw [hr _ rfl] at h; simp at h
      · rw [hr _ rfl] at h; simp at h
  · cases hx : s.want with
    | none => rfl
    | some k =>
      obtain ⟨s', h⟩ := h3 (by simp [hx]) e2
      rw [hr _ rfl] at h; simp at h

theorem rest_base {s : State} (h : Inv s) (hr : AtRest s) : DistributorModel.AtRest s.base := by
  intro a ha
  cases hp : s.base.panicked with
  | true => simp [DistributorModel.step, hp]
  | false =>
    obtain ⟨⟨hh, hre⟩, hw⟩ := rest_free h hp hr
    cases hg : guarded s.base a with
    | false =>
      have h1 := hr (.other a) ha
      simpa [step, hp, hg] using h1
    | true =>
      have hl : ∀ k, locks s.base k = true → s.base.lock ≠ none := by
        intro k hk hl
        have h1 := hr (.announce k) rfl
        simp [step, hp, hk, hl, hh, hw] at h1
      cases a <;> simp [guarded] at hg
      case thread t =>
        cases hpc : s.base.pc t <;> simp [hpc, guards] at hg
        case getSnapshot =>
          have h1 := hr (.rlock t) rfl
          have hrd : s.rd t = none := by rw [rd_none h hre]
          have : s.base.lock ≠ none := by intro hl; simp [step, hp, hpc, hrd, hl, hh, hw] at h1
          simp [DistributorModel.step, hp, hpc, this]
        case subLocked ch ks =>
          have hi := h.lock
          rw [abs_free h hh hre] at hi
          have h1 := hr .inside rfl
          have h2 := (hi.thread t).2 (by rw [hpc]; rfl)
          simp only [step, hp, hh, h2, hpc, Bool.false_eq_true, if_false] at h1
          simp only [DistributorModel.step, hp, hpc, Bool.false_eq_true, if_false]
          split at h1
          · split at h1
            · split at h1
              · simp [*]
              · split at h1 <;> simp at h1
            · simp at h1
          · simp at h1
        all_goals
          have h1 := hl (.thread t) (by simp [locks, hpc])
          simp [DistributorModel.step, hp, hpc, h1]
      case monLock i =>
        have h1 := hl (.monitor i) hg
        cases hm : s.base.mon i <;> simp [hm, guardsMon] at hg <;> simp [DistributorModel.step, hp, hm, h1]

/-! ### Finitely many steps -/

theorem sum_le {f g : Nat → Nat} {n : Nat} (h : ∀ m, g m ≤ f m) : sumTo g n ≤ sumTo f n := by
  induction n with
  | zero => exact Nat.le_refl _
  | succ n ih => simp only [sumTo]; have := h n; omega

theorem sum_le_one {f g : Nat → Nat} {k n d : Nat} (h : ∀ m, m ≠ k → g m ≤ f m) (hk : g k ≤ f k + d) : sumTo g n ≤ sumTo f n + d := by
  induction n with
  | zero => simp [sumTo]
  | succ n ih =>
    simp only [sumTo]
    by_cases hx : n = k
    · subst hx
      have := sumTo_congr (f := f) (g := fun m => min (f m) (g m)) (n := n)
      have h2 : sumTo g n ≤ sumTo f n := by
        clear ih this hk
        have : ∀ m, m ≤ n → sumTo g m ≤ sumTo f m := by
          intro m hm
          induction m with
          | zero => exact Nat.le_refl _
          | succ m ih => simp only [sumTo]; have := ih (by omega); have := h m (by omega); omega
        exact this n (Nat.le_refl _)
      omega
    · have := h n hx
      omega

/-- How far a call of `Get` is from giving the mutex back, which it takes for reading. -/
def reading (rd : Nat → Option (Option PC)) (pc : Nat → PC) (u : Nat) : Nat :=
  match rd u with
  | none =>
    match pc u with
    | .getSnapshot => 2
    | _ => 0
  | some none => 1
  | some (some _) => 3

/-- How far those are from giving the mutex back who have it for writing. -/
def phase (s : State) : Nat :=
  match s.held with
  | none => (if s.base.lock = none then if s.want = none then 5 else 4 else 0) + s.base.keys.length
  | some (_, .entered) => 3 + s.base.keys.length
  | some (_, .register _ _) => 9 + s.base.keys.length
  | some (_, .start _) => 7 + s.base.keys.length
  | some (_, .leave _) => 6 + s.base.keys.length
  | some (_, .leaveMon _) => 6 + s.base.keys.length
  | some (_, .deleting todo) => 7 + todo.length

def measure (m : Nat) (s : State) : Nat := 10 * DistributorModel.weight m (abs s) + sumTo (reading s.rd s.base.pc) m + phase s

/-- A step changes where one call is, at most. -/
theorem one_moves {g g' : DistributorModel.State} {b : DistributorModel.Action} (hs : DistributorModel.step g b = some g') (hg : guarded g b = false) :
    ∃ t, ∀ u, u ≠ t → g'.pc u = g.pc u := by
  obtain ⟨-, htr⟩ := DistributorModel.step_tr hs
  clear hs
  cases htr
  all_goals try (simp [guarded, guards, *] at hg; done)
  all_goals first
    | exact ⟨_, fun u hu => upd_other _ _ hu⟩
    | exact ⟨0, fun _ _ => rfl⟩

theorem send_getSnapshot {g g' : DistributorModel.State} {ch : ChanId} {c : Config} (h : send g ch c = some g') (rd : Nat → Option (Option PC)) :
    reading rd g'.pc = reading rd g.pc := by
  rcases DistributorModel.send_cases h with ⟨rfl, -⟩ | ⟨n, f, -, -, -, rfl⟩ | ⟨t, -, ht, rfl⟩
  · rfl
  · rfl
  · funext u
    by_cases hu : u = t
    · subst hu; simp [reading, ht]
    · simp [reading, upd_apply, hu]

theorem reading_upd (rd : Nat → Option (Option PC)) (pc : Nat → PC) (t : Nat) (p : PC) (hp : p ≠ .getSnapshot) (n : Nat) :
    sumTo (reading rd (upd pc t p)) n ≤ sumTo (reading rd pc) n := by
  refine sum_le fun u => ?_
  by_cases hu : u = t
  · subst hu
    simp only [reading, upd_same]
    cases hx : rd u with
    | none => cases p <;> simp_all
    | some q => cases q <;> simp
  · simp [reading, upd_apply, hu]

theorem phase_other {s : State} {g' : DistributorModel.State} {b : DistributorModel.Action} (h : Inv s) (hg : guarded s.base b = false) (hs : DistributorModel.step s.base b = some g') :
    phase { s with base := g' } ≤ phase s + 5 := by
  rcases away_or hg hs with ha | ⟨i, old, new, rem, hm⟩
  · obtain ⟨⟨k1, k2, -⟩, -⟩ := step_keeps ha hs
    simp [phase, k1, k2]
  · obtain ⟨h1, h2, h3, h4⟩ := notifying_alone h hm
    have hk : g'.keys = s.base.keys := by
      obtain ⟨-, htr⟩ := DistributorModel.step_tr hs
      cases htr <;> first | rfl | (simp [guarded, guards, guardsMon, *] at hg; done)
    simp only [phase, h1, h3, hk, h4]
    split <;> simp <;> omega

theorem measure_step {m : Nat} {s s' : State} {a : Action} (h : Inv s) (hm : DistributorModel.Callers m (abs s)) (ha : a.own = true) (hs : step s a = some s') :
    measure m s' < measure m s := by
  have hsim := sim h hs
  have hw : ∀ b, commit s a = some b → b.own = true → DistributorModel.weight m (abs s') < DistributorModel.weight m (abs s) := by
    intro b hb ho
    rw [hb] at hsim
    exact DistributorModel.weight_step ho h.lock hm hsim
  have hn : commit s a = none → abs s' = abs s := by
    intro hb
    rw [hb] at hsim
    exact hsim
  clear hsim
  have hread : ∀ {t}, (s.held = none ∧ s.base.pc t = .getSnapshot) → s.rd t ≠ some (some (.idle)) → t < m := by
    intro t hpc hr
    refine Nat.lt_of_not_le fun hle => ?_
    have := hm t hle
    simp only [abs, hpc.1, patch] at this
    cases hx : s.rd t with
    | none => simp [hx, hpc.2] at this
    | some p => cases p <;> simp_all
  have hr : ∀ {t p}, s.rd t = some p → s.held = none ∧ s.base.pc t = .getSnapshot := by
    intro t p hr
    have hm := (h.rd t).1 (by simp [hr])
    refine ⟨?_, h.reading t hm⟩
    cases hx : s.held with
    | none => rfl
    | some kx => rw [(h.quiet (by simp [hx])).1] at hm; simp at hm
  obtain ⟨hp, htr⟩ := step_tr hs
  clear hs
  unfold measure
  cases htr with
  | other b g' hg hs =>
    have h1 := hw b rfl ha
    have h2 := phase_other h hg hs
    obtain ⟨t, ht⟩ := one_moves hs hg
    have h3 : sumTo (reading s.rd g'.pc) m ≤ sumTo (reading s.rd s.base.pc) m + 2 := by
      refine sum_le_one (k := t) (fun u hu => by simp [reading, ht u hu]) ?_
      unfold reading
      split
      · split <;> omega
      · omega
      · omega
    simp only at h1 h2 h3 ⊢
    omega
  | rlock t hpc hrd hl hh hwant =>
    have h1 := hn rfl
    have ht : t < m := hread ⟨hh, hpc⟩ (by simp [hrd])
    have h2 := sumTo_change (f := reading s.rd s.base.pc) (g := reading (upd s.rd t (some none)) s.base.pc) ht (fun u hu => by simp [reading, upd_apply, hu])
    have h3 : reading s.rd s.base.pc t = 2 := by simp [reading, hrd, hpc]
    have h4 : reading (upd s.rd t (some none)) s.base.pc t = 1 := by simp [reading]
    rw [h1]
    have h5 : phase { s with readers := t :: s.readers, rd := upd s.rd t (some none) } = phase s := rfl
    simp only [h5]
    omega
  | read t hrd =>
    have h1 := hw _ rfl rfl
    have h2 : sumTo (reading (upd s.rd t (some (some (seen s.base t)))) s.base.pc) m ≤ sumTo (reading s.rd s.base.pc) m + 2 :=
      sum_le_one (k := t) (fun u hu => by simp [reading, upd_apply, hu]) (by simp [reading, hrd])
    have h5 : phase { s with rd := upd s.rd t (some (some (seen s.base t))) } = phase s := rfl
    simp only [h5] at h1 ⊢
    omega
  | runlock t p hrd =>
    have h1 := hn rfl
    have h0 := h.snap t p hrd
    have hp' : p ≠ .idle ∧ p ≠ .getSnapshot := by rw [h0]; unfold seen; split <;> simp
    have ht : t < m := hread (hr hrd) (by simp [hrd, hp'.1])
    have h2 := sumTo_change (f := reading s.rd s.base.pc) (g := reading (upd s.rd t none) (upd s.base.pc t p)) ht (fun u hu => by simp [reading, upd_apply, hu])
    have h3 : reading s.rd s.base.pc t = 3 := by simp [reading, hrd]
    have h4 : reading (upd s.rd t none) (upd s.base.pc t p) t = 0 := by simp only [reading, upd_same]; cases p <;> simp_all
    rw [h1]
    have h5 : phase { s with base := { s.base with pc := upd s.base.pc t p }, readers := s.readers.filter (· ≠ t), rd := upd s.rd t none } = phase s := rfl
    simp only [h5]
    omega
  | announce k hk hl hh hwant =>
    have h1 := hn rfl
    rw [h1]
    have : phase { s with want := some k } < phase s := by simp [phase, hh, hl, hwant]
    simp only
    omega
  | lockSub t ch ks hwant hre hpc =>
    have h1 := hw (.thread t) (by simp [commit, hwant, hpc]) rfl
    have h2 := reading_upd s.rd s.base.pc t (.subLocked ch ks) (by simp) m
    have hh : s.held = none := by
      cases hx : s.held with
      | none => rfl
      | some kx => rw [(h.quiet (by simp [hx])).2] at hwant; simp at hwant
    have h3 : phase { s with base := { s.base with lock := some (.thread t), pc := upd s.base.pc t (.subLocked ch ks) }, want := none } ≤ phase s := by
      simp [phase, hh]
    simp only at h1 h2 h3 ⊢
    omega
  | lockThread t hwant hre hpc =>
    have h1 := hn (by simp only [commit, hwant])
    have hh : s.held = none := by
      cases hx : s.held with
      | none => rfl
      | some kx => rw [(h.quiet (by simp [hx])).2] at hwant; simp at hwant
    have h2 := (h.want _ hwant).1
    have h3 : phase { s with held := some (.thread t, .entered), want := none } < phase s := by simp [phase, hh, hwant, h2]
    rw [h1]
    simp only at h3 ⊢
    omega
  | lockMon i hwant hre =>
    have h1 := hn (by simp [commit, hwant])
    have hh : s.held = none := by
      cases hx : s.held with
      | none => rfl
      | some kx => rw [(h.quiet (by simp [hx])).2] at hwant; simp at hwant
    have h2 := (h.want _ hwant).1
    have h3 : phase { s with held := some (.monitor i, .entered), want := none } < phase s := by simp [phase, hh, hwant, h2]
    rw [h1]
    simp only at h3 ⊢
    omega
  | sendPanic t ch ks c g' hh hl hpc hc hws hs hp' =>
    have h1 := hw (.thread t) (by simp [commit, hh, hl]) rfl
    have h2 := send_getSnapshot hs s.rd
    obtain ⟨⟨k1, k2, -⟩, -⟩ := send_keeps hs
    have h3 : phase { s with base := g' } = phase s := by simp [phase, hh, k1, k2]
    simp only [h2, h3] at h1 ⊢
    omega
  | sent t ch ks c g' hh hl hpc hc hws hs hp' =>
    have h1 := hw (.thread t) (by simp [commit, hh, hl]) rfl
    have h2 := send_getSnapshot hs s.rd
    obtain ⟨⟨k1, k2, -⟩, -⟩ := send_keeps hs
    have h3 : phase { s with base := g', held := some (.thread t, .register ch ks) } = phase s + 9 := by simp [phase, hh, hl, k2]; omega
    simp only [h2, h3] at h1 ⊢
    omega
  | silent t ch ks hh hl hpc hc =>
    have h1 := hw (.thread t) (by simp [commit, hh, hl]) rfl
    have h3 : phase { s with held := some (.thread t, .register ch ks) } = phase s + 9 := by simp [phase, hh, hl]; omega
    simp only [h3] at h1 ⊢
    omega
  | register t ch ks hh =>
    have h1 := hn (by simp [commit, hh])
    have h3 : phase { s with base := register s.base ch ks, held := some (.thread t, .start ch) } < phase s := by
      simp only [phase, hh, DistributorModel.register]
      split <;> simp <;> omega
    have h4 : (register s.base ch ks).pc = s.base.pc := rfl
    rw [h1]
    simp only [h4] at h3 ⊢
    omega
  | start t ch hh =>
    have h1 := hn (by simp [commit, hh])
    have h4 : (startMonitor s.base).pc = s.base.pc ∧ (startMonitor s.base).keys = s.base.keys := by unfold startMonitor; split <;> exact ⟨rfl, rfl⟩
    have h3 : phase { s with base := startMonitor s.base, held := some (.thread t, .leave (afterSubscribe ch)) } < phase s := by
      simp [phase, hh, h4.2]
    rw [h1]
    simp only [h4.1] at h3 ⊢
    omega
  | leave t p hh =>
    have h1 := hn (by simp [commit, hh])
    have h2 := reading_upd s.rd s.base.pc t p (h.holds _ _ hh).2 m
    have hwant := (h.quiet (by simp [hh])).2
    have h3 : phase { s with base := { s.base with lock := none, pc := upd s.base.pc t p }, held := none } < phase s := by
      simp [phase, hh, hwant]
    rw [h1]
    simp only at h2 h3 ⊢
    omega
  | getUnsub t r hh hpc =>
    have h1 := hw (.thread t) (by simp [commit, hh]) rfl
    have h3 : phase { s with base := unregister s.base (.getter t), held := some (.thread t, .leave (.returned r)) } ≤ phase s + 3 := by
      have := List.length_filter_le (· ≠ ChanId.getter t) s.base.keys
      simp only [phase, hh, unregister]
      omega
    have h4 : (unregister s.base (.getter t)).pc = s.base.pc := rfl
    simp only [h4] at h1 h3 ⊢
    omega
  | unsub t n hh hpc =>
    have h1 := hw (.thread t) (by simp [commit, hh]) rfl
    have h3 : phase { s with base := unregister s.base (.user n), held := some (.thread t, .leave (.returned .ok)) } ≤ phase s + 3 := by
      have := List.length_filter_le (· ≠ ChanId.user n) s.base.keys
      simp only [phase, hh, unregister]
      omega
    have h4 : (unregister s.base (.user n)).pc = s.base.pc := rfl
    simp only [h4] at h1 h3 ⊢
    omega
  | close t hh hpc =>
    have h1 := hw (.thread t) (by simp [commit, hh]) rfl
    have h3 : phase { s with base := { s.base with hist := s.base.hist ++ [.closeAll] }, held := some (.thread t, .deleting s.base.keys) } ≤ phase s + 4 := by
      simp only [phase, hh]; omega
    simp only at h1 h3 ⊢
    omega
  | monGot i c hh hmon =>
    have h1 := hw (.monLock i) (by simp [commit, hh]) rfl
    have h3 : phase { s with base := { s.base with lock := some (.monitor i), lastConfig := some c, hist := s.base.hist ++ [.update c], mon := upd s.base.mon i (.notifying s.base.lastConfig c s.base.keys) }, held := none } ≤ phase s := by
      simp [phase, hh]
    simp only at h1 h3 ⊢
    omega
  | monClose i hh hmon =>
    have h1 := hw (.monLock i) (by simp [commit, hh]) rfl
    have h3 : phase { s with base := { s.base with hist := s.base.hist ++ [.closeAll] }, held := some (.monitor i, .deleting s.base.keys) } ≤ phase s + 4 := by
      simp only [phase, hh]; omega
    simp only at h1 h3 ⊢
    omega
  | closed t hh =>
    have h1 := hn (by simp [commit, hh])
    have hk : s.base.keys = [] := by
      have := (h.holds _ _ hh).2.2
      cases hk : s.base.keys with
      | nil => rfl
      | cons k ks => have := this k (by simp [hk]); simp at this
    have h3 : phase { s with held := some (.thread t, .leave (.returned .ok)) } < phase s := by simp [phase, hh, hk]
    rw [h1]
    simp only at h3 ⊢
    omega
  | monClosed i hh =>
    have h1 := hn (by simp [commit, hh])
    have hk : s.base.keys = [] := by
      have := (h.holds _ _ hh).2.2
      cases hk : s.base.keys with
      | nil => rfl
      | cons k ks => have := this k (by simp [hk]); simp at this
    have h3 : phase { s with held := some (.monitor i, .leaveMon .exited) } < phase s := by simp [phase, hh, hk]
    rw [h1]
    simp only at h3 ⊢
    omega
  | leaveMon i q hh =>
    have h1 := hn (by simp [commit, hh])
    have hwant := (h.quiet (by simp [hh])).2
    have h3 : phase { s with base := { s.base with lock := none, mon := upd s.base.mon i q }, held := none } < phase s := by
      simp [phase, hh, hwant]
    rw [h1]
    simp only at h3 ⊢
    omega
  | delete k todo ch hh hc =>
    have h1 := hn rfl
    have h3 : phase { s with base := { s.base with keys := s.base.keys.filter (· ≠ ch) }, held := some (k, .deleting (todo.filter (· ≠ ch))) } < phase s := by
      have : (todo.filter (· ≠ ch)).length < todo.length := List.length_filter_lt_length_iff_exists.2 ⟨ch, hc, by simp⟩
      simp only [phase, hh]
      omega
    rw [h1]
    simp only at h3 ⊢
    omega

theorem commit_own {s : State} {a : Action} {b : DistributorModel.Action} (ha : a.own = true) (hb : commit s a = some b) : b.own = true := by
  cases a <;> simp only [commit] at hb
  case other c => simp only [Option.some.injEq] at hb; subst hb; exact ha
  case read t => simp only [Option.some.injEq] at hb; subst hb; rfl
  all_goals
    repeat' split at hb
    all_goals first | (simp only [Option.some.injEq] at hb; subst hb; rfl) | simp at hb

theorem callers_step {m : Nat} {s s' : State} {a : Action} (h : Inv s) (ha : a.own = true) (hm : DistributorModel.Callers m (abs s)) (hs : step s a = some s') :
    DistributorModel.Callers m (abs s') := by
  have h2 := sim h hs
  split at h2
  · rename_i b hb
    exact DistributorModel.callers_step (commit_own ha hb) h.lock hm h2
  · rw [h2]; exact hm

theorem finite {caps : Nat → Nat} {s : State} (h : Reachable step (init caps) s) :
    ∃ n, ∀ acts s', (∀ a ∈ acts, a.own = true) → run step s acts = some s' → acts.length ≤ n := by
  obtain ⟨m, hm⟩ := DistributorModel.callers_of_reachable (abs_reachable h)
  refine ⟨measure m s, fun acts s' ha hr => ?_⟩
  have := run_measure (fun a => a.own = true) (measure m) (fun x => Inv x ∧ DistributorModel.Callers m (abs x)) ⟨inv_of_reachable h, hm⟩
    (fun _ _ _ ha h hs => ⟨inv_step _ _ _ h.1 hs, callers_step h.1 ha h.2 hs⟩)
    (fun _ _ _ ha h hs => measure_step h.1 h.2 ha hs) ha hr
  omega

end Gevulot.DistributorLock
