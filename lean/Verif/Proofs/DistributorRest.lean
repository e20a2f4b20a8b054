import Verif.Proofs.DistributorLive
import Verif.Proofs.Sum

/-!
The distributor comes to rest: its own steps are finitely many, and what it waits for when there are none left.
-/

namespace Gevulot
namespace DistributorModel
open Spec

/-! ### Finiteness -/

/-- The call may yet add a subscription. -/
def PC.presub : PC → Nat
  | .getEnter | .getSnapshot | .subCheck _ _ | .subLock _ _ | .subLocked _ _ => 1
  | _ => 0

def PC.weight : PC → Nat
  | .getEnter => 9
  | .getSnapshot => 8
  | .subCheck _ _ => 7
  | .subLock _ _ => 6
  | .subLocked _ _ => 5
  | .getSelect => 2
  | .getUnsub _ => 1
  | .unsubLock _ => 1
  | .closeFire => 2
  | .closeLock => 1
  | _ => 0

/-- With at most `b` subscriptions. -/
def MonPC.weight (b : Nat) : MonPC → Nat
  | .notStarted => 0
  | .select => 2
  | .gotten _ => b + 4
  | .notifying _ _ rem => rem.length + 3
  | .closeLock => 1
  | .exited => 0

/-- All callers are below `m`. -/
def Callers (m : Nat) (s : State) : Prop := ∀ n, m ≤ n → s.pc n = .idle

/-- At most this many subscriptions there will be. -/
def bound (m : Nat) (s : State) : Nat := s.keys.length + sumTo (fun t => (s.pc t).presub) m

def weight (m : Nat) (s : State) : Nat :=
  s.source.length * (bound m s + 5) + (s.mon 0).weight (bound m s) + sumTo (fun t => (s.pc t).weight) m + (if s.panicked then 0 else 1)

theorem callers_step {m : Nat} {s s' : State} {a : Action} (ha : a.own = true) (hl : LockInv s) (hm : Callers m s)
    (hs : step s a = some s') : Callers m s' := by
  have l6 := hl.own
  unfold Callers at *
  clear hl
  dist_cases hs <;> simp [Action.own] at ha <;> grind [upd_apply, PC.sub]

theorem callers_of_reachable {caps : Nat → Nat} {s : State} (h : Reachable step (init caps) s) : ∃ m, Callers m s := by
  refine h.invariant (fun s => ∃ m, Callers m s) ⟨0, fun _ _ => rfl⟩ ?_
  rintro s a s' ⟨m, hm⟩ hs
  by_cases hc : ∃ t op, a = .call t op
  · obtain ⟨t, op, rfl⟩ := hc
    refine ⟨max m (t + 1), fun n hn => ?_⟩
    have h1 := hm n (by omega)
    have h2 : n ≠ t := by omega
    clear hm hn
    dist_cases hs <;> simp_all [upd_apply]
  · refine ⟨m, fun n hn => ?_⟩
    have h1 := hm n hn
    clear hm
    dist_cases hs <;> grind [upd_apply]

theorem sum_upd {m : Nat} {s : State} (f : PC → Nat) {t : Nat} {q : PC} (hm : Callers m s) (hq : s.pc t = q) (hi : q ≠ .idle) (p : PC) :
    sumTo (fun u => f (upd s.pc t p u)) m + f q = sumTo (fun u => f (s.pc u)) m + f p := by
  have ht : t < m := Nat.lt_of_not_le fun h => hi (hq ▸ hm t h)
  have := sumTo_change (f := fun u => f (s.pc u)) (g := fun u => f (upd s.pc t p u)) ht (fun u hu => by rw [upd_other _ _ hu])
  subst hq
  simpa using this

theorem weight_le {n n' b b' x x' : Nat} (hb : b' ≤ b) (hn : n' = n) (h : x' < x) : n' * (b' + 5) + x' < n * (b + 5) + x := by
  subst hn
  have := Nat.mul_le_mul_left n' (Nat.add_le_add_right hb 5)
  omega

theorem filter_lt {l : List ChanId} {ch : ChanId} (h : ch ∈ l) : (l.filter (· ≠ ch)).length < l.length :=
  List.length_filter_lt_length_iff_exists.mpr ⟨ch, h, by simp⟩

theorem monWeight_mono {b b' : Nat} (h : b' ≤ b) (p : MonPC) : p.weight b' ≤ p.weight b := by
  cases p <;> simp [MonPC.weight] <;> omega

theorem weight_pc {m t : Nat} {s s' : State} {q : PC} (p : PC) (hm : Callers m s) (hq : s.pc t = q) (hi : q ≠ .idle) (h1 : p.presub ≤ q.presub)
    (h2 : p.weight < q.weight) (e1 : s'.source = s.source) (e2 : s'.keys.length ≤ s.keys.length) (e3 : s'.mon = s.mon)
    (e4 : s'.panicked = s.panicked) (e5 : s'.pc = upd s.pc t p) : weight m s' < weight m s := by
  have g1 := sum_upd PC.presub hm hq hi p
  have g2 := sum_upd PC.weight hm hq hi p
  have hb : bound m s' ≤ bound m s := by unfold bound; rw [e5]; omega
  have := monWeight_mono hb (s.mon 0)
  simp only [weight, Nat.add_assoc]
  refine weight_le hb (by rw [e1]) ?_
  rw [e3, e4, e5]
  omega

theorem weight_step {m : Nat} {s s' : State} {a : Action} (ha : a.own = true) (hl : LockInv s) (hm : Callers m s)
    (hs : step s a = some s') : weight m s' < weight m s := by
  have l6 := hl.own
  have hmon : ∀ i, s.mon i ≠ .notStarted → i = 0 := by
    intro i hi
    have h1 := (hl.mons i).mp hi
    have h2 := hl.count
    split at h2 <;> omega
  have hsum := fun (f : PC → Nat) (t : Nat) (q : PC) (hq : s.pc t = q) (hi : q ≠ .idle) (p : PC) => sum_upd f hm hq hi p
  obtain ⟨hnp, htr⟩ := step_tr hs
  have finish : ∀ t ch ks x, s.pc t = .subLocked ch ks → x.source = s.source → x.keys = s.keys → x.mon = s.mon → x.started = s.started →
      x.monCount = s.monCount → x.pc = s.pc → x.panicked = false → weight m (finishSubscribe x t ch ks) < weight m s := by
    intro t ch ks x h e1 e2 e3 e4 e5 e6 e7
    rw [finishSubscribe_eq]
    have h1 := hsum PC.presub t _ h (by simp) (afterSubscribe ch)
    have h2 := hsum PC.weight t _ h (by simp) (afterSubscribe ch)
    have h3 : (if ch ∈ s.keys then s.keys else ch :: s.keys).length ≤ s.keys.length + 1 := by split <;> simp
    have h4 : (afterSubscribe ch).presub = 0 ∧ (afterSubscribe ch).weight ≤ 2 := by cases ch <;> simp [afterSubscribe, PC.presub, PC.weight]
    have hb : (if ch ∈ s.keys then s.keys else ch :: s.keys).length + sumTo (fun u => (upd s.pc t (afterSubscribe ch) u).presub) m ≤ bound m s := by
      unfold bound
      have : (PC.subLocked ch ks).presub = 1 := rfl
      omega
    simp only [weight, bound, e1, e2, e3, e4, e5, e6, e7, Nat.add_assoc]
    refine weight_le (by unfold bound at hb; exact hb) rfl ?_
    have h5 : ((if s.started then s.mon else upd s.mon s.monCount .select) 0).weight
        ((if ch ∈ s.keys then s.keys else ch :: s.keys).length + sumTo (fun u => (upd s.pc t (afterSubscribe ch) u).presub) m) ≤ (s.mon 0).weight (bound m s) + 2 := by
      cases hst : s.started with
      | true => have := monWeight_mono hb (s.mon 0); simp; omega
      | false =>
        have hc := hl.count
        rw [hst] at hc
        simp only [Bool.false_eq_true, if_false] at hc ⊢
        rw [hc, upd_same]; simp [MonPC.weight]
    have h6 : (PC.subLocked ch ks).weight = 5 := rfl
    simp only [bound] at h5
    simp [hnp]
    omega
  cases htr
  case subSent t n ks c f h hc hw hcl hf => exact finish t _ ks _ h rfl rfl rfl rfl rfl rfl hnp
  case subSilent t n ks h hc => exact finish t _ ks _ h rfl rfl rfl rfl rfl rfl hnp
  case subSilentGetter t t' ks h hc => exact finish t _ ks _ h rfl rfl rfl rfl rfl rfl hnp
  case subSentGetter t t' ks c h hc hw hsel =>
    have := l6 t t' (by rw [h]; rfl)
    subst this
    rw [h] at hsel; simp at hsel
  case produce => simp [Action.own] at ha
  case closeSource => simp [Action.own] at ha
  case callGet => simp [Action.own] at ha
  case callSub => simp [Action.own] at ha
  case callUnsub => simp [Action.own] at ha
  case callClose => simp [Action.own] at ha
  case userChan => obtain ⟨n, rfl | rfl⟩ := ‹∃ n, a = .userRecv n ∨ a = .userLeave n› <;> simp [Action.own] at ha
  case userClose => simp [Action.own] at ha
  case userCloseAgain => simp [Action.own] at ha
  case subPanic => simp [weight, bound, hnp]
  case notifyPanic => simp [weight, bound, hnp]
  case monTake i c rest h hsrc =>
    have := hmon i (by rw [h]; simp)
    subst this
    simp only [weight, bound, hsrc, List.length_cons, upd_same, h, MonPC.weight, Nat.succ_mul]
    omega
  case monEndAgain i h _ _ _ =>
    have := hmon i (by rw [h]; simp)
    subst this
    simp only [weight, bound, upd_same, h, MonPC.weight, hnp]
    omega
  case monEnd i h _ _ _ =>
    have := hmon i (by rw [h]; simp)
    subst this
    simp only [weight, bound, upd_same, h, MonPC.weight, hnp]
    omega
  case monDone i h _ =>
    have := hmon i (by rw [h]; simp)
    subst this
    simp only [weight, bound, upd_same, h, MonPC.weight, hnp]
    omega
  case monUpdate i c h hlk =>
    have := hmon i (by rw [h]; simp)
    subst this
    simp only [weight, bound, upd_same, h, MonPC.weight]
    omega
  case monUnlock i old new h =>
    have := hmon i (by rw [h]; simp)
    subst this
    simp only [weight, bound, upd_same, h, MonPC.weight, List.length_nil]
    omega
  case monClose i h hlk =>
    have := hmon i (by rw [h]; simp)
    subst this
    simp only [weight, upd_same, h, MonPC.weight, Nat.add_assoc]
    refine weight_le (by simp [bound]) rfl (by omega)
  case notify i n old new rem f h hmem hw hcl hf =>
    have := hmon i (by rw [h]; simp)
    subst this
    have := filter_lt hmem
    simp only [weight, bound, upd_same, h, MonPC.weight]
    omega
  case notifySkip i ch old new rem h hmem hw =>
    have := hmon i (by rw [h]; simp)
    subst this
    have := filter_lt hmem
    simp only [weight, bound, upd_same, h, MonPC.weight]
    omega
  case notifyGetter i t old new rem h hmem hw hsel =>
    have := hmon i (by rw [h]; simp)
    subst this
    have := filter_lt hmem
    have h1 := hsum PC.presub t _ hsel (by simp) (.getUnsub (.config new))
    have h2 := hsum PC.weight t _ hsel (by simp) (.getUnsub (.config new))
    have e1 : PC.getSelect.presub = 0 := rfl
    have e2 : (PC.getUnsub (.config new)).presub = 0 := rfl
    have e3 : PC.getSelect.weight = 2 := rfl
    have e4 : (PC.getUnsub (.config new)).weight = 1 := rfl
    rw [e1, e2, Nat.add_zero, Nat.add_zero] at h1
    simp only [weight, bound, upd_same, h, h1]
    simp only [MonPC.weight]
    omega
  case getUnsub t r h hlk => exact weight_pc (.returned r) hm h (by simp) (by simp [PC.presub]) (by simp [PC.weight]) rfl (List.length_filter_le _ _) rfl rfl rfl
  case unsub t n h hlk => exact weight_pc (.returned .ok) hm h (by simp) (by simp [PC.presub]) (by simp [PC.weight]) rfl (List.length_filter_le _ _) rfl rfl rfl
  all_goals exact weight_pc _ hm ‹s.pc _ = _› (by simp) (by simp [PC.presub]) (by simp [PC.weight]) rfl (by simp) rfl rfl rfl

/-- The distributor's own steps are finitely many. -/
theorem finite {caps : Nat → Nat} {s : State} (h : Reachable step (init caps) s) : ∃ n, ∀ acts s', (∀ a ∈ acts, a.own = true) →
    run step s acts = some s' → acts.length ≤ n := by
  obtain ⟨m, hm⟩ := callers_of_reachable h
  refine ⟨weight m s, fun acts s' ha hr => ?_⟩
  have := run_measure (fun a => a.own = true) (weight m) (fun x => Inv x ∧ Callers m x) ⟨inv_of_reachable h, hm⟩
    (fun _ _ _ ha h hs => ⟨inv_step h.1 hs, callers_step ha h.1.lock h.2 hs⟩)
    (fun _ _ _ ha h hs => weight_step ha h.1.lock h.2 hs) ha hr
  omega

/-! ### Rest -/

theorem send_none {s : State} {ch : ChanId} {c : Config} (h : send s ch c = none) :
    (∃ n, ch = .user n ∧ (s.chans n).waiting = 0 ∧ (s.chans n).cap ≤ (s.chans n).buf.length) ∨ ∃ t, ch = .getter t ∧ s.pc t ≠ .getSelect := by
  cases ch with
  | user n =>
    left
    refine ⟨n, rfl, ?_⟩
    simp only [send] at h
    split at h
    · simp at h
    · split at h
      · simp at h
      · split at h
        · simp at h
        · omega
  | getter t =>
    right
    refine ⟨t, rfl, fun ht => ?_⟩
    simp [send, ht] at h

/-- At rest, the lock is held only in the two situations in which the distributor waits for itself, or while it waits for
the user of a subscribed channel. -/
theorem rest_lock {s : State} (hi : Inv s) (hp : s.panicked = false) (hr : AtRest s) : s.lock = none ∨ Deadlocked s ∨ ∃ n, BlockedOn s n := by
  cases hl : s.lock with
  | none => exact .inl rfl
  | some holder =>
    right
    cases holder with
    | thread t =>
      have hk := (hi.lock.thread t).mp hl
      cases hpc : s.pc t <;> rw [hpc] at hk <;> simp [PC.locked] at hk
      rename_i ch ks
      have h1 := hr (.thread t) rfl
      simp only [step, hp, hpc, Bool.false_eq_true, if_false] at h1
      split at h1
      · rename_i c hc
        split at h1
        · split at h1
          · rename_i hsend
            rcases send_none hsend with ⟨n, rfl, hn1, hn2⟩ | ⟨t', rfl, ht'⟩
            · exact .inr ⟨n, .subscribing t ks hpc (by rw [hc]; simp) hn1 hn2⟩
            · have := hi.lock.own t t' (by rw [hpc]; rfl)
              subst this
              exact .inl (.ownChannel t' ks hpc (by rw [hc]; simp))
          · split at h1 <;> simp at h1
        · simp at h1
      · simp at h1
    | monitor i =>
      have hk := (hi.lock.monitor i).mp hl
      cases hm : s.mon i <;> rw [hm] at hk <;> simp [MonPC.locked] at hk
      rename_i old new rem
      cases rem with
      | nil =>
        have h1 := hr (.monLock i) rfl
        simp [step, hp, hm] at h1
      | cons ch rest =>
        have h1 := hr (.monNotify i ch) rfl
        simp only [step, hp, hm, Bool.false_eq_true, if_false, List.mem_cons, true_or, if_true] at h1
        split at h1
        · split at h1
          · rename_i hsend
            rcases send_none hsend with ⟨n, rfl, hn1, hn2⟩ | ⟨t, rfl, ht⟩
            · exact .inr ⟨n, .notifying i old new _ hm (by simp) hn1 hn2⟩
            · have hw := hi.lock.getterKeys t ((hi.lock.remaining i old new _ hm).1 _ (by simp))
              cases hpc : s.pc t <;> rw [hpc] at hw ht <;> simp [PC.waits] at hw ht
              exact .inl (.doneGetter i old new _ t _ hm (by simp) hpc)
          · split at h1 <;> simp at h1
        · simp at h1

/-- At rest with the lock free, all calls have returned but for `Get`s that wait on an open distributor, -/
theorem rest_thread {s : State} (hi : Inv s) (hp : s.panicked = false) (hr : AtRest s) (hl : s.lock = none) (t : Nat) :
    s.pc t = .idle ∨ (∃ r, s.pc t = .returned r) ∨ (s.pc t = .getSelect ∧ s.closed = false) := by
  have h1 := hr (.thread t) rfl
  have h2 := hr (.cancel t) rfl
  simp only [step, hp, Bool.false_eq_true, if_false] at h1 h2
  cases hpc : s.pc t <;> simp [hpc, hl] at h1 h2 ⊢
  case getSnapshot => split at h1 <;> simp at h1
  case subLocked ch ks =>
    have := (hi.lock.thread t).mpr (by rw [hpc]; rfl)
    rw [hl] at this; simp at this
  case closeFire => split at h1 <;> simp at h1
  case getSelect => exact h2

/-- and the monitor waits for a configuration, or has ended. -/
theorem rest_mon {s : State} (hi : Inv s) (hp : s.panicked = false) (hr : AtRest s) (hl : s.lock = none) (i : Nat) :
    s.mon i = .notStarted ∨ (s.mon i = .select ∧ s.source = [] ∧ s.sourceClosed = false ∧ s.closed = false) ∨ s.mon i = .exited := by
  have h1 := hr (.monTake i) rfl
  have h2 := hr (.monDone i) rfl
  have h3 := hr (.monLock i) rfl
  simp only [step, hp, Bool.false_eq_true, if_false] at h1 h2 h3
  cases hm : s.mon i <;> simp [hm, hl] at h1 h2 h3 ⊢
  case select =>
    refine ⟨?_, ?_, h2⟩
    · cases hs : s.source with
      | nil => rfl
      | cons => rw [hs] at h1; simp at h1
    · cases hs : s.source with
      | nil =>
        rw [hs] at h1
        cases hsc : s.sourceClosed with
        | false => rfl
        | true => rw [hsc, h2] at h1; simp at h1
      | cons => rw [hs] at h1; simp at h1
  case notifying =>
    have := (hi.lock.monitor i).mpr (by rw [hm]; rfl)
    rw [hl] at this; simp at this

/-- The first subscription starts the monitor. -/
theorem started_of_subscribed {caps : Nat → Nat} {s : State} (h : Reachable step (init caps) s) (hs : ∃ ch ks, .subscribe ch ks ∈ s.hist) :
    s.started = true := by
  obtain ⟨ch, ks, hs⟩ := hs
  refine h.invariant (fun s => .subscribe ch ks ∈ s.hist → s.started = true) (by simp [init]) ?_ hs
  intro s a s' hi hs
  dist_cases hs <;> grind

def MonPC.remaining : MonPC → List ChanId
  | .notifying _ _ rem => rem
  | _ => []

/-- A waiting `Get` is going to be sent the first configuration. -/
def Pending (s : State) : Prop := ∀ t, s.pc t = .getSelect → s.closed = false → s.lastConfig = none ∨ .getter t ∈ (s.mon 0).remaining

theorem pending_step {s s' : State} {a : Action} (hi : Inv s) (hw : WaitInv s) (h : Pending s) (hs : step s a = some s') : Pending s' := by
  have l6 := hi.lock.own
  have g1 := hi.getter.noChecks
  have g2 := hi.getter.keyChecks
  have w1 := hw.key
  have l8 := hi.lock.remaining
  have hmon : ∀ i, s.mon i ≠ .notStarted → i = 0 := by
    intro i hi'
    have h1 := (hi.lock.mons i).mp hi'
    have h2 := hi.lock.count
    split at h2 <;> omega
  have hnew : s.started = false → s.mon 0 = .notStarted := by
    intro hst
    refine Decidable.byContradiction fun hn => ?_
    have h1 := (hi.lock.mons _).mp hn
    have h2 := hi.lock.count
    rw [hst] at h2
    simp at h2; omega
  clear hi hw
  unfold Pending at *
  intro u
  have hu := h u
  have hlc : s.lastConfig = none ∨ ∃ c, s.lastConfig = some c := by cases s.lastConfig <;> simp
  cases hst : s.started <;> dist_cases hs <;> grind [upd_apply, PC.sub, PC.subChecks, afterSubscribe, Spec.wants, MonPC.remaining]

theorem pending_of_reachable {caps : Nat → Nat} {s : State} (h : Reachable step (init caps) s) : Pending s :=
  (h.invariant (fun s => (Inv s ∧ WaitInv s) ∧ Pending s) ⟨⟨inv_init caps, waitInv_init caps⟩, by intro t; simp [init]⟩
    (fun _ _ _ h hs => ⟨⟨inv_step h.1.1 hs, waitInv_step h.1.1 h.1.2 hs⟩, pending_step h.1.1 h.1.2 h.2 hs⟩)).2

end DistributorModel
end Gevulot
