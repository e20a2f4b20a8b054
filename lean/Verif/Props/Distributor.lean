import Verif.Proofs.DistributorRest

/-!
# C43–C49: the distributor of configurations

`s` ranges over every state reachable by any interleaving of any number of calls of `Get`, `Subscribe`, `Unsubscribe` and
`Close`, the monitor, the source and the users of the channels. What is observed: `s.produced` is everything put into the
source, `s.delivered ch` everything sent to the channel `ch`, `s.pc t = .returned r` that the call of thread `t` returned `r`.
`s.hist` is the order in which updates and (un)subscriptions took effect; `Spec.view` says what a channel should have been
sent after a history.
-/

namespace Gevulot.DistributorModel
open Spec

/-! ## C43 Get never returns a stale configuration -/

/-- C43: a `Get` called in the state `s` that returns a configuration returns one from the source, and none older than the
one that was current when it was called: with `n` configurations in effect so far, its position among all configurations
produced is at least `n - 1`. -/
theorem C43 (caps : Nat → Nat) (s s' : State) (h : Reachable step (init caps) s) (acts : List Action)
    (hr : run step s acts = some s') (t : Nat) (hcall : s.pc t = .idle) (c : Config) (hret : s'.pc t = .returned (.config c)) :
    ∃ k, s'.produced[k]? = some c ∧ (updates s.hist).length ≤ k + 1 := by
  have inv := inv_of_reachable h
  have key := run_invariant (fun s' => Inv s' ∧ Fresh (updates s.hist).length t s')
    ⟨inv, ⟨Nat.le_refl _, by rw [hcall]; simp [PC.result]⟩⟩ (fun _ _ _ h hs => ⟨inv_step h.1 hs, fresh_step h.1 h.2 hs⟩) hr
  obtain ⟨k, hk, hn⟩ := key.2.fresh c (by rw [hret]; rfl)
  refine ⟨k, ?_, hn⟩
  rw [key.1.src.produced, List.append_assoc]
  rw [List.getElem?_append_left (List.getElem?_eq_some_iff.mp hk).1]
  exact hk

/-- C43, what the number in it means: whatever anybody was sent or has got from `Get` so far is among the first
`(updates s.hist).length` configurations produced, and the last of these is the current one. -/
theorem C43_seen (caps : Nat → Nat) (s : State) (h : Reachable step (init caps) s) :
    updates s.hist <+: s.produced ∧ s.lastConfig = (updates s.hist).getLast? ∧
    (∀ ch, ∀ c ∈ s.delivered ch, c ∈ updates s.hist) ∧
    (∀ t c, s.pc t = .returned (.config c) → c ∈ updates s.hist) := by
  have inv := inv_of_reachable h
  have seen := seen_of_reachable h
  refine ⟨?_, inv.src.last, seen.delivered, fun t c ht => seen.returned t c (by rw [ht]; rfl)⟩
  rw [inv.src.produced, List.append_assoc]
  exact List.prefix_append _ _

/-! ## C44 Subscribers get exactly the updates they asked for, in order -/

/-- C44: whenever no update is being delivered, each channel has been sent exactly what it should have been. -/
theorem C44 (caps : Nat → Nat) (s : State) (h : Reachable step (init caps) s) (hl : s.lock = none) (ch : ChanId) :
    s.delivered ch = (view ch s.hist).got :=
  (((inv_of_reachable h).views ch).got (by simp [hl])).symm

/-- C44, and at any moment it has been, except possibly for the configuration being delivered. -/
theorem C44_always (caps : Nat → Nat) (s : State) (h : Reachable step (init caps) s) (ch : ChanId) :
    s.delivered ch = (view ch s.hist).got ∨
    ∃ c, s.lastConfig = some c ∧ (view ch s.hist).got = s.delivered ch ++ [c] := by
  have inv := inv_of_reachable h
  by_cases hm : ∃ i, s.lock = some (.monitor i)
  · obtain ⟨i, hi⟩ := hm
    have hlk := (inv.lock.monitor i).mp hi
    cases hmon : s.mon i <;> rw [hmon] at hlk <;> simp [MonPC.locked] at hlk
    rename_i old new rem
    have := (inv.views ch).pending i old new rem hmon
    split at this
    · exact .inr ⟨new, (inv.lock.remaining i old new rem hmon).2, this⟩
    · left; simpa using this.symm
  · exact .inl ((inv.views ch).got (fun i hi => hm ⟨i, hi⟩)).symm

/-- C44, the calls and the history: a `Subscribe` that succeeded has taken effect between the call and the return, -/
theorem C44_subscribe (s0 s s' : State) (t n : Nat) (ks : List Check) (hcall : step s0 (.call t (.subscribe n ks)) = some s)
    (acts : List Action) (hr : run step s acts = some s') (hret : s'.pc t = .returned .ok) :
    ∃ x y, s'.hist = s.hist ++ x ++ .subscribe (.user n) ks :: y := by
  have h0 : s.pc t = .subCheck (.user n) ks := by
    dist_cases hcall <;> simp_all
  have key := run_invariant (fun s' => (∃ x, s'.hist = s.hist ++ x) ∧ SubCall t n ks s.hist s') ⟨⟨[], by simp⟩, .check h0⟩
    (fun s1 _ s2 h hs => ⟨by obtain ⟨x, hx⟩ := h.1; obtain ⟨y, hy⟩ := hist_grows hs; exact ⟨x ++ y, by rw [hy, hx]; simp⟩,
      subCall_step h.1 h.2 hs⟩) hr
  cases key.2 with
  | done _ x y hh => exact ⟨x, y, hh⟩
  | check h => rw [hret] at h; simp at h
  | lock h => rw [hret] at h; simp at h
  | locked h => rw [hret] at h; simp at h
  | failed h => rw [hret] at h; simp at h

/-- C44, the same for `Unsubscribe`, -/
theorem C44_unsubscribe (s0 s s' : State) (t n : Nat) (hcall : step s0 (.call t (.unsubscribe n)) = some s)
    (acts : List Action) (hr : run step s acts = some s') (hret : s'.pc t = .returned .ok) :
    ∃ x y, s'.hist = s.hist ++ x ++ .unsubscribe (.user n) :: y := by
  have h0 : s.pc t = .unsubLock n := by
    dist_cases hcall <;> simp_all
  have key := run_invariant (fun s' => (∃ x, s'.hist = s.hist ++ x) ∧ UnsubCall t n s.hist s') ⟨⟨[], by simp⟩, .lock h0⟩
    (fun s1 _ s2 h hs => ⟨by obtain ⟨x, hx⟩ := h.1; obtain ⟨y, hy⟩ := hist_grows hs; exact ⟨x ++ y, by rw [hy, hx]; simp⟩,
      unsubCall_step h.1 h.2 hs⟩) hr
  cases key.2 with
  | done _ x y hh => exact ⟨x, y, hh⟩
  | lock h => rw [hret] at h; simp at h

/-- C44, and no channel is subscribed unless somebody called `Subscribe` for it, with these checks. -/
theorem C44_asked (caps : Nat → Nat) (acts : List Action) (s : State) (h : run step (init caps) acts = some s) (n : Nat)
    (ks : List Check) (hm : .subscribe (.user n) ks ∈ s.hist) : ∃ t, .call t (.subscribe n ks) ∈ acts := by
  rcases asked_run (n := n) (ks := ks) h (.inl hm) with h | h
  · simp [Asked, init, PC.sub] at h
  · exact h

/-- C44, the distributor does not send on a closed channel unless the user closed one that is subscribed: with the users'
channels open it never panics. -/
theorem C44_no_panic (caps : Nat → Nat) (s : State) (h : Reachable step (init caps) s)
    (ho : ∀ n, (s.chans n).closed = false) : s.panicked = false := by
  cases hp : s.panicked with
  | false => rfl
  | true =>
    obtain ⟨n, hn⟩ := (inv_of_reachable h).getter.panic hp
    rw [ho n] at hn; simp at hn

/-! ## C45 No delivery after Unsubscribe -/

/-- C45: from the step in which `Unsubscribe` returns, nothing is sent to the channel until it is subscribed again. -/
theorem C45 (caps : Nat → Nat) (s s1 s2 : State) (h : Reachable step (init caps) s) (t n : Nat) (hpc : s.pc t = .unsubLock n)
    (hs : step s (.thread t) = some s1) (acts : List Action) (hr : run step s1 acts = some s2)
    (hn : ∀ ks, .subscribe (.user n) ks ∉ s2.hist.drop s1.hist.length) :
    s1.pc t = .returned .ok ∧ s2.delivered (.user n) = s1.delivered (.user n) := by
  have inv := inv_of_reachable h
  have hk : s1.pc t = .returned .ok ∧ .user n ∉ s1.keys := by
    clear hr hn
    dist_cases hs <;> simp_all
  exact ⟨hk.1, unsubscribed_run (inv_step inv hs) hk.2 hr hn⟩

/-! ## C46 A closed distributor refuses callers -/

theorem closed_step {s s' : State} {a : Action} (hs : step s a = some s') (hc : s.closed = true) : s'.closed = true := by
  dist_cases hs <;> simp_all

/-- C46: a `Get` or `Subscribe` called on a closed distributor is, whatever happens, either about to look at whether it is
closed or has returned the error. -/
theorem C46 (s0 s s' : State) (t : Nat) (op : Op) (hop : op = .get ∨ ∃ n ks, op = .subscribe n ks) (hc : s0.closed = true)
    (hcall : step s0 (.call t op) = some s) (acts : List Action) (hr : run step s acts = some s') :
    s'.pc t = s.pc t ∨ s'.pc t = .returned .errClosed := by
  have h0 : s.closed = true ∧ (s.pc t = .getEnter ∨ ∃ n ks, s.pc t = .subCheck (.user n) ks) := by
    refine ⟨closed_step hcall hc, ?_⟩
    clear hr
    dist_cases hcall <;> simp_all
  have key := run_invariant (fun s' => s'.closed = true ∧ (s'.pc t = s.pc t ∨ s'.pc t = .returned .errClosed)) ⟨h0.1, .inl rfl⟩
    (fun s1 a s2 h hs => by
      refine ⟨closed_step hs h.1, ?_⟩
      obtain ⟨h1, h2⟩ := h
      obtain ⟨_, h3⟩ := h0
      clear hcall hr
      dist_cases hs <;> grind [upd_apply]) hr
  exact key.2

/-- C46, and it does not have to wait for anything: its next step is to return. -/
theorem C46_returns (s0 s : State) (t : Nat) (op : Op) (hop : op = .get ∨ ∃ n ks, op = .subscribe n ks) (hc : s0.closed = true)
    (hcall : step s0 (.call t op) = some s) (acts : List Action) (s1 : State) (hr : run step s acts = some s1)
    (hp : s1.panicked = false) (hn : s1.pc t = s.pc t) :
    step s1 (.thread t) = some { s1 with pc := upd s1.pc t (.returned .errClosed) } := by
  have h0 : s.pc t = .getEnter ∨ ∃ n ks, s.pc t = .subCheck (.user n) ks := by
    clear hr hn
    dist_cases hcall <;> simp_all
  have hc1 : s1.closed = true := run_invariant (fun s => s.closed = true) (closed_step hcall hc) (fun _ _ _ h hs => closed_step hs h) hr
  rcases h0 with h | ⟨n, ks, h⟩ <;> rw [h] at hn <;> simp [step, hp, hn, hc1]

/-- C46, when it is closed: after a `Close` has returned, -/
theorem C46_closed (s0 s s' : State) (acts : List Action)
    (hr : run step s acts = some s') (t : Nat) (hcall : step s0 (.call t .close) = some s) :
    s'.pc t = .returned .ok → s'.closed = true := by
  have h0 : s.pc t = .closeFire := by
    clear hr
    dist_cases hcall <;> simp_all
  have key := run_invariant (fun s' => s'.pc t = .closeFire ∨ s'.closed = true) (.inl h0)
    (fun s1 a s2 h hs => by
      rcases h with h | h
      · clear hcall hr
        dist_cases hs <;> grind [upd_apply]
      · exact .inr (closed_step hs h)) hr
  intro hret
  rcases key with h | h
  · rw [hret] at h; simp at h
  · exact h

/-- and from when the monitor has noticed that the source is closed, or has ended for any other reason; what it has noticed
stays so. -/
theorem C46_source (caps : Nat → Nat) (s : State) (h : Reachable step (init caps) s) (i : Nat)
    (hi : s.mon i = .closeLock ∨ s.mon i = .exited) :
    ∀ acts s', run step s acts = some s' → s'.closed = true := fun _ _ hr =>
  run_invariant (fun s => s.closed = true) ((inv_of_reachable h).lock.exited i hi.symm) (fun _ _ _ h hs => closed_step hs h) hr

/-- C46, closing a closed distributor does nothing. -/
theorem C46_again (s s' : State) (t : Nat) (hpc : s.pc t = .closeFire) (hc : s.closed = true)
    (hs : step s (.thread t) = some s') : s' = { s with pc := upd s.pc t (.returned .ok) } := by
  dist_cases hs <;> simp_all

/-! ## C47 Updates are not delivered after Close -/

/-- The full claim of C47: nothing is sent to anybody after a call of `Close` has returned. -/
def C47_claim : Prop := ∀ (caps : Nat → Nat) (s0 s s1 s2 : State) (t : Nat) (acts acts' : List Action),
  Reachable step (init caps) s0 → step s0 (.call t .close) = some s → run step s acts = some s1 → s1.pc t = .returned .ok →
  run step s1 acts' = some s2 → s2.delivered = s1.delivered

/-- C47, what holds: nothing is sent after the `Close` that closed the distributor has returned, provided no `Subscribe` had
found it open and was still waiting for the lock. -/
theorem C47_partial (caps : Nat → Nat) (s s1 s2 : State) (h : Reachable step (init caps) s) (t : Nat) (hpc : s.pc t = .closeLock)
    (hs : step s (.thread t) = some s1) (hsub : ∀ t' ch ks, s.pc t' ≠ .subLock ch ks) (acts : List Action)
    (hr : run step s1 acts = some s2) :
    s1.pc t = .returned .ok ∧ s2.delivered = s1.delivered := by
  have inv := inv_of_reachable h
  have hret : s1.pc t = .returned .ok ∧ s1.keys = [] ∧ s1.closed = true ∧ s1.lock = none ∧ (∀ t' ch ks, s1.pc t' ≠ .subLock ch ks) := by
    have l9 := inv.lock.closing
    clear hr inv
    dist_cases hs <;> grind [upd_apply]
  have inv1 := inv_step inv hs
  have h0 : ∀ t' ch ks, s1.pc t' ≠ .subLocked ch ks := by
    intro t' ch ks ht'
    have := (inv1.lock.thread t').mpr (by rw [ht']; rfl)
    rw [hret.2.2.2.1] at this; simp at this
  have key := run_invariant (fun s2 => Inv s2 ∧ s2.delivered = s1.delivered ∧ s2.keys = [] ∧ s2.closed = true ∧
      (∀ t' ch ks, s2.pc t' ≠ .subLock ch ks) ∧ (∀ t' ch ks, s2.pc t' ≠ .subLocked ch ks))
    ⟨inv1, rfl, hret.2.1, hret.2.2.1, hret.2.2.2.2, h0⟩
    (fun a b c h hs => by
      obtain ⟨h1, h2, h3, h4, h5, h6⟩ := h
      refine ⟨inv_step h1 hs, ?_⟩
      have l8 := h1.lock.remaining
      clear h1 hr hret inv1 h0 hsub
      dist_cases hs <;> grind [upd_apply]) hr
  exact ⟨hret.1, key.2.1⟩

def after (acts : List Action) : State := (run step (init (fun _ => 1)) acts).getD (init (fun _ => 1))

theorem after_run {acts : List Action} (h : (run step (init (fun _ => 1)) acts).isSome = true) :
    run step (init (fun _ => 1)) acts = some (after acts) := by
  unfold after
  cases hx : run step (init fun _ => 1) acts with
  | none => rw [hx] at h; simp at h
  | some s => rfl

theorem after_reachable {acts : List Action} (h : (run step (init (fun _ => 1)) acts).isSome = true) :
    Reachable step (init (fun _ => 1)) (after acts) := ⟨acts, after_run h⟩

theorem after_append {acts acts' : List Action} (h : (run step (init (fun _ => 1)) (acts ++ acts')).isSome = true)
    (h' : (run step (init (fun _ => 1)) acts).isSome = true) :
    run step (after acts) acts' = some (after (acts ++ acts')) := by
  have h1 := after_run h
  rw [run_append, after_run h'] at h1
  exact h1

/-- The configuration 7 is current, channel 0 is about to be subscribed, and the distributor is being closed. -/
def lateSubscribe : List Action :=
  [.call 0 (.subscribe 1 []), .thread 0, .thread 0, .thread 0, .produce 7, .monTake 0, .monLock 0, .monNotify 0 (.user 1), .monLock 0,
   .call 1 (.subscribe 0 []), .thread 1]

/-- C47 is false: a `Subscribe` that found the distributor open gets the lock after `Close` has returned; it is sent the
current configuration, and stays subscribed. -/
theorem C47_refuted : ¬ C47_claim := by
  intro hc
  have := hc (fun _ => 1) (after lateSubscribe) (after (lateSubscribe ++ [.call 2 .close]))
    (after ((lateSubscribe ++ [.call 2 .close]) ++ [.thread 2, .thread 2]))
    (after (((lateSubscribe ++ [.call 2 .close]) ++ [.thread 2, .thread 2]) ++ [.thread 1, .thread 1])) 2 [.thread 2, .thread 2] [.thread 1, .thread 1]
    (after_reachable (by decide))
    (by
      have := after_append (acts := lateSubscribe) (acts' := [.call 2 .close]) (by decide) (by decide)
      simp only [run] at this
      split at this
      · rename_i s1 h1
        rw [h1]; exact this
      · simp at this)
    (after_append (by decide) (by decide)) (by rfl) (after_append (by decide) (by decide))
  have := congrFun this (.user 0)
  revert this
  decide

/-- C47, the monitor may take, too, an update after `Close` has returned, and deliver it to such a late subscriber. -/
theorem C47_refuted_update :
    (after (lateSubscribe ++ [.call 2 .close, .thread 2, .thread 2, .thread 1, .thread 1, .produce 8, .userRecv 0, .monTake 0, .monLock 0, .monNotify 0 (.user 0)])).delivered (.user 0) = [7, 8] ∧
    (after (lateSubscribe ++ [.call 2 .close, .thread 2, .thread 2])).closed = true ∧
    (after (lateSubscribe ++ [.call 2 .close, .thread 2, .thread 2])).delivered (.user 0) = [] := by
  decide

/-- C47, a second `Close` returns at once, while the first is still waiting to cancel the subscriptions: the caller of the
second has no guarantee even if nobody is subscribing. -/
theorem C47_refuted_second :
    ∃ s s', Reachable step (init (fun _ => 1)) s ∧ (∀ t ch ks, s.pc t ≠ .subLock ch ks) ∧ s.pc 2 = .returned .ok ∧
      (∃ s0 : State, step s0 (.thread 2) = some s ∧ s0.pc 2 = .closeFire) ∧
      run step s [.produce 7, .monTake 0, .monLock 0, .monNotify 0 (.user 0)] = some s' ∧
      s.delivered (.user 0) = [] ∧ s'.delivered (.user 0) = [7] := by
  let pre : List Action := [.call 0 (.subscribe 0 []), .thread 0, .thread 0, .thread 0, .call 1 .close, .thread 1, .call 2 .close]
  refine ⟨after (pre ++ [.thread 2]), after ((pre ++ [.thread 2]) ++ [.produce 7, .monTake 0, .monLock 0, .monNotify 0 (.user 0)]),
    after_reachable (by decide), ?_, by rfl, ⟨after pre, ?_, by rfl⟩, after_append (by decide) (by decide), by decide, by decide⟩
  · intro t ch ks
    have : (after (pre ++ [.thread 2])).pc = upd (upd (upd (upd (upd (upd (upd (upd (fun _ => .idle) 0 (.subCheck (.user 0) [])) 0 (.subLock (.user 0) [])) 0 (.subLocked (.user 0) [])) 0 (.returned .ok)) 1 .closeFire) 1 .closeLock) 2 .closeFire) 2 (.returned .ok) := by rfl
    rw [this]
    simp only [upd_apply]
    repeat' split
    all_goals simp_all
  · rfl

/-! ## C48 The distributor never deadlocks itself -/

/-- The full claim of C48, for the lock: it can always be released again, if the users receive from their channels. -/
def C48_claim : Prop := ∀ (caps : Nat → Nat) (s : State), Reachable step (init caps) s → (∀ n, (s.chans n).closed = false) →
  ∃ acts s', run step s acts = some s' ∧ s'.lock = none

/-- C48, exactly when it holds: the lock can be released again if and only if the distributor is not in one of two
situations, in which it waits for itself. -/
theorem C48_partial (caps : Nat → Nat) (s : State) (h : Reachable step (init caps) s) (ho : ∀ n, (s.chans n).closed = false) :
    (∃ acts s', run step s acts = some s' ∧ s'.lock = none) ↔ ¬ Deadlocked s := by
  have inv := inv_of_reachable h
  have hp := C44_no_panic caps s h ho
  constructor
  · rintro ⟨acts, s', hr, hl⟩ hd
    have := run_invariant (fun s => Inv s ∧ Deadlocked s) ⟨inv, hd⟩ (fun _ _ _ h hs => ⟨inv_step h.1 hs, h.2.step h.1 hs⟩) hr
    exact this.2.lock this.1.lock hl
  · intro hd
    cases hl : s.lock with
    | none => exact ⟨[], s, rfl, hl⟩
    | some holder =>
      cases holder with
      | thread t =>
        have hk := (inv.lock.thread t).mp hl
        cases hpc : s.pc t <;> rw [hpc] at hk <;> simp [PC.locked] at hk
        rename_i ch ks
        obtain ⟨acts, s', h1, h2, _⟩ := release_thread s t ch ks hp ho hpc (by
          intro t' ht'
          subst ht'
          have := inv.lock.own t t' (by rw [hpc]; rfl)
          subst this
          cases hlc : s.lastConfig with
          | none => rfl
          | some c => exact absurd (.ownChannel t' ks hpc (by rw [hlc]; simp)) hd)
        exact ⟨acts, s', h1, h2⟩
      | monitor i =>
        have hk := (inv.lock.monitor i).mp hl
        cases hm : s.mon i <;> rw [hm] at hk <;> simp [MonPC.locked] at hk
        rename_i old new rem
        obtain ⟨acts, s', h1, h2, _⟩ := release_monitor s i old new rem hp ho hm (by
          intro t ht
          have hw := inv.lock.getterKeys t ((inv.lock.remaining i old new rem hm).1 _ ht)
          cases hpc : s.pc t <;> rw [hpc] at hw <;> simp [PC.waits] at hw ⊢
          exact absurd (.doneGetter i old new rem t _ hm ht hpc) hd)
        exact ⟨acts, s', h1, h2⟩

/-- C48, a call waits for nothing but the lock, or, in `Get`, for a configuration on an open distributor; and `Subscribe`
holding the lock for the users. -/
theorem C48_waits (caps : Nat → Nat) (s : State) (h : Reachable step (init caps) s) (hp : s.panicked = false) (hl : s.lock = none)
    (t : Nat) (h1 : s.pc t ≠ .idle) (h2 : ∀ r, s.pc t ≠ .returned r) :
    (∃ s', step s (.thread t) = some s') ∨ (∃ s', step s (.cancel t) = some s') ∨ (s.pc t = .getSelect ∧ s.closed = false) := by
  have inv := inv_of_reachable h
  cases hpc : s.pc t with
  | idle => exact absurd hpc h1
  | returned r => exact absurd hpc (h2 r)
  | subLocked ch ks =>
    have := (inv.lock.thread t).mpr (by rw [hpc]; rfl)
    rw [hl] at this; simp at this
  | getSelect =>
    cases hc : s.closed with
    | true => right; left; simp [step, hp, hpc, hc]
    | false => exact .inr (.inr ⟨rfl, rfl⟩)
  | getSnapshot =>
    left
    cases hc : s.lastConfig <;> simp [step, hp, hpc, hl, hc]
  | closeFire =>
    left
    cases hc : s.closed <;> simp [step, hp, hpc, hc]
  | _ => left; simp [step, hp, hpc, hl]

/-- C48, a waiting `Get` is served: with the lock free and a configuration taken or to be taken from the source, the calls
in progress, the monitor and users receiving from their channels are enough for it to return the next configuration. -/
theorem C48_get (caps : Nat → Nat) (s : State) (h : Reachable step (init caps) s) (ho : ∀ n, (s.chans n).closed = false)
    (hl : s.lock = none) (hopen : s.closed = false) (t : Nat) (ht : s.pc t = .getSelect)
    (hsrc : (updates s.hist).length < s.produced.length) :
    ∃ acts s' c, run step s acts = some s' ∧ (∀ a ∈ acts, a.internal) ∧ s'.pc t = .returned (.config c) ∧
      s.produced[(updates s.hist).length]? = some c := by
  have inv := inv_of_reachable h
  have hpr := inv.src.produced
  cases hx : (s.mon 0).inflight ++ s.source with
  | nil =>
    rw [List.append_assoc, hx, List.append_nil] at hpr
    rw [hpr] at hsrc; omega
  | cons c rest =>
    obtain ⟨acts, s', h1, h2, h3⟩ := get_returns inv (waitInv_of_reachable h) (C44_no_panic caps s h ho) hl ho hopen ht hx
    refine ⟨acts, s', c, h1, h2, h3, ?_⟩
    rw [hpr, List.append_assoc, hx]
    simp

/-- One subscriber, and a `Get` that has found no configuration; then the first configuration arrives. -/
def getRace : List Action :=
  [.call 0 (.subscribe 0 []), .thread 0, .thread 0, .thread 0, .call 1 .get, .thread 1, .thread 1, .thread 1,
   .produce 7, .monTake 0, .monLock 0, .monNotify 0 (.user 0), .monLock 0, .thread 1]

/-- Two configurations arrive while a `Get` is waiting. -/
def getTwice : List Action :=
  [.call 1 .get, .thread 1, .thread 1, .thread 1, .thread 1, .thread 1, .produce 7, .monTake 0, .monLock 0, .monNotify 0 (.getter 1), .monLock 0,
   .produce 8, .monTake 0, .monLock 0]

/-- C48 is false: `Get` can find no configuration, and the lock free after the first one has arrived; it then sends it,
holding the lock, to its own channel, which nobody receives from. Nothing that anybody does releases the lock again. -/
theorem C48_refuted : ¬ C48_claim := by
  intro hc
  have hr : Reachable step (init fun _ => 1) (after getRace) := after_reachable (by decide)
  have ho : ∀ n, ((after getRace).chans n).closed = false := by
    intro n
    have : (after getRace).chans = upd (fun _ => ⟨1, [], 0, false⟩) 0 ⟨1, [7], 0, false⟩ := by rfl
    rw [this, upd_apply]; split <;> rfl
  refine (C48_partial _ _ hr ho).mp (hc _ _ hr ho) (.ownChannel 1 [] (by rfl) (by decide))

/-- C48, the second way: two configurations arrive in quick succession while a `Get` is waiting. It has received the first
and wants to cancel its subscription; the monitor, holding the lock, sends it the second. -/
theorem C48_refuted_monitor : Reachable step (init fun _ => 1) (after getTwice) ∧ Deadlocked (after getTwice) ∧
    (after getTwice).pc 1 = .getUnsub (.config 7) ∧
    ∀ acts s', run step (after getTwice) acts = some s' → s'.lock ≠ none ∧ ∀ r, s'.pc 1 ≠ .returned r := by
  have hr : Reachable step (init fun _ => 1) (after getTwice) := after_reachable (by decide)
  have hd : Deadlocked (after getTwice) := .doneGetter 0 (some 7) 8 [.getter 1] 1 (.config 7) (by decide) (by decide) (by rfl)
  refine ⟨hr, hd, by rfl, fun acts s' h => ?_⟩
  have := run_invariant (fun s => Inv s ∧ Deadlocked s ∧ s.pc 1 = .getUnsub (.config 7)) ⟨inv_of_reachable hr, hd, by rfl⟩
    (fun s a s' h hs => by
      refine ⟨inv_step h.1 hs, h.2.1.step h.1 hs, ?_⟩
      have hl := h.2.1.lock h.1.lock
      have h3 := h.2.2
      have l6 := h.1.lock.own
      clear h hr hd
      dist_cases hs <;> grind [upd_apply]) h
  refine ⟨this.2.1.lock this.1.lock, fun r => ?_⟩
  rw [this.2.2]; simp

/-- C48, what it comes to: when the distributor has nothing to do, either it waits for itself as in `C48_partial`, or for the user of
a channel that has no room; or else the lock is free, every call has returned, except for `Get`s waiting for a configuration on an
open distributor, and the monitor, if there is one, has ended or waits for the source. It comes to that after a bounded number
of steps (`C48_finite`). -/
theorem C48_rest (caps : Nat → Nat) (s : State) (h : Reachable step (init caps) s) (hp : s.panicked = false) (hr : AtRest s) :
    Deadlocked s ∨ (∃ n, BlockedOn s n) ∨
    (s.lock = none ∧ (∀ t, s.pc t = .idle ∨ (∃ r, s.pc t = .returned r) ∨ (s.pc t = .getSelect ∧ s.closed = false)) ∧
      ∀ i, s.mon i = .notStarted ∨ (s.mon i = .select ∧ s.source = [] ∧ s.sourceClosed = false ∧ s.closed = false) ∨ s.mon i = .exited) := by
  have inv := inv_of_reachable h
  rcases rest_lock inv hp hr with hl | hd | hn
  · exact .inr (.inr ⟨hl, rest_thread inv hp hr hl, rest_mon inv hp hr hl⟩)
  · exact .inl hd
  · exact .inr (.inl hn)

/-- C48: there is no endless sequence of steps of the distributor alone. -/
theorem C48_finite (caps : Nat → Nat) (s : State) (h : Reachable step (init caps) s) :
    ∃ n, ∀ acts s', (∀ a ∈ acts, a.own = true) → run step s acts = some s' → acts.length ≤ n := finite h

/-- C44, nothing is left undelivered: when an open distributor, in which anybody has ever subscribed or waited for a
configuration, has nothing to do (which it comes to, `C48_finite`), and does not wait for itself or for a user, then all the
configurations produced have taken effect, and every channel has been sent exactly those it should have been sent. -/
theorem C44_rest (caps : Nat → Nat) (s : State) (h : Reachable step (init caps) s) (hp : s.panicked = false) (hr : AtRest s)
    (hd : ¬ Deadlocked s) (hu : ∀ n, ¬ BlockedOn s n) (ho : s.closed = false) (hs : ∃ ch ks, .subscribe ch ks ∈ s.hist) :
    updates s.hist = s.produced ∧ ∀ ch, s.delivered ch = (view ch s.hist).got := by
  have inv := inv_of_reachable h
  rcases C48_rest caps s h hp hr with h1 | ⟨n, h1⟩ | ⟨hl, -, hm⟩
  · exact absurd h1 hd
  · exact absurd h1 (hu n)
  · refine ⟨?_, C44 caps s h hl⟩
    have hst := started_of_subscribed h hs
    have hm0 : s.mon 0 ≠ .notStarted := (inv.lock.mons 0).mpr (by rw [inv.lock.count, hst]; simp)
    rw [inv.src.produced]
    rcases hm 0 with h1 | ⟨h1, h2, -⟩ | h1
    · exact absurd h1 hm0
    · rw [h1, h2]; simp [MonPC.inflight]
    · have := inv.lock.exited 0 (.inl h1)
      rw [ho] at this; simp at this

/-- C43, the same for `Get`: in that situation no `Get` is waiting, if a configuration was ever produced. -/
theorem C43_rest (caps : Nat → Nat) (s : State) (h : Reachable step (init caps) s) (hp : s.panicked = false) (hr : AtRest s)
    (hd : ¬ Deadlocked s) (hu : ∀ n, ¬ BlockedOn s n) (hs : s.produced ≠ []) (t : Nat) :
    s.pc t = .idle ∨ ∃ r, s.pc t = .returned r := by
  have inv := inv_of_reachable h
  rcases C48_rest caps s h hp hr with h1 | ⟨n, h1⟩ | ⟨hl, ht, hm⟩
  · exact absurd h1 hd
  · exact absurd h1 (hu n)
  · rcases ht t with h1 | h1 | ⟨h1, ho⟩
    · exact .inl h1
    · exact .inr h1
    · refine absurd ?_ hs
      have hst := (waitInv_of_reachable h).started ⟨t, h1⟩
      have hm0 : s.mon 0 ≠ .notStarted := (inv.lock.mons 0).mpr (by rw [inv.lock.count, hst]; simp)
      rcases hm 0 with h2 | ⟨h2, h3, -⟩ | h2
      · exact absurd h2 hm0
      · rw [inv.src.produced, h2, h3]
        rcases pending_of_reachable h t h1 ho with h4 | h4
        · rw [inv.src.last, List.getLast?_eq_none_iff] at h4
          rw [h4]; rfl
        · rw [h2] at h4; simp [MonPC.remaining] at h4
      · have := inv.lock.exited 0 (.inl h2)
        rw [ho] at this; simp at this

/-! ## C49 A single monitor goroutine -/

/-- C49: at most one monitor is ever started, -/
theorem C49 (caps : Nat → Nat) (s : State) (h : Reachable step (init caps) s) (i j : Nat) (hi : s.mon i ≠ .notStarted)
    (hj : s.mon j ≠ .notStarted) : i = j ∧ s.monCount ≤ 1 := by
  have inv := (inv_of_reachable h).lock
  have h1 := (inv.mons i).mp hi
  have h2 := (inv.mons j).mp hj
  have h3 := inv.count
  split at h3 <;> omega

/-- C49, and the configurations take effect one after the other in the order in which they were put into the source: those
in effect so far, the one just taken if any, and those still in the source are everything produced. -/
theorem C49_order (caps : Nat → Nat) (s : State) (h : Reachable step (init caps) s) :
    ∃ taken, taken.length ≤ 1 ∧ s.produced = updates s.hist ++ taken ++ s.source := by
  refine ⟨(s.mon 0).inflight, ?_, (inv_of_reachable h).src.produced⟩
  unfold MonPC.inflight
  split <;> simp

/-! ## The hypotheses are met -/

/-- Subscribers 0 (everything) and 1 (only even configurations); two updates. -/
def busy : List Action :=
  [.call 0 (.subscribe 0 []), .thread 0, .thread 0, .thread 0,
   .call 1 (.subscribe 1 [fun _ c => c % 2 == 0]), .thread 1, .thread 1, .thread 1,
   .produce 7, .produce 8, .userRecv 0, .userRecv 0, .monTake 0, .monLock 0, .monNotify 0 (.user 1), .monNotify 0 (.user 0), .monLock 0,
   .monTake 0, .monLock 0, .monNotify 0 (.user 0), .monNotify 0 (.user 1), .monLock 0,
   .call 2 .get, .thread 2, .thread 2]

-- C43, C44, C49: an execution with two updates, two subscribers and a `Get`
example : Reachable step (init fun _ => 1) (after busy) ∧ (after busy).lock = none ∧ (after busy).delivered (.user 0) = [7, 8] ∧
    (after busy).delivered (.user 1) = [8] ∧ (after busy).pc 2 = .returned (.config 8) :=
  ⟨after_reachable (by decide), by decide, by decide, by decide, by rfl⟩

-- C44_always: in the middle of an update
example : Reachable step (init fun _ => 1) (after (busy.take 15)) ∧ (after (busy.take 15)).delivered (.user 0) = [] ∧
    (view (.user 0) (after (busy.take 15)).hist).got = [7] :=
  ⟨after_reachable (by decide), by decide, by decide⟩

-- C45: channel 0 is unsubscribed, the next update goes to channel 1 only
example : (run step (after (busy ++ [.call 3 (.unsubscribe 0)])) [.thread 3, .produce 10, .userRecv 1, .monTake 0, .monLock 0, .monNotify 0 (.user 1), .monLock 0]).isSome = true ∧
    (after (busy ++ [.call 3 (.unsubscribe 0)])).pc 3 = .unsubLock 0 := ⟨by decide, by rfl⟩

-- C46: the source is closed, and the monitor notices it
example : Reachable step (init fun _ => 1) (after (busy ++ [.closeSource, .monTake 0])) ∧ (after (busy ++ [.closeSource, .monTake 0])).mon 0 = .closeLock :=
  ⟨after_reachable (by decide), by decide⟩
-- C46: a `Get` and a `Subscribe` after `Close`
example : (after (busy ++ [.call 3 .close, .thread 3, .thread 3, .call 4 .get, .call 5 (.subscribe 3 []), .thread 5, .thread 4])).pc 4 = .returned .errClosed ∧
    (after (busy ++ [.call 3 .close, .thread 3, .thread 3, .call 4 .get, .call 5 (.subscribe 3 []), .thread 5, .thread 4])).pc 5 = .returned .errClosed ∧
    (after (busy ++ [.call 3 .close, .thread 3, .thread 3])).closed = true := ⟨by rfl, by rfl, by decide⟩

-- C47: the second step of the closing call
example : Reachable step (init fun _ => 1) (after (busy ++ [.call 3 .close, .thread 3])) ∧
    (after (busy ++ [.call 3 .close, .thread 3])).pc 3 = .closeLock ∧
    (step (after (busy ++ [.call 3 .close, .thread 3])) (.thread 3)).isSome = true :=
  ⟨after_reachable (by decide), by rfl, by decide⟩

-- C48: the lock is held while two subscribers are notified; a `Get` is waiting for the first configuration
example : Reachable step (init fun _ => 1) (after (busy.take 14)) ∧ (after (busy.take 14)).lock = some (.monitor 0) :=
  ⟨after_reachable (by decide), by decide⟩
example : Reachable step (init fun _ => 1) (after (getTwice.take 7)) ∧ (after (getTwice.take 7)).lock = none ∧
    (after (getTwice.take 7)).pc 1 = .getSelect ∧ (after (getTwice.take 7)).closed = false ∧
    (updates (after (getTwice.take 7)).hist).length < (after (getTwice.take 7)).produced.length :=
  ⟨after_reachable (by decide), by decide, by rfl, by decide, by decide⟩

-- C48_rest, C44_rest, C43_rest: all is delivered, the monitor waits for the source
theorem busy_mon (i : Nat) : (after busy).mon i = .select ∨ (after busy).mon i = .notStarted := by
  match i with
  | 0 => exact .inl rfl
  | i + 1 => exact .inr rfl

theorem busy_pc (t : Nat) : (after busy).pc t = .idle ∨ ∃ r, (after busy).pc t = .returned r := by
  match t with
  | 0 | 1 | 2 => exact .inr ⟨_, rfl⟩
  | t + 3 => exact .inl rfl

example : Reachable step (init fun _ => 1) (after busy) ∧ (after busy).panicked = false ∧ AtRest (after busy) ∧ ¬ Deadlocked (after busy) ∧
    (∀ n, ¬ BlockedOn (after busy) n) ∧ (after busy).closed = false ∧ (after busy).produced = [7, 8] ∧
    .subscribe (.user 0) [] ∈ (after busy).hist := by
  have hp : (after busy).panicked = false := by decide
  have hsrc : (after busy).source = [] := by decide
  have hsc : (after busy).sourceClosed = false := by decide
  have hcl : (after busy).closed = false := by decide
  refine ⟨after_reachable (by decide), hp, ?_, ?_, ?_, hcl, by decide, ?_⟩
  · intro a ha
    cases a <;> simp [Action.own] at ha <;> simp only [step, hp, Bool.false_eq_true, if_false]
    case thread t => rcases busy_pc t with h | ⟨r, h⟩ <;> simp [h]
    case cancel t => rcases busy_pc t with h | ⟨r, h⟩ <;> simp [h]
    case monTake i => rcases busy_mon i with h | h <;> simp [h, hsrc, hsc]
    case monDone i => rcases busy_mon i with h | h <;> simp [h, hcl]
    case monLock i => rcases busy_mon i with h | h <;> simp [h]
    case monNotify i ch => rcases busy_mon i with h | h <;> simp [h]
  · rintro (⟨t, ks, h, -⟩ | ⟨i, old, new, rem, t, r, h, -⟩)
    · rcases busy_pc t with h' | ⟨r, h'⟩ <;> simp [h'] at h
    · rcases busy_mon i with h' | h' <;> simp [h'] at h
  · rintro n (⟨t, ks, h⟩ | ⟨i, old, new, rem, h⟩)
    · rcases busy_pc t with h' | ⟨r, h'⟩ <;> simp [h'] at h
    · rcases busy_mon i with h' | h' <;> simp [h'] at h
  · exact List.Mem.head _

end Gevulot.DistributorModel
