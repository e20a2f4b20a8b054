import Verif.Proofs.DistributorLog

/-!
# C113: what the monitor of the distributor logs
-/

namespace Gevulot.DistributorLog

/-- C113: each monitor logs that it starts, at most once that the source is closed, and that it is over, in this order; the last exactly
when it is over, or has panicked. -/
theorem C113 (caps : Nat → Nat) (s : State) (h : Reachable step (init caps) s) (i : Nat) : Spec.Story (s.log i) s.dist.panicked (s.dist.mon i) :=
  (inv_of_reachable h).story i

/-- C113_source: that the source is closed is logged only if it is, with nothing left in it; and then the distributor is closed. -/
theorem C113_source (caps : Nat → Nat) (s : State) (h : Reachable step (init caps) s) (i : Nat) (hl : .sourceClosed ∈ s.log i) :
    s.dist.sourceClosed = true ∧ s.dist.source = [] ∧ s.dist.closed = true :=
  (inv_of_reachable h).source i hl

/-- C113_exited: the monitor is not over before the distributor is closed, unless it panics. -/
theorem C113_exited (caps : Nat → Nat) (s : State) (h : Reachable step (init caps) s) (i : Nat) (hl : .exited ∈ s.log i) :
    s.dist.closed = true ∨ s.dist.panicked = true := by
  have hi := inv_of_reachable h
  have h1 := hi.story i
  have h2 := hi.base.exited i
  cases hm : s.dist.mon i <;> rw [hm] at h1 <;> simp only [Spec.Story] at h1
  case exited => exact .inl (h2 (.inl hm))
  case notifying => rcases h1 with h1 | h1
                    · simp [h1] at hl
                    · exact .inr h1.1
  all_goals simp [h1] at hl

/-- C113_one: at most one goroutine ever logs anything (C49). -/
theorem C113_one (caps : Nat → Nat) (s : State) (h : Reachable step (init caps) s) (i j : Nat) (hi : s.log i ≠ []) (hj : s.log j ≠ []) : i = j := by
  have hv := inv_of_reachable h
  have key : ∀ k, s.log k ≠ [] → k < s.dist.monCount := fun k hk => (hv.base.mons k).mp fun hn => by
    have := hv.story k
    rw [hn] at this
    exact hk this
  have h1 := key i hi
  have h2 := key j hj
  have h3 := hv.base.count
  split at h3 <;> omega

/-- C113_rest: once the distributor is closed, nothing is left to do and nobody has the lock, the end of the monitor has been logged, if it
was started. -/
theorem C113_rest (caps : Nat → Nat) (s : State) (h : Reachable step (init caps) s) (hp : s.dist.panicked = false) (hc : s.dist.closed = true)
    (hl : s.dist.lock = none) (hr : DistributorModel.AtRest s.dist) (i : Nat) (hi : s.log i ≠ []) : (s.log i).getLast? = some .exited := by
  have hv := inv_of_reachable h
  have h1 := hv.story i
  cases hm : s.dist.mon i <;> rw [hm] at h1 <;> simp only [Spec.Story] at h1
  case notStarted => exact absurd h1 hi
  case select =>
    have := hr (.monDone i) rfl
    simp [DistributorModel.step, hp, hm, hc] at this
  case gotten c =>
    have := hr (.monLock i) rfl
    simp [DistributorModel.step, hp, hm, hl] at this
  case notifying =>
    have := (hv.base.monitor i).mpr (by simp [hm, DistributorModel.MonPC.locked])
    simp [hl] at this
  case closeLock =>
    have := hr (.monLock i) rfl
    simp [DistributorModel.step, hp, hm, hl] at this
  case exited => rcases h1 with h1 | h1 <;> simp [h1]

/-- The distributor is that of Model/Distributor.lean, -/
theorem C113_dist (caps : Nat → Nat) (s : State) (h : Reachable step (init caps) s) : Reachable DistributorModel.step (DistributorModel.init caps) s.dist :=
  h.invariant (fun s => Reachable DistributorModel.step (DistributorModel.init caps) s.dist) (.refl _) fun _ _ _ hr hs => hr.next (step_spec hs).1

/-- and all of it. -/
theorem C113_all (caps : Nat → Nat) (d : DistributorModel.State) (h : Reachable DistributorModel.step (DistributorModel.init caps) d) :
    ∃ s, Reachable step (init caps) s ∧ s.dist = d :=
  h.invariant (fun d => ∃ s, Reachable step (init caps) s ∧ s.dist = d) ⟨_, .refl _, rfl⟩ fun d a d' hr hs => by
    obtain ⟨s, h1, rfl⟩ := hr
    exact ⟨{ dist := d', log := fun i => s.log i ++ lines s.dist d' a i }, h1.next (a := a) (by simp [step, hs]), rfl⟩

/-! ## Examples -/

def after (acts : List DistributorModel.Action) : State := (run step (init fun _ => 1) acts).getD (init fun _ => 1)

theorem after_reachable {acts : List DistributorModel.Action} (h : (run step (init fun _ => 1) acts).isSome = true) :
    Reachable step (init fun _ => 1) (after acts) := by
  obtain ⟨s, hs⟩ := Option.isSome_iff_exists.mp h
  exact ⟨acts, by rw [after, hs]; rfl⟩

/-- Somebody subscribes, is sent a configuration, and the source is closed. -/
def drained : List DistributorModel.Action :=
  [.call 0 (.subscribe 0 []), .thread 0, .thread 0, .thread 0, .produce 7, .monTake 0, .monLock 0, .monNotify 0 (.user 0), .monLock 0, .closeSource,
    .monTake 0, .monLock 0]

example : Reachable step (init fun _ => 1) (after drained) ∧ (after drained).log 0 = [.starting, .sourceClosed, .exited] ∧
    (after drained).dist.panicked = false ∧ (after drained).dist.closed = true ∧ (after drained).dist.lock = none :=
  ⟨after_reachable (by decide +kernel), by decide +kernel, by decide +kernel, by decide +kernel, by decide +kernel⟩

example : DistributorModel.AtRest (after drained).dist := by
  have hpc : ∀ t, (after drained).dist.pc t = .idle ∨ (after drained).dist.pc t = .returned .ok := fun t => by
    match t with
    | 0 => exact .inr rfl
    | n+1 => exact .inl rfl
  have hmon : ∀ i, (after drained).dist.mon i = .exited ∨ (after drained).dist.mon i = .notStarted := fun i => by
    match i with
    | 0 => exact .inl rfl
    | n+1 => exact .inr rfl
  intro a ha
  have hp : (after drained).dist.panicked = false := by decide +kernel
  cases a <;> simp [DistributorModel.Action.own] at ha
  case thread t => rcases hpc t with h | h <;> simp [DistributorModel.step, hp, h]
  case cancel t => rcases hpc t with h | h <;> simp [DistributorModel.step, hp, h]
  case monNotify i ch => rcases hmon i with h | h <;> simp [DistributorModel.step, hp, h]
  all_goals
    rename_i i
    rcases hmon i with h | h <;> simp [DistributorModel.step, hp, h]

/-- A subscriber closes its channel: the monitor panics. -/
example : Reachable step (init fun _ => 1) (after [.call 0 (.subscribe 0 []), .thread 0, .thread 0, .thread 0, .userClose 0, .produce 7, .monTake 0, .monLock 0, .monNotify 0 (.user 0)]) ∧
    (after [.call 0 (.subscribe 0 []), .thread 0, .thread 0, .thread 0, .userClose 0, .produce 7, .monTake 0, .monLock 0, .monNotify 0 (.user 0)]).log 0 = [.starting, .exited] :=
  ⟨after_reachable (by decide +kernel), by decide +kernel⟩

end Gevulot.DistributorLog
