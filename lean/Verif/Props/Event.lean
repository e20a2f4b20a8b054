import Verif.Proofs.Event

/-!
# C41, C42: the one-time event

`s` ranges over every state reachable by any interleaving of any number of `Fire` calls; `s.pc i = .returned b` says that
call `i` has returned `b`.
-/

namespace Gevulot.EventModel

/-! ## C41 An Event fires exactly once -/

/-- C41, at most one call returns true. -/
theorem C41_at_most_one (s : State) (h : Reachable step init s) (i j : Nat) (hi : s.pc i = .returned true)
    (hj : s.pc j = .returned true) : i = j :=
  (h.invariant Inv inv_init fun _ _ _ => inv_step).unique i j (.inr hi) (.inr hj)

/-- C41, if some call was made and no call is still running, one of them returned true. -/
theorem C41_one (s : State) (h : Reachable step init s) (i : Nat) (hi : s.pc i ≠ .idle)
    (hall : ∀ j, s.pc j = .idle ∨ ∃ b, s.pc j = .returned b) : ∃ j, s.pc j = .returned true := by
  have inv := h.invariant Inv inv_init fun _ _ _ => inv_step
  rcases hall i with h0 | ⟨b, hb⟩
  · exact absurd h0 hi
  · cases b with
    | true => exact ⟨i, hb⟩
    | false =>
      obtain ⟨j, hj | hj⟩ := inv.exists_winner (inv.loser i (.inr hb))
      · rcases hall j with h0 | ⟨b, hb⟩
        · rw [h0] at hj; simp at hj
        · rw [hb] at hj; simp at hj
      · exact ⟨j, hj⟩

/-- C41, `Done` is never closed twice. -/
theorem C41_no_panic (s : State) (h : Reachable step init s) : s.panicked = false :=
  (h.invariant Inv inv_init fun _ _ _ => inv_step).noPanic

/-- C41, no call of `Fire` is stuck: whenever some call has not returned, one of those can make a step. -/
theorem C41_progress (s : State) (h : Reachable step init s) (i : Nat) (h1 : s.pc i ≠ .idle)
    (h2 : ∀ b, s.pc i ≠ .returned b) : ∃ j s', s.pc j ≠ .idle ∧ step s j = some s' := by
  have inv := h.invariant Inv inv_init fun _ _ _ => inv_step
  have go : ∀ j, s.pc j ≠ .idle → (∀ b, s.pc j ≠ .returned b) → s.pc j ≠ .lock → ∃ s', step s j = some s' := by
    intro j hj1 hj2 hj3
    unfold step
    rw [if_neg (by simp [inv.noPanic])]
    cases hp : s.pc j <;> simp_all
    split <;> simp
  by_cases hl : s.pc i = .lock
  · cases hm : s.mutex with
    | none => exact ⟨i, { s with mutex := some i, pc := upd s.pc i .recheck }, h1, by
        unfold step; rw [if_neg (by simp [inv.noPanic]), hl]; simp [hm]⟩
    | some j =>
      have hin := (inv.mutexHeld j).mp hm
      obtain ⟨s', hs'⟩ := go j (by rintro h; rw [h] at hin; simp [PC.inside] at hin)
        (by intro b h; rw [h] at hin; simp [PC.inside] at hin) (by intro h; rw [h] at hin; simp [PC.inside] at hin)
      exact ⟨j, s', by intro h; rw [h] at hin; simp [PC.inside] at hin, hs'⟩
  · obtain ⟨s', hs'⟩ := go i h1 h2 hl
    exact ⟨i, s', h1, hs'⟩

/-- Three calls: 1 is in the middle of closing, 0 waits for the mutex, 2 has not started. -/
example : ∃ s, run step init [0, 0, 1, 1, 1, 1, 1] = some s ∧ s.pc 1 = .close ∧ s.pc 0 = .lock ∧ step s 0 = none :=
  ⟨_, rfl, rfl, rfl, rfl⟩
/-- Call 0 loses, call 1 wins. -/
example : ∃ s, run step init [0, 0, 1, 1, 1, 1, 1, 1, 1, 1, 0, 0, 0] = some s ∧ s.pc 1 = .returned true ∧
    s.pc 0 = .returned false := ⟨_, rfl, rfl, rfl⟩

/-! ## C42 A fired Event is visible everywhere and for ever -/

/-- C42, once a call of `Fire` has returned (true or false), `HasFired` is true and `Done` is closed. -/
theorem C42_visible (s : State) (h : Reachable step init s) (i : Nat) (b : Bool) (hi : s.pc i = .returned b) :
    s.hasFired = true ∧ s.doneClosed = true := by
  have inv := h.invariant Inv inv_init fun _ _ _ => inv_step
  have hd : s.onceDone = true := by
    cases b with
    | true => exact inv.winner i (.inr hi)
    | false => exact inv.loser i (.inr hi)
  exact ⟨inv.firedIff.mpr (.inl hd), inv.closedIff.mpr (.inl hd)⟩

/-- C42, both remain so. -/
theorem C42_forever (s s' : State) (h : Reachable step s s') :
    (s.hasFired = true → s'.hasFired = true) ∧ (s.doneClosed = true → s'.doneClosed = true) := by
  refine h.invariant (fun t => (s.hasFired = true → t.hasFired = true) ∧ (s.doneClosed = true → t.doneClosed = true))
    ⟨id, id⟩ ?_
  rintro t i t' ⟨h1, h2⟩ hs
  unfold step at hs
  split at hs
  · simp at hs
  · split at hs <;> (try split at hs) <;> simp only [Option.some.injEq, reduceCtorEq] at hs <;> subst hs <;>
      exact ⟨fun h => by first | rfl | exact h1 h, fun h => by first | rfl | exact h2 h⟩

/-- C42, `Done` closed implies `HasFired`. -/
theorem C42_done_fired (s : State) (h : Reachable step init s) (hd : s.doneClosed = true) : s.hasFired = true := by
  have inv := h.invariant Inv inv_init fun _ _ _ => inv_step
  rcases inv.closedIff.mp hd with h1 | ⟨i, h1⟩
  · exact inv.firedIff.mpr (.inl h1)
  · exact inv.firedIff.mpr (.inr ⟨i, .inr h1⟩)

/-- C42, as long as `Fire` has not been called neither holds. -/
theorem C42_not_before (s : State) (h : Reachable step init s) (hn : ∀ i, s.pc i = .idle) :
    s.hasFired = false ∧ s.doneClosed = false := by
  have inv := h.invariant Inv inv_init fun _ _ _ => inv_step
  have hd : ¬ s.onceDone = true := by
    intro hd
    obtain ⟨i, hi⟩ := inv.exists_winner hd
    rw [hn i] at hi
    simp at hi
  constructor
  · rw [Bool.eq_false_iff]
    intro hf
    rcases inv.firedIff.mp hf with h1 | ⟨i, h1⟩
    · exact hd h1
    · rw [hn i] at h1; simp at h1
  · rw [Bool.eq_false_iff]
    intro hf
    rcases inv.closedIff.mp hf with h1 | ⟨i, h1⟩
    · exact hd h1
    · rw [hn i] at h1; simp at h1

/-- The window in which `HasFired` is already true and `Done` is still open. -/
example : ∃ s, run step init [7, 7, 7, 7, 7] = some s ∧ s.hasFired = true ∧ s.doneClosed = false := ⟨_, rfl, rfl, rfl⟩

end Gevulot.EventModel
