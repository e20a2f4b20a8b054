import Verif.Model.Trans

namespace Gevulot

variable {σ α : Type} {step : σ → α → Option σ}

@[simp] theorem upd_same {κ β : Type} [DecidableEq κ] (f : κ → β) (k : κ) (v : β) : upd f k v k = v := if_pos rfl
theorem upd_other {κ β : Type} [DecidableEq κ] (f : κ → β) {k k' : κ} (v : β) (h : k' ≠ k) : upd f k v k' = f k' :=
  if_neg h
theorem upd_apply {κ β : Type} [DecidableEq κ] (f : κ → β) (k k' : κ) (v : β) :
    upd f k v k' = if k' = k then v else f k' := rfl

theorem run_append (s : σ) (as bs : List α) : run step s (as ++ bs) = (run step s as).bind fun s' => run step s' bs := by
  induction as generalizing s with
  | nil => rfl
  | cons a as ih =>
    simp only [List.cons_append, run]
    cases step s a with
    | none => rfl
    | some s' => exact ih s'

theorem run_append_some {s s1 s2 : σ} {as bs : List α} (h1 : run step s as = some s1) (h2 : run step s1 bs = some s2) :
    run step s (as ++ bs) = some s2 := by rw [run_append, h1]; exact h2

theorem Reachable.refl (s : σ) : Reachable step s s := ⟨[], rfl⟩

theorem Reachable.trans {s0 s1 s2 : σ} (h : Reachable step s0 s1) (h' : Reachable step s1 s2) : Reachable step s0 s2 := by
  obtain ⟨as, h⟩ := h
  obtain ⟨bs, h'⟩ := h'
  exact ⟨as ++ bs, run_append_some h h'⟩

theorem Reachable.next {s0 s s' : σ} {a : α} (h : Reachable step s0 s) (hs : step s a = some s') :
    Reachable step s0 s' :=
  h.trans ⟨[a], by simp [run, hs]⟩

/-- What holds at the start of a run and is preserved by every step holds at the end. -/
theorem run_invariant {s s' : σ} {acts : List α} (inv : σ → Prop) (h0 : inv s)
    (hs : ∀ s a s', inv s → step s a = some s' → inv s') (h : run step s acts = some s') : inv s' := by
  induction acts generalizing s with
  | nil => simp only [run, Option.some.injEq] at h; exact h ▸ h0
  | cons a as ih =>
    simp only [run] at h
    cases ha : step s a with
    | none => rw [ha] at h; simp at h
    | some s1 => rw [ha] at h; exact ih (hs s a s1 h0 ha) h

/-- The same for actions of a certain kind. -/
theorem run_invariant_of {s s' : σ} {acts : List α} (kind : α → Prop) (inv : σ → Prop) (h0 : inv s)
    (hs : ∀ s a s', kind a → inv s → step s a = some s' → inv s') (ha : ∀ a ∈ acts, kind a)
    (h : run step s acts = some s') : inv s' := by
  induction acts generalizing s with
  | nil => simp only [run, Option.some.injEq] at h; exact h ▸ h0
  | cons a as ih =>
    simp only [run] at h
    cases hx : step s a with
    | none => rw [hx] at h; simp at h
    | some s1 => rw [hx] at h; exact ih (hs s a s1 (ha a (by simp)) h0 hx) (fun b hb => ha b (by simp [hb])) h

theorem Reachable.invariant {s0 s : σ} (h : Reachable step s0 s) (inv : σ → Prop) (h0 : inv s0)
    (hs : ∀ s a s', inv s → step s a = some s' → inv s') : inv s := by
  obtain ⟨acts, h⟩ := h
  exact run_invariant inv h0 hs h

/-- If every step decreases a measure, a run has at most that many steps. -/
theorem run_measure {s s' : σ} {acts : List α} (kind : α → Prop) (μ : σ → Nat) (inv : σ → Prop) (h0 : inv s)
    (hi : ∀ s a s', kind a → inv s → step s a = some s' → inv s')
    (hs : ∀ s a s', kind a → inv s → step s a = some s' → μ s' < μ s) (ha : ∀ a ∈ acts, kind a)
    (h : run step s acts = some s') : acts.length + μ s' ≤ μ s := by
  induction acts generalizing s with
  | nil => simp only [run, Option.some.injEq] at h; subst h; simp
  | cons a as ih =>
    simp only [run] at h
    cases hx : step s a with
    | none => rw [hx] at h; simp at h
    | some s1 =>
      rw [hx] at h
      have := ih (hi s a s1 (ha a (by simp)) h0 hx) (fun b hb => ha b (by simp [hb])) h
      have := hs s a s1 (ha a (by simp)) h0 hx
      simp only [List.length_cons]
      omega

end Gevulot
