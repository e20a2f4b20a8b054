import Verif.Proofs.FullSession

/-!
The whole session: it remembers the answers of `Get`.
-/

namespace Gevulot.FullSession

variable {parse : Bytes → Option ConnectionParams}

theorem fail_configs {x x' : State} (h : x.fail = some x') : x'.configs = x.configs := by
  unfold State.fail at h
  obtain ⟨b, -, rfl⟩ := Option.map_eq_some_iff.mp h
  rfl

theorem session_configs {x x' : State} {b : Action} (hs : step parse x b = some x') :
    x'.configs = x.configs ++ (match b with | .getConfig r => [r] | _ => []) := by
  cases b with
  | base a =>
    simp only [step] at hs
    split at hs
    · simp at hs
    · obtain ⟨b, -, rfl⟩ := Option.map_eq_some_iff.mp hs
      simp
  | recvStartup =>
    simp only [step] at hs
    split at hs
    · split at hs
      · simp at hs
      · obtain ⟨b, -, hs⟩ := Option.bind_eq_some_iff.mp hs
        split at hs
        · simp only [Option.some.injEq] at hs; subst hs; simp
        · split at hs
          · rw [fail_configs hs]; simp
          · simp only [Option.some.injEq] at hs; subst hs; simp
      · obtain ⟨b, -, hs⟩ := Option.bind_eq_some_iff.mp hs
        rw [fail_configs hs]; simp
      · unfold State.crash at hs
        split at hs
        · simp at hs
        · simp only [Option.some.injEq] at hs; subst hs; simp
    · simp at hs
  | reply ok =>
    simp only [step] at hs
    split at hs
    · split at hs
      · obtain ⟨b, -, rfl⟩ := Option.map_eq_some_iff.mp hs
        simp
      · rw [fail_configs hs]; simp
    · simp at hs
  | getConfig r =>
    simp only [step] at hs
    split at hs
    · split at hs
      · split at hs
        · rw [fail_configs hs]
        · split at hs
          · simp at hs
          · simp only [Option.some.injEq] at hs; subst hs; rfl
      · rw [fail_configs hs]
    · simp at hs
  | dial ok =>
    simp only [step] at hs
    split at hs
    · split at hs
      · obtain ⟨b, -, rfl⟩ := Option.map_eq_some_iff.mp hs
        simp
      · rw [fail_configs hs]; simp
    · simp at hs
  | assign =>
    simp only [step] at hs
    split at hs
    · obtain ⟨b, -, rfl⟩ := Option.map_eq_some_iff.mp hs
      simp
    · simp at hs
  | startup f =>
    simp only [step] at hs
    split at hs
    · split at hs
      · obtain ⟨b, -, rfl⟩ := Option.map_eq_some_iff.mp hs
        simp
      · obtain ⟨b, -, rfl⟩ := Option.map_eq_some_iff.mp hs
        simp
    · simp at hs

theorem answers_run {s s' : State} {acts : List Action} (hr : run (step parse) s acts = some s') :
    s.configs ⊆ s'.configs ∧ ∀ answer, .getConfig answer ∈ acts → answer ∈ s'.configs := by
  induction acts generalizing s with
  | nil => simp only [run, Option.some.injEq] at hr; subst hr; simp
  | cons a acts ih =>
    simp only [run] at hr
    cases hx : step parse s a with
    | none => rw [hx] at hr; simp at hr
    | some x =>
      rw [hx] at hr
      obtain ⟨h1, h2⟩ := ih hr
      have h3 := session_configs hx
      refine ⟨fun r hr => h1 (by rw [h3]; simp [hr]), fun answer ha => ?_⟩
      rcases List.mem_cons.mp ha with rfl | ha
      · exact h1 (by rw [h3]; simp)
      · exact h2 answer ha

end Gevulot.FullSession
