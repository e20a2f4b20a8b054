import Verif.Model.Event
import Verif.Proofs.Trans

namespace Gevulot.EventModel

/-- The call holds the mutex. -/
def PC.inside : PC → Bool
  | .recheck | .store | .close | .storeDone | .unlock _ => true
  | _ => false

structure Inv (s : State) : Prop where
  noPanic : s.panicked = false
  mutexHeld : ∀ i, s.mutex = some i ↔ (s.pc i).inside = true
  running : ∀ i, s.pc i = .store ∨ s.pc i = .close ∨ s.pc i = .storeDone → s.onceDone = false
  firedIff : s.fired = true ↔ s.onceDone = true ∨ ∃ i, s.pc i = .close ∨ s.pc i = .storeDone
  closedIff : s.doneClosed = true ↔ s.onceDone = true ∨ ∃ i, s.pc i = .storeDone
  loser : ∀ i, s.pc i = .unlock false ∨ s.pc i = .returned false → s.onceDone = true
  winner : ∀ i, s.pc i = .unlock true ∨ s.pc i = .returned true → s.onceDone = true
  unique : ∀ i j, (s.pc i = .unlock true ∨ s.pc i = .returned true) → (s.pc j = .unlock true ∨ s.pc j = .returned true) →
    i = j
  exists_winner : s.onceDone = true → ∃ i, s.pc i = .unlock true ∨ s.pc i = .returned true

theorem inv_init : Inv init := by
  constructor <;> simp [init, PC.inside]

theorem inv_step {s s' : State} {i : Nat} (h : Inv s) (hs : step s i = some s') : Inv s' := by
  obtain ⟨h1, h2, h3, h4, h5, h6, h7, h8, h9⟩ := h
  unfold step at hs
  rw [if_neg (by simp [h1])] at hs
  have hi := h2 i
  have h3i := h3 i
  cases hp : s.pc i <;> simp only [hp] at hs <;> (try split at hs) <;>
    simp only [Option.some.injEq, reduceCtorEq] at hs <;> subst hs
  all_goals constructor <;> simp only [upd_apply]
  all_goals grind [PC.inside]

end Gevulot.EventModel
