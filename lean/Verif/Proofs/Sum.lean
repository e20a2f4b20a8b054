/-!
Sums of natural numbers.
-/

namespace Gevulot

/-- `f 0 + … + f (n - 1)` -/
def sumTo (f : Nat → Nat) : Nat → Nat
  | 0 => 0
  | n + 1 => sumTo f n + f n

theorem sumTo_congr {f g : Nat → Nat} {n : Nat} (h : ∀ m, m < n → g m = f m) : sumTo g n = sumTo f n := by
  induction n with
  | zero => rfl
  | succ n ih => simp only [sumTo]; rw [ih fun m hm => h m (by omega), h n (by omega)]

theorem sumTo_change {f g : Nat → Nat} {k n : Nat} (hk : k < n) (h : ∀ m, m ≠ k → g m = f m) : sumTo g n + f k = sumTo f n + g k := by
  induction n with
  | zero => omega
  | succ n ih =>
    simp only [sumTo]
    by_cases hx : k = n
    · subst hx
      rw [sumTo_congr (f := f) (g := g) fun m hm => h m (by omega)]
      omega
    · have := ih (by omega)
      rw [h n (fun h => hx h.symm)]
      omega

end Gevulot
