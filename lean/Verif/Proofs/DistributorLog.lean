import Verif.Spec.DistributorLog
import Verif.Props.Distributor

namespace Gevulot.DistributorLog

open DistributorModel (MonPC)
open DistributorLog.Spec (Story)

structure Inv (s : State) : Prop where
  base : DistributorModel.LockInv s.dist
  story : ∀ i, Story (s.log i) s.dist.panicked (s.dist.mon i)
  source : ∀ i, .sourceClosed ∈ s.log i → s.dist.sourceClosed = true ∧ s.dist.source = [] ∧ s.dist.closed = true

theorem inv_init (caps : Nat → Nat) : Inv (init caps) :=
  ⟨DistributorModel.lockInv_init caps, fun _ => rfl, fun _ h => by simp [init] at h⟩

theorem step_spec {s s' : State} {a : DistributorModel.Action} (hs : step s a = some s') :
    DistributorModel.step s.dist a = some s'.dist ∧ ∀ i, s'.log i = s.log i ++ lines s.dist s'.dist a i := by
  simp only [step, Option.map_eq_some_iff] at hs
  obtain ⟨d, h, rfl⟩ := hs
  exact ⟨h, fun _ => rfl⟩

set_option maxHeartbeats 2000000 in
theorem inv_step {s s' : State} {a : DistributorModel.Action} (h : Inv s) (hs : step s a = some s') : Inv s' := by
  obtain ⟨h1, h2⟩ := step_spec hs
  obtain ⟨b, st, so⟩ := h
  have b' := DistributorModel.lockInv_step b h1
  obtain ⟨d, l⟩ := s
  obtain ⟨d', l'⟩ := s'
  simp only at h1 h2 st so b b'
  have key : ∀ i, Story (l' i) d'.panicked (d'.mon i) ∧ (.sourceClosed ∈ l' i → d'.sourceClosed = true ∧ d'.source = [] ∧ d'.closed = true) := by
    intro i
    have si := st i
    have oi := so i
    rw [h2 i]
    have b3 := b.count
    have b4 := b.mons
    clear h2 st so hs b b'
    generalize l i = li at *
    dist_cases h1 <;> simp only [lines] <;> (cases hm : d.mon i) <;> rw [hm] at si <;> simp only [Story] at si <;> grind [upd_apply, Story]
  exact ⟨b', fun i => (key i).1, fun i => (key i).2⟩

theorem inv_of_reachable {caps : Nat → Nat} {s : State} (h : Reachable step (init caps) s) : Inv s :=
  h.invariant Inv (inv_init caps) fun _ _ _ hi hs => inv_step hi hs

end Gevulot.DistributorLog
