import Verif.Proofs.ProcessUse

/-!
# Putting the parts together does not keep any of them from going on
-/

namespace Gevulot.Process

open ServerModel (Tid PC)
open DistributorModel (ChanId)

variable {parse : Bytes → Option ConnectionParams} {bytes : Nat → Bytes} {path : Option Nat} {text : Nat → CliModel.Text}

theorem free_cli {s : State} (h : Reachable (step parse bytes) (init path text) s) (ho : s.over = false) {a : CliModel.Action} (ha : a ≠ .recv)
    (hs : (CliModel.step s.cli a).isSome) : (step parse bytes s (.cli a)).isSome := by
  have hl := (linked_of_reachable h).link
  have hp : ∀ c, (also DistributorModel.step s.dist (some (.produce (encode c)))).isSome := by
    intro c; simp [also, DistributorModel.step, hl.distUp]
  cases hx : planCli s a with
  | none =>
    unfold planCli at hx
    split at hx <;> first | exact absurd rfl ha | (split at hx <;> simp at hx) | simp at hx
  | some p =>
    have h1 : p.cli = some a ∧ (p.dist = none ∨ ∃ c, p.dist = some (.produce (encode c))) ∧ p.sys = none := by
      unfold planCli at hx
      split at hx
      · split at hx <;> simp only [Option.some.injEq] at hx <;> subst hx <;> simp
      · split at hx <;> simp only [Option.some.injEq] at hx <;> subst hx <;> simp
      · simp at hx
      · simp only [Option.some.injEq] at hx; subst hx; simp
    refine step_isSome (p := p) ho hx (by rw [h1.1]; exact hs) ?_ (by rw [h1.2.2]; rfl)
    rcases h1.2.1 with h2 | ⟨c, h2⟩ <;> rw [h2]
    · rfl
    · exact hp c

theorem free_notify {s : State} (h : Reachable (step parse bytes) (init path text) s) (ho : s.over = false) {i n : Nat}
    (hs : (DistributorModel.step s.dist (.monNotify i (.user n))).isSome) : (step parse bytes s (.dist (.monNotify i (.user n)))).isSome := by
  have hl := (linked_of_reachable h).link
  have hid := (DistributorModel.inv_of_reachable (parts_reachable h).2.1).lock
  obtain ⟨o1, o2, o3⟩ := over_false ho
  cases hm : s.dist.mon i with
  | notifying old new rem =>
    obtain ⟨rfl, hst⟩ := mon_zero hid (i := i) (by rw [hm]; simp)
    have hsub : s.sys.server.subscribed = true := by
      cases hx : s.sys.server.subscribed with
      | true => rfl
      | false => rw [(hl.before hx).2.1] at hst; simp at hst
    have hmem : ChanId.user n ∈ rem := by
      simp only [DistributorModel.step, o2, hm] at hs
      simp at hs
      split at hs
      · assumption
      · simp at hs
    obtain ⟨a1, a2, -⟩ := hl.after hsub
    have hn : n = 0 := by
      have := (hid.remaining 0 _ _ _ hm).1 _ hmem
      rw [a1] at this
      simpa using this
    subst hn
    obtain ⟨buf, hbuf, hup⟩ := hl.chan
    refine step_isSome (p := { dist := some (.monNotify 0 (.user 0)), sys := some (.server (.config (decode new).listen)), main := s.main }) ho (by simp [plan, planDist, hm]) rfl hs ?_
    refine sys_isSome (parse := parse) o3 rfl ?_
    have hcur : s.sys.server.current = old.map fun n => (decode n).listen := by
      rw [hl.current, shown, hm]
      cases rem with
      | nil => simp at hmem
      | cons x xs => rfl
    have hchg : ServerModel.addressChanged s.sys.server.current (decode new).listen = listenChanged old new := by
      rw [hcur]
      cases old <;> simp [ServerModel.addressChanged, listenChanged]
    simp only [DistributorModel.step, o2, hm, DistributorModel.send, hbuf, hmem, a2, DistributorModel.shouldSend] at hs
    simp only [ServerModel.step, hl.up, hup, hsub, hchg]
    cases hc : listenChanged old new <;> simp [hc] at hs ⊢
    cases buf <;> simp at hs ⊢
  | _ => simp [DistributorModel.step, hm] at hs

theorem free_dist {s : State} (h : Reachable (step parse bytes) (init path text) s) (ho : s.over = false) {a : DistributorModel.Action}
    (hp : (planDist s a).isSome) (hs : (DistributorModel.step s.dist a).isSome) : (step parse bytes s (.dist a)).isSome := by
  have hl := linked_of_reachable h
  have hlk := hl.link
  have hid := (DistributorModel.inv_of_reachable (parts_reachable h).2.1).lock
  obtain ⟨o1, o2, o3⟩ := over_false ho
  have alone : planDist s a = some { dist := some a, main := s.main } → (step parse bytes s (.dist a)).isSome := fun hx =>
    step_isSome (p := { dist := some a, main := s.main }) ho hx rfl hs rfl
  cases a with
  | thread t =>
    rcases dist_thread hlk t with ⟨rfl, ht⟩ | ⟨-, ht⟩
    · rcases ht with ⟨-, hx⟩ | ⟨-, hx, hy | hy | hy⟩ | ⟨-, hx⟩
      · simp [DistributorModel.step, hx] at hs
      · exact alone (by simp [planDist, hy, hlk.distUp])
      · exact alone (by simp [planDist, hy])
      · refine step_isSome (p := { dist := some (.thread 0), sys := some (.server (.thread (.user 0))), main := s.main }) ho (by simp [plan, planDist, hy]) rfl hs ?_
        refine sys_isSome (parse := parse) o3 (allows_thread hl (parts_reachable h).2.2 _) ?_
        simp [ServerModel.step, hlk.up, hx]
      · simp [DistributorModel.step, hx] at hs
    · rcases ht with hx | hx | hx | ⟨y, hx⟩
      · simp [DistributorModel.step, hx] at hs
      · exact alone (by simp [planDist, hx])
      · exact alone (by simp [planDist, hx])
      · simp [DistributorModel.step, hx] at hs
  | monTake i =>
    cases hx : s.dist.source with
    | nil =>
      simp only [DistributorModel.step, o2, hx, hlk.distUp] at hs
      cases hm : s.dist.mon i <;> simp [hm] at hs
    | cons x xs =>
      refine step_isSome (p := { cli := some .recv, dist := some (.monTake i), main := s.main }) ho (by simp [plan, planDist, hx]) ?_ hs rfl
      have := hlk.source
      rw [hx] at this
      cases hc : s.cli.chan with
      | nil => rw [hc] at this; simp at this
      | cons c cs => simp [also, CliModel.step, hc]
  | monNotify i ch =>
    cases ch with
    | user n => exact free_notify h ho hs
    | getter t => exact alone rfl
  | cancel t => exact alone rfl
  | monDone i => exact alone rfl
  | monLock i => exact alone rfl
  | _ => simp [planDist] at hp

theorem free_sys {s : State} (h : Reachable (step parse bytes) (init path text) s) (ho : s.over = false) {a : System.Action}
    (hp : (planSys s a).isSome) (hs : (System.step parse s.sys a).isSome) : (step parse bytes s (.sys a)).isSome := by
  have hlk := (linked_of_reachable h).link
  obtain ⟨o1, o2, o3⟩ := over_false ho
  cases hx : planSys s a with
  | none => rw [hx] at hp; simp at hp
  | some p =>
    have h1 : p.sys = some a ∧ p.cli = none ∧ (p.dist = none ∨ p.dist = some (.userRecv 0) ∨ p.dist = some (.userClose 0)) := by
      unfold planSys at hx
      split at hx
      case h_1 => split at hx <;> simp at hx; subst hx; simp
      all_goals simp only [Option.some.injEq, reduceCtorEq] at hx
      all_goals subst hx; simp
    refine step_isSome (p := p) ho hx (by rw [h1.2.1]; rfl) ?_ (by rw [h1.1]; exact hs)
    obtain ⟨buf, hbuf, -⟩ := hlk.chan
    rcases h1.2.2 with h2 | h2 | h2 <;> rw [h2]
    · rfl
    · simp only [also, DistributorModel.step, o2, hbuf]
      cases buf <;> simp
    · simp [also, DistributorModel.step, o2, hbuf]

end Gevulot.Process
