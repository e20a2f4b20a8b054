import Verif.Proofs.WaitGroup

/-!
The server with its wait group comes to rest, and no wake-up is lost.
-/

namespace Gevulot

theorem sumTo_le {f g : Nat → Nat} {n : Nat} (h : ∀ m, m < n → g m ≤ f m) : sumTo g n ≤ sumTo f n := by
  induction n with
  | zero => exact Nat.le_refl _
  | succ n ih => simp only [sumTo]; have := ih fun m hm => h m (by omega); have := h n (by omega); omega

theorem sumTo_le_one {f g : Nat → Nat} {k n d : Nat} (h : ∀ m, m ≠ k → g m ≤ f m) (hk : g k ≤ f k + d) : sumTo g n ≤ sumTo f n + d := by
  induction n with
  | zero => simp [sumTo]
  | succ n ih =>
    simp only [sumTo]
    by_cases hx : n = k
    · subst hx
      have := sumTo_le (f := f) (g := g) (n := n) fun m hm => h m (by omega)
      omega
    · have := h n hx
      omega

namespace ServerModel

theorem total_le_one {f g : Tid → Nat} {m n d : Nat} {t : Tid} (h : ∀ u, u ≠ t → g u ≤ f u) (ht : g t ≤ f t + d) : total g m n ≤ total f m n + d := by
  unfold total
  cases t with
  | user k =>
    have h1 := sumTo_le_one (f := fun k => f (.user k)) (g := fun k => g (.user k)) (n := m) (k := k) (fun x hx => h _ (by simp [hx])) ht
    have h2 := sumTo_le (f := fun k => f (.go k)) (g := fun k => g (.go k)) (n := n) (fun x _ => h _ (by simp))
    omega
  | go k =>
    have h1 := sumTo_le_one (f := fun k => f (.go k)) (g := fun k => g (.go k)) (n := n) (k := k) (fun x hx => h _ (by simp [hx])) ht
    have h2 := sumTo_le (f := fun k => f (.user k)) (g := fun k => g (.user k)) (n := m) (fun x _ => h _ (by simp))
    omega

theorem total_lt_one {f g : Tid → Nat} {m n : Nat} {t : Tid} (hb : t.below m n) (h : ∀ u, u ≠ t → g u ≤ f u) (ht : g t < f t) : total g m n < total f m n := by
  have h1 := total_change (f := f) (g := upd f t (g t)) hb (fun u hu => upd_other _ _ hu)
  rw [upd_same] at h1
  have h2 := total_le_one (f := upd f t (g t)) (g := g) (m := m) (n := n) (d := 0) (t := t) (fun u hu => by rw [upd_other _ _ hu]; exact h u hu) (by simp)
  omega

end ServerModel

namespace WaitGroup

open ServerModel (Tid PC)

/-- What a thread still can do in the wait group, before the server does something. -/
def ww (s : State) (t : Tid) : Nat :=
  match s.wpc t with
  | .idle => if (s.server.pc t).waiting then 6 else 0
  | .check _ => 4
  | .reset _ => 3
  | .release w => w + 1
  | .cas v w => if s.server.wg = v ∧ s.waiters = w then 5 else 7
  | .sleep => 4
  | .awake => 3

def weight (m : Nat) (s : State) : Nat :=
  10 * ServerModel.weight m s.server + ServerModel.total (ww s) m s.server.spawned + (if s.panic = none then 1 else 0)

theorem total_srv {m : Nat} {s s' : State} {t : Tid}
    (hn : s'.server.spawned = s.server.spawned ∨ (s'.server.spawned = s.server.spawned + 1 ∧ ww s' (.go s.server.spawned) = 0))
    (h : ∀ u, u ≠ t → ww s' u ≤ ww s u) (ht : ww s' t ≤ ww s t + 7) :
    ServerModel.total (ww s') m s'.server.spawned ≤ ServerModel.total (ww s) m s.server.spawned + 7 := by
  have h1 := ServerModel.total_le_one (m := m) (n := s.server.spawned) h ht
  rcases hn with hn | ⟨hn, h0⟩ <;> rw [hn]
  · exact h1
  · rw [ServerModel.total_succ, h0]; exact h1

/-- A step of the server that leaves the threads in the wait group where they are. -/
theorem total_keep {m : Nat} {s s' : State} (hi' : ServerModel.Inv s'.server) (he : s'.wpc = s.wpc)
    (hw : ∀ u, (s.wpc u).waits = true → (s'.server.pc u).waiting = true)
    (hn : s'.server.spawned = s.server.spawned ∨ (s'.server.spawned = s.server.spawned + 1 ∧ ww s' (.go s.server.spawned) = 0)) :
    ServerModel.total (ww s') m s'.server.spawned ≤ ServerModel.total (ww s) m s.server.spawned + 7 := by
  have key : ∃ t, ∀ u, (s'.server.pc u).waiting = true → u = t := by
    by_cases hx : ∃ t, (s'.server.pc t).waiting = true
    · obtain ⟨t, ht⟩ := hx
      exact ⟨t, fun u hu => waiting_one hi' hu ht⟩
    · exact ⟨.user 0, fun u hu => absurd ⟨u, hu⟩ hx⟩
  obtain ⟨t, ht⟩ := key
  refine total_srv (t := t) hn (fun u hu => ?_) ?_
  · have h1 := mt (ht u) hu
    unfold ww
    rw [he]
    cases hp : s.wpc u <;> simp only <;> try exact Nat.le_refl _
    · simp [h1]
    · exact absurd (hw u (by rw [hp]; rfl)) h1
  · unfold ww
    rw [he]
    cases hp : s.wpc t <;> simp only <;> (try split) <;> (try split) <;> omega

theorem wpc_fresh {s : State} (hi : ServerModel.GoInv s.server) (h : WInv s) : s.wpc (.go s.server.spawned) = .idle := by
  have hf := (hi.fresh s.server.spawned).mpr (Nat.le_refl _)
  refine Decidable.byContradiction fun hx => ?_
  by_cases hw : (s.wpc (.go s.server.spawned)).waits = true
  · have := h.waits _ hw; rw [hf] at this; simp [PC.waiting] at this
  · have := h.gone _ hx (by simpa using hw); rw [hf] at this; simp at this

theorem no_cas {s : State} (h : WInv s) (hw : s.waiters ≠ 0) (u : Tid) (v w : Nat) : s.wpc u ≠ .cas v w := by
  have h3 := h.phase
  generalize s.server.wg = v at h3
  generalize s.sema = m at h3
  generalize s.waiters = w at h3 hw
  generalize s.wpc = p at h3
  cases h3 <;> grind [WPC.waits]

theorem reset_phase {s : State} (h : WInv s) {t : Tid} {w : Nat} (ht : s.wpc t = .reset w) : s.server.wg = 0 ∧ s.waiters = 1 ∧ w = 1 := by
  have h3 := h.phase
  generalize s.server.wg = v at h3
  generalize s.sema = m at h3
  generalize s.waiters = w at h3
  generalize s.wpc = p at h3 ht
  cases h3 <;> grind [WPC.frees]

theorem weight_step {c : Option ServerModel.Addr} {m : Nat} {s s' : State} {a : Action} (h : Good c s) (hm : ServerModel.Callers m s.server)
    (ha : a.own = true) (hs : step s a = some s') : weight m s' < weight m s := by
  have hiI := ServerModel.inv_of_reachable h.server
  have hiI' := ServerModel.inv_of_reachable (good_step h hs).server
  have hi := hiI.go
  obtain ⟨ho, htr⟩ := step_tr hs
  have hw := h.inv ho.1
  have hbelow : ∀ t, s.wpc t ≠ .idle → t.below m s.server.spawned := by
    intro t ht
    refine ServerModel.below_of_pc hi hm fun hp => ?_
    by_cases hx : (s.wpc t).waits = true
    · have := hw.waits t hx; rw [hp] at this; simp [PC.waiting] at this
    · have := hw.gone t ht (by simpa using hx); rw [hp] at this; simp at this
  have hone : ∀ u t, (s.wpc u).waits = true → (s.server.pc t).waiting = true → u = t := fun u t hu ht => waiting_one hiI (hw.waits u hu) ht
  have hfr := wpc_fresh hi hw
  have hpan : ∀ p : Option Panic, (if p = none then 1 else 0 : Nat) ≤ 1 := by intro p; split <;> omega
  clear hs
  unfold weight
  rw [show (if s.panic = none then 1 else 0 : Nat) = 1 by rw [ho.1]; rfl]
  cases htr
  case other a srv hb hk =>
    obtain ⟨k1, k2, k3⟩ := ServerModel.kind_other hi hk hb
    have h1 := ServerModel.weight_step hi hm ha hb
    have h2 := total_keep (m := m) (s := s) (s' := { s with server := srv }) hiI' rfl (fun u hu => (k3 u).1 (hw.waits u hu)) (.inl k2)
    have := hpan s.panic
    simp only at h2 ⊢
    omega
  case add t srv hidle hadd hb hok =>
    obtain ⟨k1, k2, k3⟩ := ServerModel.kind_add hi hadd hb
    have h1 := ServerModel.weight_step (a := .thread t) hi hm rfl hb
    have hf := (hi.fresh s.server.spawned).mpr (Nat.le_refl _)
    have h2 := total_keep (m := m) (s := s) (s' := { s with server := srv }) hiI' rfl (fun u hu => (k3 u).1 ▸ hw.waits u hu)
      (.inr ⟨k2, by
        have hz := (k3 (.go s.server.spawned)).1
        rw [hf] at hz
        simp only [ww, hfr, hz]; rfl⟩)
    have := hpan s.panic
    simp only at h2 ⊢
    omega
  case misuse t srv hidle hadd hb hok hv =>
    obtain ⟨k1, k2, k3⟩ := ServerModel.kind_add hi hadd hb
    have h1 := ServerModel.weight_step (a := .thread t) hi hm rfl hb
    have hf := (hi.fresh s.server.spawned).mpr (Nat.le_refl _)
    have h2 := total_keep (m := m) (s := s) (s' := { s with server := srv, panic := some .misuse }) hiI' rfl (fun u hu => (k3 u).1 ▸ hw.waits u hu)
      (.inr ⟨k2, by
        have hz := (k3 (.go s.server.spawned)).1
        rw [hf] at hz
        simp only [ww, hfr, hz]; rfl⟩)
    simp only [reduceCtorEq, if_false] at h2 ⊢
    omega
  case done t srv hidle hend hb hn hok =>
    obtain ⟨k1, k4, k2, k3⟩ := ServerModel.kind_done hi hend hb
    have h1 := ServerModel.weight_step (a := .thread t) hi hm rfl hb
    have h2 := total_keep (m := m) (s := s) (s' := { s with server := srv }) hiI' rfl (fun u hu => (k3 u).1 ▸ hw.waits u hu) (.inl k2)
    have := hpan s.panic
    simp only at h2 ⊢
    omega
  case pass t r srv hidle hp hv hb =>
    obtain ⟨k1, r', k2, k3⟩ := ServerModel.kind_close hi (by rw [hp]; rfl) hb
    have h1 := ServerModel.weight_step (a := .thread t) hi hm rfl hb
    have h2 := total_keep (m := m) (s := s) (s' := { s with server := srv }) hiI' rfl (fun u hu => by
      have := hone u t hu (by rw [hp]; rfl)
      subst this; rw [hidle] at hu; simp [WPC.waits] at hu) (.inl (by rw [k3]))
    have := hpan s.panic
    simp only at h2 ⊢
    omega
  case last t srv hidle hend hb hn hv hw' =>
    obtain ⟨k1, k4, k2, k3⟩ := ServerModel.kind_done hi hend hb
    have h1 := ServerModel.weight_step (a := .thread t) hi hm rfl hb
    have h2 := total_srv (m := m) (t := t) (s := s) (s' := { s with server := srv, wpc := upd s.wpc t (.check s.waiters) }) (.inl k2)
      (fun u hu => by
        simp only [ww, upd_other _ _ hu]
        cases hp : s.wpc u <;> simp only <;> try exact Nat.le_refl _
        · rw [(k3 u).1]; exact Nat.le_refl _
        · exact absurd hp (no_cas hw hw' u _ _))
      (by simp [ww])
    have := hpan s.panic
    simp only at h2 ⊢
    omega
  case «return» t srv hidle hv hw' hb =>
    obtain ⟨k1, r', k2, k3⟩ := ServerModel.kind_close hi (hw.waits t (by rw [hidle]; rfl)) hb
    have h1 := ServerModel.weight_step (a := .thread t) hi hm rfl hb
    have h2 := total_srv (m := m) (t := t) (s := s) (s' := { s with server := srv, wpc := upd s.wpc t .idle }) (.inl (by rw [k3]))
      (fun u hu => by
        simp only [ww, upd_other _ _ hu, k3]
        exact Nat.le_refl _)
      (by simp only [ww, upd_same]; split <;> omega)
    have := hpan s.panic
    simp only at h2 ⊢
    omega
  case negative t hend hn => have := ending_pos hi hend; omega
  case unchecked t w hidle hn => exact absurd (check_phase hw hidle) hn
  case reused t hidle hn =>
    simp only [reduceCtorEq, if_false]
    have : ServerModel.total (ww { s with panic := some .reused }) m s.server.spawned = ServerModel.total (ww s) m s.server.spawned :=
      ServerModel.total_congr fun _ => rfl
    omega
  case load t r hidle hp hv =>
    have h2 := ServerModel.total_lt_one (m := m) (n := s.server.spawned) (t := t) (f := ww s) (g := ww { s with wpc := upd s.wpc t (.cas s.server.wg s.waiters) })
      (ServerModel.below_of_pc hi hm (by rw [hp]; simp)) (fun u hu => by simp only [ww, upd_other _ _ hu]; exact Nat.le_refl _)
      (by simp [ww, hidle, hp, PC.waiting])
    have := hpan s.panic
    simp only
    omega
  case checked t w hidle hv hw' =>
    have h2 := ServerModel.total_lt_one (m := m) (n := s.server.spawned) (t := t) (f := ww s) (g := ww { s with wpc := upd s.wpc t (.reset w) })
      (hbelow t (by rw [hidle]; simp)) (fun u hu => by simp only [ww, upd_other _ _ hu]; exact Nat.le_refl _) (by simp [ww, hidle])
    have := hpan s.panic
    simp only
    omega
  case reset t w hidle =>
    obtain ⟨r1, r2, rfl⟩ := reset_phase hw hidle
    have h2 := ServerModel.total_lt_one (m := m) (n := s.server.spawned) (t := t) (f := ww s)
      (g := ww { s with server := { s.server with wg := 0 }, waiters := 0, wpc := upd s.wpc t (.release 1) })
      (hbelow t (by rw [hidle]; simp)) (fun u hu => by
        simp only [ww, upd_other _ _ hu]
        cases hp : s.wpc u <;> simp only <;> try exact Nat.le_refl _
        exact absurd hp (no_cas hw (by omega) u _ _)) (by simp [ww, hidle])
    have h3 : ServerModel.weight m { s.server with wg := 0 } = ServerModel.weight m s.server := rfl
    have := hpan s.panic
    simp only at h2 h3 ⊢
    omega
  case released t hidle =>
    have h2 := ServerModel.total_lt_one (m := m) (n := s.server.spawned) (t := t) (f := ww s) (g := ww { s with wpc := upd s.wpc t .idle })
      (hbelow t (by rw [hidle]; simp)) (fun u hu => by simp only [ww, upd_other _ _ hu]; exact Nat.le_refl _)
      (by simp [ww, hidle, hw.gone t (by rw [hidle]; simp) (by rw [hidle]; rfl), PC.waiting])
    have := hpan s.panic
    simp only
    omega
  case release t w hidle =>
    have h2 := ServerModel.total_lt_one (m := m) (n := s.server.spawned) (t := t) (f := ww s) (g := ww { s with sema := s.sema + 1, wpc := upd s.wpc t (.release w) })
      (hbelow t (by rw [hidle]; simp)) (fun u hu => by simp only [ww, upd_other _ _ hu]; exact Nat.le_refl _) (by simp [ww, hidle])
    have := hpan s.panic
    simp only
    omega
  case cas t v w hidle hv hw' =>
    have h2 := ServerModel.total_lt_one (m := m) (n := s.server.spawned) (t := t) (f := ww s) (g := ww { s with waiters := w + 1, wpc := upd s.wpc t .sleep })
      (hbelow t (by rw [hidle]; simp)) (fun u hu => by
        simp only [ww, upd_other _ _ hu]
        cases hp : s.wpc u <;> simp only <;> try exact Nat.le_refl _
        exact absurd (hone u t (by rw [hp]; rfl) (hw.waits t (by rw [hidle]; rfl))) hu) (by simp [ww, hidle, hv, hw'])
    have := hpan s.panic
    simp only
    omega
  case again t v w hidle hn =>
    have h2 := ServerModel.total_lt_one (m := m) (n := s.server.spawned) (t := t) (f := ww s) (g := ww { s with wpc := upd s.wpc t .idle })
      (hbelow t (by rw [hidle]; simp)) (fun u hu => by simp only [ww, upd_other _ _ hu]; exact Nat.le_refl _)
      (by simp [ww, hidle, hn]; split <;> omega)
    have := hpan s.panic
    simp only
    omega
  case wake t hidle hs =>
    have h2 := ServerModel.total_lt_one (m := m) (n := s.server.spawned) (t := t) (f := ww s) (g := ww { s with sema := s.sema - 1, wpc := upd s.wpc t .awake })
      (hbelow t (by rw [hidle]; simp)) (fun u hu => by simp only [ww, upd_other _ _ hu]; exact Nat.le_refl _) (by simp [ww, hidle])
    have := hpan s.panic
    simp only
    omega

theorem callers_step {m : Nat} {s s' : State} {a : Action} (ha : a.own = true) (hm : ServerModel.Callers m s.server) (hs : step s a = some s') :
    ServerModel.Callers m s'.server := by
  obtain ⟨-, htr⟩ := step_tr hs
  cases htr <;> first
    | exact hm
    | exact ServerModel.callers_step ha hm ‹_›
    | exact ServerModel.callers_step (a := .thread _) rfl hm ‹_›

/-- The steps of the server and its wait group are finitely many. -/
theorem finite {c : Option ServerModel.Addr} {s : State} (h : Reachable step (init c) s) : ∃ n, ∀ acts s', (∀ a ∈ acts, a.own = true) →
    run step s acts = some s' → acts.length ≤ n := by
  have hg := good_of_reachable h
  obtain ⟨m, hm⟩ := ServerModel.callers_of_reachable hg.server
  refine ⟨weight m s, fun acts s' ha hr => ?_⟩
  have := run_measure (fun a => a.own = true) (weight m) (fun x => Good c x ∧ ServerModel.Callers m x.server) ⟨hg, hm⟩
    (fun _ _ _ ha h hs => ⟨good_step h.1 hs, callers_step ha h.2 hs⟩)
    (fun _ _ _ ha h hs => by have := weight_step h.1 h.2 ha hs; omega) ha hr
  omega

/-! ### At rest -/

/-- A waiter that sleeps while nothing else is going on in the wait group sleeps because goroutines are running. -/
theorem sleep_rest {s : State} (h : WInv s) (ho : s.over = false) (hr : ∀ t, step s (.wg t) = none) {t : Tid} (ht : s.wpc t ≠ .idle) :
    s.wpc t = .sleep ∧ s.server.wg ≠ 0 := by
  have h1 : ∀ u, s.wpc u ≠ .idle → s.wpc u = .sleep ∧ s.sema = 0 ∨ s.wpc u = .awake ∧ s.server.wg = 0 ∧ ServerModel.step s.server (.thread u) = none := by
    intro u hu
    have := hr u
    simp only [step, ho, Bool.false_eq_true, if_false] at this
    split at this <;> (try split at this) <;> (try split at this) <;> simp_all
  have hd : ∀ u, (s.wpc u).frees = false := by
    intro u
    by_cases hx : s.wpc u = .idle
    · rw [hx]; rfl
    · rcases h1 u hx with h2 | h2 <;> rw [h2.1] <;> rfl
  have hno : ∀ u, s.wpc u ≠ .awake := by
    intro u hu
    rcases h1 u (by rw [hu]; simp) with h2 | h2
    · rw [hu] at h2; simp at h2
    have := h.waits u (by rw [hu]; rfl)
    obtain ⟨r, hp⟩ : ∃ r, s.server.pc u = .closeWait r := by cases hp : s.server.pc u <;> rw [hp] at this <;> simp [PC.waiting] at this ⊢
    simp only [State.over, Bool.or_eq_false_iff] at ho
    simp [ServerModel.step, ho, hp, h2.2.1] at h2
  have hs : s.wpc t = .sleep ∧ s.sema = 0 := by
    rcases h1 t ht with h2 | h2
    · exact h2
    · exact absurd h2.1 (hno t)
  refine ⟨hs.1, ?_⟩
  have h3 := h.phase
  clear hr h1
  revert hs
  generalize s.server.wg = v at h3 ⊢
  generalize s.sema = m at h3 ⊢
  generalize s.waiters = w at h3
  generalize s.wpc = p at *
  intro hs
  cases h3 with
  | waiting u hv => exact hv
  | _ => grind [WPC.waits, WPC.frees]

/-- When the wait group is at rest, so is the server, as it is modelled with a counter. -/
theorem rest_server {s : State} (hi : ServerModel.GoInv s.server) (h : WInv s) (ho : s.over = false) (hr : AtRest s) : ServerModel.AtRest s.server := by
  intro a ha
  have hwg : ∀ t, step s (.wg t) = none := fun t => hr _ rfl
  have hra := hr (.server a) ha
  cases hs : ServerModel.step s.server a with
  | none => rfl
  | some srv =>
    exfalso
    cases a with
    | thread t =>
      simp only [step, ho, Bool.false_eq_true, if_false, hs] at hra
      by_cases hx : s.wpc t = .idle
      · simp only [hx, ne_eq, not_true_eq_false, if_false] at hra
        split at hra <;> simp_all
      · obtain ⟨h1, h2⟩ := sleep_rest h ho hwg hx
        obtain ⟨h3, -⟩ := ServerModel.kind_close hi (h.waits t (by rw [h1]; rfl)) hs
        exact h2 h3
    | _ => simp only [step, ho, Bool.false_eq_true, if_false, hs] at hra; simp at hra

/-! ### Without `Close` -/

theorem close_waits {c : Option ServerModel.Addr} {s : State} (h : Good c s) (hp : s.panic = none) {t : Tid} (ht : (s.wpc t).waits = true) :
    s.server.op t = some .close := by
  have := (h.inv hp).waits t ht
  have hf := (ServerModel.inv_of_reachable h.server).fit t
  obtain ⟨r, hr⟩ : ∃ r, s.server.pc t = .closeWait r := by cases hp : s.server.pc t <;> rw [hp] at this <;> simp [PC.waiting] at this ⊢
  rw [hr] at hf
  cases hop : s.server.op t with
  | none => rw [hop] at hf; simp [ServerModel.PC.fits] at hf
  | some o => cases o <;> rw [hop] at hf <;> simp [ServerModel.PC.fits] at hf ⊢

/-- What a thread has been called for stays. -/
theorem op_keep {s s' : ServerModel.State} {a : ServerModel.Action} (hi : ServerModel.GoInv s) (hs : ServerModel.step s a = some s') {t : Tid} {o : ServerModel.Op}
    (ht : s.op t = some o) : s'.op t = some o := by
  have h1 := hi.opIdle
  have h2 := (hi.fresh s.spawned).mpr (Nat.le_refl _)
  clear hi
  server_cases hs <;> grind [upd_apply]

theorem panic_close {c : Option ServerModel.Addr} {s : State} (h : Reachable step (init c) s) (hp : s.panic ≠ none) : ∃ t, s.server.op t = some .close := by
  refine (h.invariant (fun s => Good c s ∧ (s.panic ≠ none → ∃ t, s.server.op t = some .close)) ⟨⟨.refl _, fun _ => winv_init c⟩, by simp [init]⟩ ?_).2 hp
  rintro s a s' ⟨hg, -⟩ hs
  refine ⟨good_step hg hs, fun hp => ?_⟩
  have ho := (step_tr hs).1
  have hi := (ServerModel.inv_of_reachable hg.server).go
  have key : ∃ t, s.server.op t = some .close := by
    rcases panic_step hg hs hp with ⟨-, n, -, -, -, -, u, hu⟩ | ⟨-, t, -, ht, -⟩
    · exact ⟨u, close_waits hg ho.1 (by rw [hu]; rfl)⟩
    · exact ⟨t, close_waits hg ho.1 (by rw [ht]; rfl)⟩
  obtain ⟨t, ht⟩ := key
  refine ⟨t, ?_⟩
  obtain ⟨-, htr⟩ := step_tr hs
  cases htr <;> first
    | exact ht
    | exact op_keep hi ‹_› ht

end WaitGroup
end Gevulot
