import Verif.Proofs.ServerClose
import Verif.Proofs.Sum

/-!
The server comes to rest: its own steps are finitely many, and where its threads are when there are none left.
-/

namespace Gevulot

namespace ServerModel

/-- The sum over the threads: callers below `m`, goroutines below `n`. -/
def total (f : Tid → Nat) (m n : Nat) : Nat := sumTo (fun k => f (.user k)) m + sumTo (fun k => f (.go k)) n

/-- The thread is one of those. -/
def Tid.below (m n : Nat) : Tid → Prop
  | .user k => k < m
  | .go k => k < n

theorem total_congr {f g : Tid → Nat} {m n : Nat} (h : ∀ t, g t = f t) : total g m n = total f m n := by
  rw [show g = f from funext h]

theorem total_change {f g : Tid → Nat} {m n : Nat} {t : Tid} (ht : t.below m n) (h : ∀ u, u ≠ t → g u = f u) :
    total g m n + f t = total f m n + g t := by
  unfold total
  cases t with
  | user k =>
    have h1 := sumTo_change (f := fun k => f (.user k)) (g := fun k => g (.user k)) (k := k) (n := m) ht (fun x hx => h _ (by simp [hx]))
    have h2 := sumTo_congr (f := fun k => f (.go k)) (g := fun k => g (.go k)) (n := n) (fun x _ => h _ (by simp))
    omega
  | go k =>
    have h1 := sumTo_change (f := fun k => f (.go k)) (g := fun k => g (.go k)) (k := k) (n := n) ht (fun x hx => h _ (by simp [hx]))
    have h2 := sumTo_congr (f := fun k => f (.user k)) (g := fun k => g (.user k)) (n := m) (fun x _ => h _ (by simp))
    omega

theorem total_succ (f : Tid → Nat) (m n : Nat) : total f m (n + 1) = total f m n + f (.go n) := by
  simp only [total, sumTo]; omega

/-- At most this many steps of its own can a thread make, or cause others to make. -/
def PC.weight : PC → Nat
  | .idle => 0
  | .startCheck => 16
  | .startFire => 15
  | .startSubscribe => 14
  | .startLoop => 2
  | .startListen _ => 9
  | .startDo _ => 8
  | .serveCheck _ => 4
  | .serveLock _ => 3
  | .serveAccept _ => 2
  | .serveDo _ _ => 10
  | .connCheck => 7
  | .connRegCheck => 6
  | .connRegLock => 5
  | .connRun => 3
  | .connRemove _ => 2
  | .closeFire => 4
  | .closeLock => 3
  | .closeWait _ => 2
  | .returned _ => 1
  | .done => 0

/-- All callers are below `m`. -/
def Callers (m : Nat) (s : State) : Prop := ∀ n, m ≤ n → s.pc (.user n) = .idle

def weight (m : Nat) (s : State) : Nat :=
  total (fun t => (s.pc t).weight) m s.spawned + 10 * s.updates.length + s.sessions.length

theorem below_of_pc {m : Nat} {s : State} (hi : GoInv s) (hm : Callers m s) {t : Tid} (ht : s.pc t ≠ .idle) : t.below m s.spawned := by
  cases t with
  | user n => exact Nat.lt_of_not_le fun h => ht (hm n h)
  | go n =>
    refine Nat.lt_of_not_le fun h => ht ?_
    exact (hi.fresh n).mpr h

theorem callers_step {m : Nat} {s s' : State} {a : Action} (ha : a.own = true) (hm : Callers m s) (hs : step s a = some s') : Callers m s' := by
  unfold Callers at *
  server_cases hs <;> simp [Action.own, Action.inner] at ha <;> grind [upd_apply]

/-- What `Close` takes from the list of sessions when it gets the lock. -/
def swept (s : State) : Action → Nat
  | .thread t => if s.pc t = .closeLock then s.sessions.length else 0
  | _ => 0

theorem pc_change {m : Nat} {s : State} (hi : GoInv s) (hm : Callers m s) {t : Tid} (p : PC) (ht : s.pc t ≠ .idle) :
    total (fun u => (upd s.pc t p u).weight) m s.spawned + (s.pc t).weight = total (fun u => (s.pc u).weight) m s.spawned + p.weight := by
  have := total_change (f := fun u => (s.pc u).weight) (g := fun u => (upd s.pc t p u).weight) (below_of_pc hi hm ht)
    (fun u hu => by rw [upd_other _ _ hu])
  simpa using this

/-- The goroutine started is not among those there were. -/
theorem spawn_total {m : Nat} {s : State} {t : Tid} {p q : PC} :
    total (fun u => (upd (upd s.pc (.go s.spawned) p) t q u).weight) m s.spawned = total (fun u => (upd s.pc t q u).weight) m s.spawned := by
  unfold total
  rw [sumTo_congr (n := s.spawned) (f := fun k => (upd s.pc t q (.go k)).weight)]
  · rw [sumTo_congr (n := m) (f := fun k => (upd s.pc t q (.user k)).weight)]
    intro k _
    simp [upd_apply]
  · intro k hk
    simp only [upd_apply]
    split
    · rfl
    · rw [if_neg]
      simp; omega

theorem spawn_new {s : State} {t : Tid} {p q : PC} (hne : t ≠ .go s.spawned) : upd (upd s.pc (.go s.spawned) p) t q (.go s.spawned) = p := by
  rw [upd_other _ _ (fun h => hne h.symm), upd_same]

theorem lt_of_change {x y p q u u' l l' c : Nat} (h : x + q = y + p) (h' : p + u + l + c < q + u' + l') : x + u + l + c < y + u' + l' := by omega

theorem weight_step {m : Nat} {s s' : State} {a : Action} (hi : GoInv s) (hm : Callers m s) (ha : a.own = true) (hs : step s a = some s') :
    weight m s' + swept s a < weight m s := by
  have key := fun (t : Tid) (p : PC) (h : s.pc t ≠ .idle) => pc_change hi hm p h
  have key' : ∀ t p q, s.pc t = q → q ≠ .idle → total (fun u => (upd s.pc t p u).weight) m s.spawned + q.weight = total (fun u => (s.pc u).weight) m s.spawned + p.weight :=
    fun t p q h hq => by subst h; exact key t p hq
  have hfr := (hi.fresh s.spawned).mpr (Nat.le_refl _)
  obtain ⟨hnp, htr⟩ := step_tr hs
  unfold weight swept
  cases htr
  case startDo t ln h =>
    have h1 := key t .startLoop (by rw [h]; simp)
    simp only [h, reduceCtorEq, if_false]
    rw [total_succ, spawn_total, spawn_new (by rintro rfl; rw [h] at hfr; simp at hfr)]
    rw [h] at h1
    simp only [PC.weight] at h1 ⊢
    omega
  case serveDo t ln c h =>
    have h1 := key t (.serveAccept ln) (by rw [h]; simp)
    simp only [h, reduceCtorEq, if_false]
    rw [total_succ, spawn_total, spawn_new (by rintro rfl; rw [h] at hfr; simp at hfr)]
    rw [h] at h1
    simp only [PC.weight] at h1 ⊢
    omega
  case accept => simp [Action.own, Action.inner] at ha
  case acceptTemp t ln e h he => simp [Action.own, he] at ha
  case subOk t h hc =>
    have h1 := key t .startLoop (by rw [h]; simp)
    have h2 : s.current.toList.length ≤ 1 := by cases s.current <;> simp
    simp only [h, PC.weight, reduceCtorEq, if_false] at h1 ⊢
    omega
  case remove t r h =>
    have h1 := key t (.returned r) (by rw [h]; simp)
    have h2 := List.length_filter_le (fun x => decide (x ≠ t)) s.sessions
    simp only [h, PC.weight, reduceCtorEq, if_false] at h1 ⊢
    omega
  case takeConfig t a rest h hu =>
    have h1 := key t (.startListen a) (by rw [h]; simp)
    simp only [h, PC.weight] at h1 ⊢
    rw [hu]; simp only [List.length_cons]
    omega
  case call => simp [Action.own, Action.inner] at ha
  case watchdog => simp [Action.own, Action.inner] at ha
  case configPanic => simp [Action.own, Action.inner] at ha
  case configSend => simp [Action.own, Action.inner] at ha
  case configSame => simp [Action.own, Action.inner] at ha
  case closeConfig => simp [Action.own, Action.inner] at ha
  case userListen => simp [Action.own, Action.inner] at ha
  case userCloseListener => simp [Action.own, Action.inner] at ha
  case closeAll t h =>
    have h1 := key t (.closeWait (closeResult s)) (by rw [h]; simp)
    simp only [h, PC.weight, if_true, List.length_nil] at h1 ⊢
    omega
  all_goals
    clear hfr hi hm hs
    refine lt_of_change (key' _ _ _ ‹s.pc _ = _› (by simp)) ?_
    simp [‹s.pc _ = _›, PC.weight] <;> omega

theorem spawned_step {s s' : State} {a : Action} (hs : step s a = some s') : s'.spawned ≤ s.spawned + 1 := by
  server_cases hs <;> simp

theorem callers_of_reachable {c : Option Addr} {s : State} (h : Reachable step (init c) s) : ∃ m, Callers m s := by
  refine h.invariant (fun s => ∃ m, Callers m s) ⟨0, fun _ _ => rfl⟩ ?_
  rintro s a s' ⟨m, hm⟩ hs
  have hother : ∀ t : Tid, ∀ p n, m ≤ n → s.pc t ≠ .idle → upd s.pc t p (.user n) = .idle := by
    intro t p n hn ht
    rw [upd_other _ _ (by rintro rfl; exact ht (hm n hn))]
    exact hm n hn
  unfold Callers at *
  server_cases hs
  case call k op h he =>
    refine ⟨max m (k + 1), fun n hn => ?_⟩
    show upd s.pc _ _ _ = _
    rw [upd_other _ _ (by simp; omega)]
    exact hm n (by omega)
  all_goals refine ⟨m, fun n hn => ?_⟩
  all_goals first
    | exact hm n hn
    | exact hother _ _ n hn (by rw [‹s.pc _ = _›]; simp)
    | grind [upd_apply]

/-- The server's own steps are finitely many. -/
theorem finite {c : Option Addr} {s : State} (h : Reachable step (init c) s) : ∃ n, ∀ acts s', (∀ a ∈ acts, a.own = true) →
    run step s acts = some s' → acts.length ≤ n := by
  obtain ⟨m, hm⟩ := callers_of_reachable h
  refine ⟨weight m s, fun acts s' ha hr => ?_⟩
  have := run_measure (fun a => a.own = true) (weight m) (fun x => Inv x ∧ Callers m x) ⟨inv_of_reachable h, hm⟩
    (fun _ _ _ ha h hs => ⟨inv_step _ _ _ h.1 hs, callers_step ha h.2 hs⟩)
    (fun _ _ _ ha h hs => by have := weight_step h.1.go h.2 ha hs; omega) ha hr
  omega

theorem waited_step {s s' : State} {a : Action} {t : Tid} (hgo : ∀ n, t ≠ .go n) (h : (∃ r, s.pc t = .closeWait r) ∨ (∃ r, s.pc t = .returned r))
    (hs : step s a = some s') : (∃ r, s'.pc t = .closeWait r) ∨ (∃ r, s'.pc t = .returned r) := by
  cases t with
  | go n => exact absurd rfl (hgo n)
  | user n =>
    clear hgo
    rcases h with ⟨r, h⟩ | ⟨r, h⟩
    · server_cases hs <;> grind [upd_apply]
    · right
      refine ⟨r, ?_⟩
      server_cases hs <;> grind [upd_apply]

/-- Where a thread can be at rest. -/
theorem rest_pc {s : State} (hp : s.watchdogPanic = false ∧ s.sendPanic = false) (hr : AtRest s) (t : Tid) :
    s.pc t = .idle ∨ (s.pc t = .startLoop ∧ s.updates = [] ∧ s.shutdown = false) ∨ (∃ ln, s.pc t = .serveAccept ln) ∨ s.pc t = .connRun ∨
    ((∃ r, s.pc t = .closeWait r) ∧ s.wg ≠ 0) ∨ (∃ n r, t = .user n ∧ s.pc t = .returned r) ∨ s.pc t = .done := by
  have h1 := hr (.thread t) rfl
  have h2 := hr (.takeConfig t) rfl
  have h3 := hr (.noticeShutdown t) rfl
  have h4 := hr (.listen t true) rfl
  simp only [step, hp, Bool.or_self, Bool.false_eq_true, if_false] at h1 h2 h3 h4
  cases hpc : s.pc t <;> simp [hpc] at h1 h2 h3 h4 ⊢
  case startLoop =>
    refine ⟨?_, h3⟩
    cases hu : s.updates with
    | nil => rfl
    | cons => rw [hu] at h2; simp at h2
  case startFire => split at h1 <;> simp at h1
  case startSubscribe => split at h1 <;> simp at h1
  case closeFire => split at h1 <;> simp at h1
  case closeWait => exact h1
  case returned r =>
    cases t with
    | user n => simp
    | go n => simp at h1

end ServerModel
end Gevulot
