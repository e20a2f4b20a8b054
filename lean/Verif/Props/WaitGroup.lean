import Verif.Proofs.WaitGroupRest

/-!
# C86, C87: the server's wait group

`s` ranges over every state of the server reachable with the wait group of Go's library: by any interleaving of calls, goroutines,
configurations and connections, and of the atomic operations of `Add`, `Done` and `Wait`. What is observed besides the server's
state: `s.panic`, a panic of the wait group.
-/

namespace Gevulot.WaitGroup

open ServerModel (Tid)

/-- The state after these actions, starting without a configuration. -/
def after (acts : List Action) : State := (run step (init none) acts).getD (init none)

theorem after_run {acts : List Action} (h : (run step (init none) acts).isSome = true) : run step (init none) acts = some (after acts) := by
  unfold after
  cases hr : run step (init none) acts with
  | none => simp [hr] at h
  | some s => simp

theorem after_reachable {acts : List Action} (h : (run step (init none) acts).isSome = true) : Reachable step (init none) (after acts) :=
  ⟨acts, after_run h⟩

/-! ## C86 The wait group does not panic -/

/-- C86 in full: the server never misuses its wait group. -/
def C86_claim : Prop := ∀ c s, Reachable step (init c) s → s.panic = none

/-- C86, what is missing: it holds if nobody but the server's own goroutines calls `do` when `Close` is waiting (or has been
woken up, but has not returned yet) and there is no goroutine left. The callers of `do` that remain are `Start` with a new
listener, and a `Serve` that the server's user has called. -/
theorem C86_partial (c : Option ServerModel.Addr) (s : State) (h : ReachableCarefully c s) : s.panic = none :=
  (cinv_of_careful h).fine

/-- C86: it holds as well as long as nobody has called `Close`; gevulot itself never does. -/
theorem C86_partial_run (c : Option ServerModel.Addr) (s : State) (h : Reachable step (init c) s) (hc : ∀ t, s.server.op t ≠ some .close) :
    s.panic = none := by
  refine Decidable.byContradiction fun hp => ?_
  obtain ⟨t, ht⟩ := panic_close h hp
  exact hc t ht

/-- C86: and that is the only cause. A panic happens either in a caller's `do`, which finds `Close` waiting and no goroutine
left, or in `Close`, woken up after the last goroutine has finished, because there are goroutines again. The counter never
becomes negative. -/
theorem C86_cause (c : Option ServerModel.Addr) (s s' : State) (a : Action) (h : Reachable step (init c) s) (hs : step s a = some s')
    (hp : s'.panic ≠ none) :
    (s'.panic = some .misuse ∧ ∃ n, a = .server (.thread (.user n)) ∧ CallsDo s (.user n) ∧ s.server.wg = 0 ∧ Waiting s) ∨
    (s'.panic = some .reused ∧ ∃ t, a = .wg t ∧ s.wpc t = .awake ∧ s.server.wg ≠ 0) := by
  rcases panic_step (good_of_reachable h) hs hp with ⟨h1, n, h2, h3, h4, -, u, h5⟩ | h1
  · exact .inl ⟨h1, n, h2, h3, h4, u, .inl h5⟩
  · exact .inr h1

/-- `Start` serves a listener and has opened a second one; `Close` waits for the goroutine of the first. -/
def closing : List Action :=
  [.server (.call 0 .start), .server (.thread (.user 0)), .server (.thread (.user 0)), .server (.thread (.user 0)),
   .server (.config 1), .server (.takeConfig (.user 0)), .server (.listen (.user 0) true), .server (.thread (.user 0)),
   .server (.thread (.go 0)), .server (.thread (.go 0)),
   .server (.config 2), .server (.takeConfig (.user 0)), .server (.listen (.user 0) true),
   .server (.call 1 .close), .server (.thread (.user 1)), .server (.thread (.user 1)), .server (.thread (.user 1)), .wg (.user 1)]

/-- The goroutine ends. -/
def ending : List Action :=
  [.server (.accept (.go 0) (.err ⟨true, false⟩)), .server (.thread (.go 0))]

/-- It brings the counter to zero, and `Start` calls `do` before it has woken up `Close`. -/
def misused : List Action := closing ++ ending ++ [.server (.thread (.user 0))]

/-- It wakes up `Close`, but `Start` calls `do` before `Close` goes on. -/
def reused : List Action :=
  closing ++ ending ++ [.wg (.go 0), .wg (.go 0), .server (.thread (.user 0)), .wg (.go 0), .wg (.go 0), .wg (.user 1), .wg (.user 1)]

/-- C86 is false: a `Start` that takes a new listening address while the server is being closed may make the process panic,
with "sync: WaitGroup misuse: Add called concurrently with Wait". -/
theorem C86_refuted : ¬ C86_claim := by
  intro hc
  exact absurd (hc none _ (after_reachable (acts := misused) (by decide +kernel))) (by decide +kernel)

/-- C86, the other panic: in `Close`, with "sync: WaitGroup is reused before previous Wait has returned". -/
theorem C86_refuted_reused : Reachable step (init none) (after reused) ∧ (after reused).panic = some .reused :=
  ⟨after_reachable (by decide +kernel), by decide +kernel⟩

/-- What `C86_refuted` panics with. -/
theorem C86_refuted_misuse : (after misused).panic = some .misuse ∧ (after (closing ++ ending)).server.shutdown = true :=
  ⟨by decide +kernel, by decide +kernel⟩

/-! ## C87 The wait group waits for the goroutines and wakes up Close -/

/-- C87: as far as the server is concerned, the wait group is a counter: what the server does with it, it does in
`Verif.Model.Server`. -/
theorem C87 (c : Option ServerModel.Addr) (s : State) (h : Reachable step (init c) s) :
    Reachable ServerModel.step (ServerModel.init c) s.server := (good_of_reachable h).server

/-- C87: when `Close` returns from `Wait`, every goroutine the server has started has finished. -/
theorem C87_wait (c : Option ServerModel.Addr) (s s' : State) (a : Action) (h : Reachable step (init c) s) (t : Tid) (r r' : ServerModel.Ret)
    (ht : s.server.pc t = .closeWait r) (hs : step s a = some s') (ht' : s'.server.pc t = .returned r') :
    r' = r ∧ ∀ n, n < s.server.jobs.length → s.server.pc (.go n) = .done := by
  have hg := good_of_reachable h
  have inv := ServerModel.inv_of_reachable hg.server
  obtain ⟨ho, htr⟩ := step_tr hs
  have key : ∀ b srv, ServerModel.step s.server b = some srv → srv.pc t = .returned r' → s.server.wg = 0 ∧ r' = r := by
    intro b srv hb hp
    cases ServerModel.kind_of_step inv.go hb with
    | add u _ _ _ hk => have := (hk t).1; rw [ht, hp] at this; simp [ServerModel.PC.waiting] at this
    | done u _ _ _ _ hk => have := (hk t).1; rw [ht, hp] at this; simp [ServerModel.PC.waiting] at this
    | close u r1 h1 h2 h3 =>
      subst h3
      by_cases hx : t = u
      · subst hx
        rw [ht] at h1
        simp only [upd_same] at hp
        cases h1; cases hp
        exact ⟨h2, rfl⟩
      · simp only [upd_other _ _ hx, ht] at hp; simp at hp
    | other _ _ _ _ hk => have := (hk t).1 (by rw [ht]; rfl); rw [hp] at this; simp [ServerModel.PC.waiting] at this
  have key2 : s.server.wg = 0 ∧ r' = r := by
    cases htr <;> first
      | exact key _ _ ‹_› ht'
      | (simp only [ht] at ht'; simp at ht')
  refine ⟨key2.2, fun n hn => ?_⟩
  rw [inv.go.jobs] at hn
  exact ServerModel.live_zero.mp (inv.go.wg.symm.trans key2.1) n hn

/-- C87: no wake-up is lost. When the server and its wait group can do nothing more and `Close` is still waiting, a goroutine
is still running. -/
theorem C87_rest (c : Option ServerModel.Addr) (s : State) (h : Reachable step (init c) s) (ho : s.over = false) (hr : AtRest s) (t : Tid)
    (r : ServerModel.Ret) (ht : s.server.pc t = .closeWait r) : ∃ n, n < s.server.jobs.length ∧ s.server.pc (.go n) ≠ .done := by
  have hg := good_of_reachable h
  have inv := ServerModel.inv_of_reachable hg.server
  simp only [State.over, Bool.or_eq_false_iff, Option.isSome_eq_false_iff, Option.isNone_iff_eq_none] at ho
  have hrs := rest_server inv.go (hg.inv ho.1.1) (by simp [State.over, ho]) hr (.thread t) rfl
  have hw : s.server.wg ≠ 0 := by
    intro hw
    simp [ServerModel.step, ho, ht, hw] at hrs
  refine Classical.byContradiction fun hx => hw ?_
  rw [inv.go.wg]
  refine ServerModel.live_zero.mpr fun n hn => Classical.byContradiction fun hd => hx ⟨n, ?_, hd⟩
  rwa [inv.go.jobs]

/-- C87: when the server and its wait group are at rest, the server is at rest in the sense of `Verif.Model.Server`: what is
proved about the server at rest carries over. -/
theorem C87_rest_server (c : Option ServerModel.Addr) (s : State) (h : Reachable step (init c) s) (ho : s.over = false) (hr : AtRest s) :
    ServerModel.AtRest s.server := by
  have hg := good_of_reachable h
  refine rest_server (ServerModel.inv_of_reachable hg.server).go (hg.inv ?_) ho hr
  simp only [State.over, Bool.or_eq_false_iff, Option.isSome_eq_false_iff, Option.isNone_iff_eq_none] at ho
  exact ho.1.1

/-- C87: and it comes to rest: the steps of the server and its wait group, permanent errors of `Accept` and ends of sessions
are finitely many; in particular the compare-and-swap in `Wait` is not tried forever. -/
theorem C87_finite (c : Option ServerModel.Addr) (s : State) (h : Reachable step (init c) s) :
    ∃ n, ∀ acts s', (∀ a ∈ acts, a.own = true) → run step s acts = some s' → acts.length ≤ n := finite h

/-! ## The hypotheses can be met -/

/-- `Start` serves a listener and returns when the server is being closed; `Close` waits for the goroutine of the listener. -/
def waited : List Action :=
  [.server (.call 0 .start), .server (.thread (.user 0)), .server (.thread (.user 0)), .server (.thread (.user 0)),
   .server (.config 1), .server (.takeConfig (.user 0)), .server (.listen (.user 0) true), .server (.thread (.user 0)),
   .server (.thread (.go 0)), .server (.thread (.go 0)),
   .server (.call 1 .close), .server (.thread (.user 1)), .server (.thread (.user 1)), .server (.thread (.user 1)), .wg (.user 1),
   .server (.noticeShutdown (.user 0))]

/-- The goroutine ends and wakes it up. -/
def woken : List Action := waited ++ ending ++ [.wg (.go 0), .wg (.go 0), .wg (.go 0), .wg (.go 0), .wg (.user 1), .wg (.user 1)]

theorem waited_pc : (after waited).server.pc = fun t => if t = .user 0 then .returned .errClosed else if t = .user 1 then .closeWait .nil
    else if t = .go 0 then .serveAccept 0 else .idle := by
  funext t
  match t with
  | .user 0 => rfl
  | .user 1 => rfl
  | .user (n + 2) => rfl
  | .go 0 => rfl
  | .go (n + 1) => rfl

theorem waited_wpc : (after waited).wpc = fun t => if t = .user 1 then .sleep else .idle := by
  funext t
  match t with
  | .user 0 => rfl
  | .user 1 => rfl
  | .user (n + 2) => rfl
  | .go 0 => rfl
  | .go (n + 1) => rfl

/-- A step that is careful: it is not a caller's `do`, or there are goroutines, or the server is not closed. -/
def tame (s : State) : Action → Bool
  | .server (.thread (.user n)) => !(s.server.pc (.user n)).adding || decide (s.server.wg ≠ 0) || !s.server.shutdown
  | _ => true

theorem careful_tame {c : Option ServerModel.Addr} {s : State} {a : Action} (h : Good c s) (hp : s.panic = none) (ha : tame s a = true) : Careful s a := by
  unfold Careful
  split
  · rename_i n
    intro h1 h2 ⟨t, ht⟩
    have hw : (s.server.pc t).waiting = true := (h.inv hp).waits t (by rcases ht with ht | ht <;> rw [ht] <;> rfl)
    have hsh : s.server.shutdown = true := (ServerModel.inv_of_reachable h.server).sess.closing t (by
      cases hx : s.server.pc t <;> rw [hx] at hw <;> simp [ServerModel.PC.waiting, ServerModel.PC.closing] at hw ⊢)
    simp [tame, adding_iff.mpr h1, h2, hsh] at ha
  · trivial

/-- All steps of an execution are. -/
def allTame (s : State) : List Action → Bool
  | [] => true
  | a :: as => tame s a && match step s a with
    | some s' => allTame s' as
    | none => false

theorem careful_run {c : Option ServerModel.Addr} {s s' : State} {acts : List Action} (h : ReachableCarefully c s) (ha : allTame s acts = true)
    (hr : run step s acts = some s') : ReachableCarefully c s' := by
  induction acts generalizing s with
  | nil => simp only [run, Option.some.injEq] at hr; subst hr; exact h
  | cons a as ih =>
    simp only [run] at hr
    split at hr
    · rename_i s1 hs
      simp only [allTame, hs, Bool.and_eq_true] at ha
      exact ih (.step h (careful_tame (cinv_of_careful h).good (cinv_of_careful h).fine ha.1) hs) ha.2 hr
    · simp at hr

-- C86_partial: `Close` waits, is woken up and returns
example : ReachableCarefully none (after woken) ∧ (after (woken.take 20)).waiters = 0 ∧ (after (woken.take 22)).wpc (.user 1) = .sleep ∧
    (after woken).server.pc (.user 1) = .returned .nil :=
  ⟨careful_run .init (by decide +kernel) (after_run (by decide +kernel)), by decide +kernel, by decide +kernel, by rfl⟩

-- C86_partial_run: `Start` serves a listener
example : Reachable step (init none) (after (waited.take 10)) ∧ ∀ t, (after (waited.take 10)).server.op t ≠ some .close := by
  refine ⟨after_reachable (by decide +kernel), fun t => ?_⟩
  match t with
  | .user 0 => decide
  | .user (n + 1) => exact fun h => nomatch h
  | .go 0 => decide
  | .go (n + 1) => exact fun h => nomatch h

-- C86_cause: see `C86_refuted` and `C86_refuted_reused`
example : step (after (misused.take 20)) (.server (.thread (.user 0))) = some (after misused) ∧ (after misused).panic ≠ none :=
  ⟨by rfl, by decide +kernel⟩

-- C87_wait: the last step of `woken`
example : (after (woken.take 23)).server.pc (.user 1) = .closeWait .nil ∧ step (after (woken.take 23)) (.wg (.user 1)) = some (after woken) ∧
    (after woken).server.pc (.user 1) = .returned .nil ∧ (after woken).server.jobs.length = 1 := ⟨by rfl, by rfl, by rfl, by decide +kernel⟩

-- C87_rest, C87_rest_server: `Close` waits for the goroutine of the listener, which waits for `Accept` to return
example : Reachable step (init none) (after waited) ∧ (after waited).over = false ∧ AtRest (after waited) ∧
    (after waited).server.pc (.user 1) = .closeWait .nil := by
  refine ⟨after_reachable (by decide +kernel), by decide +kernel, fun a ha => ?_, by rfl⟩
  have ho : (after waited).over = false := by decide +kernel
  have ho' : (after waited).server.watchdogPanic = false ∧ (after waited).server.sendPanic = false := by decide +kernel
  have hse : (after waited).sema = 0 := by decide +kernel
  have key : ∀ t, (after waited).server.pc t = .idle ∨ t = .user 0 ∨ (after waited).server.pc t = .closeWait .nil ∨ (after waited).server.pc t = .serveAccept 0 := by
    intro t
    rw [waited_pc]
    simp only
    repeat' split
    all_goals simp [*]
  have key2 : ∀ t, (after waited).wpc t = .idle ∧ (after waited).server.pc t ≠ .closeWait .nil ∨ (after waited).wpc t = .sleep := by
    intro t
    rw [waited_wpc, waited_pc]
    simp only
    repeat' split
    all_goals simp_all
  have h0 : (after waited).server.pc (.user 0) = .returned .errClosed := by rfl
  cases a with
  | wg t => rcases key2 t with h | h <;> simp [step, ho, h, hse]
  | server b =>
    cases b <;> simp [Action.inner, ServerModel.Action.inner] at ha
    case thread t =>
      rcases key2 t with h | h
      · rcases key t with h1 | h1 | h1 | h1
        · simp [step, ho, h, h1, ServerModel.step, ho']
        · subst h1; simp [step, ho, h, h0, ServerModel.step, ho']
        · exact absurd h1 h.2
        · simp [step, ho, h, h1, ServerModel.step, ho']
      · simp [step, ho, h]
    case takeConfig t => rcases key t with h1 | h1 | h1 | h1 <;> simp [step, ho, h1, h0, ServerModel.step, ho']
    case noticeShutdown t => rcases key t with h1 | h1 | h1 | h1 <;> simp [step, ho, h1, h0, ServerModel.step, ho']
    case listen t o => rcases key t with h1 | h1 | h1 | h1 <;> simp [step, ho, h1, h0, ServerModel.step, ho']

-- C87_finite: the goroutine ends, wakes up `Close`, and `Close` returns
example : (woken.drop 16).length = 8 ∧ (∀ a ∈ woken.drop 16, a.own = true) := ⟨by decide +kernel, by decide +kernel⟩

end Gevulot.WaitGroup
