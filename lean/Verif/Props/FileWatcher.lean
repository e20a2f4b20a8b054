import Verif.Proofs.FileWatcher

/-!
# C78–C82: the file watcher

`s` ranges over every state that one `fileWatcher` (Model/FileWatcher.lean) can reach, however many calls of `Watch` and `StopWatch`
are made, whatever events and errors arrive and whatever fsnotify returns. `s.call k` is the `k`-th call of `Watch`; `isSet` says which
callbacks are set.
-/

namespace Gevulot.FileWatcherModel

open CliModel (Ev Callback)

variable {isSet : Callback → Bool}

/-- The watcher's own steps: no call is made, no event and no error arrives. Callbacks return, and so do `NewWatcher` and `Add`. -/
def Internal : Action → Prop
  | .at _ .watch | .at _ (.error _) | .at _ (.arrive _) | .stop => False
  | _ => True

/-- The watcher has nothing to do. -/
def AtRest (isSet : Callback → Bool) (s : State) : Prop := ∀ a, Internal a → step isSet s a = none

/-- A call of `Watch` in which nothing can happen, as a computation. -/
def idle (closed : Nat → Bool) (c : Call) : Bool :=
  (match c.caller with | .waiting => !c.ready | _ => true) &&
  (match c.starter with | .notStarted => true | .done => true | .wait => c.handler ≠ .ended | _ => false) &&
  (match c.handler with
    | .notStarted => true
    | .ended => true
    | .select d => c.queue = [] && c.watcher ≠ .closed && (match d with | some n => !closed n | none => true)
    | _ => false)

theorem idle_of_rest {s : State} (hp : s.panicked = false) (h : AtRest isSet s) (k : Nat) : idle s.closed (s.call k) = true := by
  have h' : ∀ a, Internal (.at k a) → callStep isSet s.watchDone s.closed (s.call k) a = none := by
    intro a ha
    have := h (.at k a) ha
    simpa [step, hp] using this
  generalize s.call k = c at *
  have h1 := h' .ret trivial
  have h2 := h' .starter trivial
  have h3 := h' (.created none) trivial
  have h4 := h' (.added none) trivial
  have h5 := h' .enter trivial
  have h6 := h' .callbackDone trivial
  have h7 := h' .event trivial
  have h8 := h' .channelClosed trivial
  have h9 := h' .stopped trivial
  simp only [callStep] at h1 h2 h3 h4 h5 h6 h7 h8 h9
  simp only [idle, Bool.and_eq_true]
  refine ⟨⟨?_, ?_⟩, ?_⟩
  · cases hc : c.caller <;> simp [hc] at h1 ⊢
    exact h1
  · cases hc : c.starter <;> simp [hc] at h2 h3 h4 ⊢
    all_goals first | exact h2 | (split at h2 <;> simp at h2)
  · cases hc : c.handler <;> simp [hc] at h5 h6 h7 h8 h9 ⊢
    refine ⟨⟨?_, h8⟩, ?_⟩
    · cases hq : c.queue with
      | nil => rfl
      | cons e rest =>
        rw [hq] at h7
        simp only at h7
        split at h7 <;> simp at h7
    · split
      · simpa using h9
      · rfl

theorem rest_of_idle {s : State} (h : ∀ k, idle s.closed (s.call k) = true) : AtRest isSet s := by
  intro a ha
  cases a with
  | stop => exact ha.elim
  | «at» k a =>
    have hk := h k
    unfold step
    split
    · rfl
    simp only [Option.map_eq_none_iff]
    generalize s.call k = c at *
    simp only [idle, Bool.and_eq_true] at hk
    obtain ⟨⟨h1, h2⟩, h3⟩ := hk
    cases a <;> simp only [callStep, Internal] at ha ⊢
    case ret => split at h1 <;> simp_all
    case created e => cases hc : c.starter <;> simp [hc] at h2 ⊢
    case added e => cases hc : c.starter <;> simp [hc] at h2 ⊢
    case starter => cases hc : c.starter <;> simp [hc] at h2 ⊢; exact h2
    case enter => cases hc : c.handler <;> simp [hc] at h3 ⊢
    case callbackDone => cases hc : c.handler <;> simp [hc] at h3 ⊢
    case event => cases hc : c.handler <;> simp [hc] at h3 ⊢; simp [h3]
    case channelClosed => cases hc : c.handler <;> simp [hc] at h3 ⊢; simp [h3]
    case stopped =>
      cases hc : c.handler <;> simp [hc] at h3 ⊢
      split
      · simp_all
      · rfl

/-! ## C78 The callbacks of a watch follow its events -/

/-- C78: the events are taken in order, and the callbacks called are those for the events taken, one each, in order; -/
theorem C78 (s : State) (h : Reachable (step isSet) init s) (k : Nat) :
    (s.call k).events = (s.call k).taken ++ (s.call k).queue ∧ (s.call k).called = (s.call k).taken.filterMap (callbackFor isSet) :=
  ⟨((inv_of_reachable h).call k).events, ((inv_of_reachable h).call k).called⟩

/-- the callback for an event is the one for creation, for writing or for removal, in this order of preference, if it is set; -/
theorem C78_which (e : Ev) (f : Callback) : callbackFor isSet e = some f ↔ isSet f = true ∧
    ((f = .onCreate ∧ e.create = true) ∨ (f = .onWrite ∧ e.create = false ∧ e.write = true) ∨
      (f = .onRemove ∧ e.create = false ∧ e.write = false ∧ e.remove = true)) := by
  unfold callbackFor CliModel.dispatch
  cases h1 : e.create <;> cases h2 : e.write <;> cases h3 : e.remove <;> cases f <;> simp <;> split <;> simp_all

/-- and one callback begins only when the one before it has returned. -/
theorem C78_serial (s s' : State) (a : Action) (hs : step isSet s a = some s') (k : Nat) (hc : (s'.call k).called ≠ (s.call k).called) :
    (∀ f, (s.call k).handler ≠ .callback f) ∧ ∃ f, (s'.call k).called = (s.call k).called ++ [f] ∧ (s'.call k).handler = .callback f := by
  obtain ⟨-, ⟨j, b, c, rfl, hb, rfl⟩ | ⟨rfl, -, rfl⟩ | ⟨rfl, n, -, -, rfl⟩⟩ := step_cases hs
  · by_cases hk : k = j
    · subst hk
      simp only [upd_same] at hc ⊢
      have htr := call_tr hb
      cases htr <;> simp_all
    · simp [upd_other _ _ hk] at hc
  · simp at hc
  · simp at hc

/-- C78, and none is left out: when the watcher has nothing to do, the handler has taken all events, unless it has ended. -/
theorem C78_rest (s : State) (h : Reachable (step isSet) init s) (hp : s.panicked = false) (hr : AtRest isSet s) (k : Nat)
    (hh : (s.call k).handler ≠ .notStarted) (he : (s.call k).handler ≠ .ended) :
    (s.call k).called = (s.call k).events.filterMap (callbackFor isSet) := by
  have hi := (inv_of_reachable h).call k
  have hx := idle_of_rest hp hr k
  simp only [idle, Bool.and_eq_true] at hx
  have hq : (s.call k).queue = [] := by
    have := hx.2
    cases hc : (s.call k).handler <;> simp_all
  rw [hi.called, hi.events, hq, List.append_nil]

/-- C78, and the handler ends only by an error of the fsnotify watcher, or because the channel it waits for was closed, by `StopWatch`. -/
theorem C78_end (s s' : State) (h : Reachable (step isSet) init s) (a : Action) (hs : step isSet s a = some s') (k : Nat)
    (hh : (s.call k).handler ≠ .ended) (he : (s'.call k).handler = .ended) :
    (∃ e, a = .at k (.error e)) ∨ ∃ n, (s.call k).handler = .select (some n) ∧ s.closed n = true := by
  have hi := (inv_of_reachable h).call k
  obtain ⟨-, ⟨j, b, c, rfl, hb, rfl⟩ | ⟨rfl, -, rfl⟩ | ⟨rfl, n, -, -, rfl⟩⟩ := step_cases hs
  · by_cases hk : k = j
    · subst hk
      simp only [upd_same] at he
      have htr := call_tr hb
      clear hb
      have ho := hi.over
      cases htr <;> simp_all
    · simp only [upd_other _ _ hk] at he
      exact absurd he hh
  · exact absurd he hh
  · exact absurd he hh

/-! ## C79 `Watch` reports whether the file is being watched -/

/-- C79: `Watch` returns only when the file has been added to the watcher, or that has failed. It returns no error only if the file was
added; it returns an error if it was not, or if there was no watcher to add it to; the error is that of `NewWatcher` or `Add`, or the
one that has already ended the handler. -/
theorem C79 (s : State) (h : Reachable (step isSet) init s) (k : Nat) (e : Option Nat) (hk : (s.call k).caller = .returned e) :
    (e = none → (s.call k).added = some none) ∧ (∀ x, (s.call k).added = some (some x) → e ≠ none) ∧ ((s.call k).added = none → e ≠ none) ∧
    ∀ x, e = some x → (s.call k).added = some (some x) ∨ (s.call k).failure = some x ∨ (s.call k).watcher = .none := by
  have hi := (inv_of_reachable h).call k
  obtain ⟨h1, h2⟩ := hi.value e hk
  refine ⟨h1, fun x hx => hi.valueAdd e x hk hx, fun hx he => ?_, h2⟩
  rw [h1 he] at hx
  simp at hx

/-- C79, and it does return: when the watcher has nothing to do, no call is waiting; -/
theorem C79_rest (s : State) (h : Reachable (step isSet) init s) (hp : s.panicked = false) (hr : AtRest isSet s) (k : Nat) :
    (s.call k).caller ≠ .waiting := by
  have hi := (inv_of_reachable h).call k
  have hx := idle_of_rest hp hr k
  simp only [idle, Bool.and_eq_true] at hx
  obtain ⟨⟨h1, h2⟩, -⟩ := hx
  intro hw
  rw [hw] at h1
  simp only [Bool.not_eq_true'] at h1
  have hn : ¬ ((s.call k).starter = .wait ∨ (s.call k).starter = .report ∨ (s.call k).starter = .close ∨ (s.call k).starter = .done) :=
    fun hx => by rw [hi.ready.mpr hx] at h1; simp at h1
  cases hc : (s.call k).starter <;> simp [hc] at h2 hn
  have := hi.idle.mpr hc
  rw [hw] at this
  simp at this

/-- and the handler never uses a watcher that has been closed. -/
theorem C79_closed (s : State) (h : Reachable (step isSet) init s) (k : Nat) :
    ((s.call k).watcher = .closed → (s.call k).handler = .ended) ∧ step isSet s (.at k .channelClosed) = none := by
  have hi := (inv_of_reachable h).call k
  have h1 : (s.call k).watcher = .closed → (s.call k).handler = .ended := fun hx => hi.over (.inr (.inr hx))
  refine ⟨h1, ?_⟩
  unfold step
  split
  · rfl
  simp only [callStep, Option.map_eq_none_iff]
  split
  · rename_i hs
    rw [if_neg]
    intro hx
    rw [h1 hx] at hs
    simp at hs
  · rfl

/-! ## C80 A `Watch` that fails leaves nothing behind -/

/-- C80: when a call of `Watch` has returned an error and the watcher has nothing to do, the handler is not running and the fsnotify
watcher is not open. -/
def C80_claim : Prop :=
  ∀ (isSet : Callback → Bool) (s : State), Reachable (step isSet) init s → s.panicked = false → AtRest isSet s → ∀ k e,
    (s.call k).caller = .returned (some e) → ((s.call k).handler = .notStarted ∨ (s.call k).handler = .ended) ∧ (s.call k).watcher ≠ .opened

/-- The state after some steps. -/
def after (acts : List Action) : State := (run (step fun _ => true) init acts).getD init

theorem after_reachable (acts : List Action) (h : (run (step fun _ => true) init acts).isSome) : Reachable (step fun _ => true) init (after acts) := by
  obtain ⟨s, hs⟩ := Option.isSome_iff_exists.mp h
  exact ⟨acts, by rw [after, hs]; rfl⟩

theorem after_append (as bs : List Action) (h1 : (run (step fun _ => true) init as).isSome)
    (h2 : (run (step fun _ => true) init (as ++ bs)).isSome) : run (step fun _ => true) (after as) bs = some (after (as ++ bs)) := by
  obtain ⟨s, hs⟩ := Option.isSome_iff_exists.mp h1
  obtain ⟨s', hs'⟩ := Option.isSome_iff_exists.mp h2
  simp only [after, hs']
  rw [run_append, hs] at hs'
  rw [hs]
  exact hs'

/-- `Watch` is called (for the `k`-th time), and `Add` returns `e`. -/
def watching (k : Nat) (e : Option Nat) : List Action :=
  [.watch, .created none, .starter, .starter, .enter, .added e, .starter, .ret].map (.at k)

/-- The calls of `Watch` that are made. -/
def calls : Action → List Nat
  | .at k .watch => [k]
  | _ => []

theorem not_called {s : State} {acts : List Action} (h : run (step isSet) init acts = some s) {k : Nat} (hk : k ∉ acts.flatMap calls) : s.call k = noCall := by
  refine run_invariant_of (fun a => k ∉ calls a) (fun s => s.call k = noCall) rfl ?_ (fun a ha hx => hk (List.mem_flatMap.mpr ⟨a, ha, hx⟩)) h
  intro s a s' ha hi hs
  obtain ⟨-, ⟨j, b, c, rfl, hb, rfl⟩ | ⟨rfl, -, rfl⟩ | ⟨rfl, n, -, -, rfl⟩⟩ := step_cases hs
  · by_cases hj : k = j
    · subst hj
      exfalso
      rw [hi] at hb
      have htr := call_tr hb
      cases htr <;> simp_all [noCall, calls]
    · simpa [upd_other _ _ hj] using hi
  · exact hi
  · exact hi

/-- At rest, as a computation. -/
theorem rest_of_calls (acts : List Action) (h : (run (step fun _ => true) init acts).isSome) (ks : List Nat)
    (h1 : (acts.flatMap calls).all (· ∈ ks) = true) (h2 : ks.all (fun k => idle (after acts).closed ((after acts).call k)) = true) :
    AtRest (fun _ => true) (after acts) := by
  refine rest_of_idle fun k => ?_
  simp only [List.all_eq_true, decide_eq_true_eq] at h1 h2
  by_cases hk : k ∈ ks
  · exact h2 k hk
  · obtain ⟨s, hs⟩ := Option.isSome_iff_exists.mp h
    have : after acts = s := by rw [after, hs]; rfl
    rw [this, not_called hs (fun hx => hk (h1 k hx))]
    rfl

/-- C80 is false: `Add` fails (there is no such file), `Watch` returns its error, and the handler goes on waiting for events from a
watcher that stays open. -/
theorem C80_refuted : ¬ C80_claim := by
  intro hc
  have := hc (fun _ => true) (after (watching 0 (some 7))) (after_reachable _ (by decide +kernel)) (by decide +kernel)
    (rest_of_calls _ (by decide +kernel) [0] (by decide +kernel) (by decide +kernel)) 0 7 (by decide +kernel)
  revert this
  decide +kernel

/-- For good: they stay as long as nobody calls `StopWatch` and the fsnotify watcher reports no error. -/
theorem C80_stays (s s' : State) (h : Reachable (step isSet) init s) (k : Nat) (hh : (s.call k).handler ≠ .notStarted) (he : (s.call k).handler ≠ .ended)
    (hc : ∀ n, s.closed n = false) (acts : List Action) (ha : ∀ a ∈ acts, a ≠ .stop ∧ ∀ e, a ≠ .at k (.error e)) (hr : run (step isSet) s acts = some s') :
    (s'.call k).handler ≠ .notStarted ∧ (s'.call k).handler ≠ .ended ∧ (s'.call k).watcher = .opened := by
  have := run_invariant_of (fun a => a ≠ .stop ∧ ∀ e, a ≠ .at k (.error e))
    (fun x => Reachable (step isSet) init x ∧ (x.call k).handler ≠ .notStarted ∧ (x.call k).handler ≠ .ended ∧ ∀ n, x.closed n = false)
    ⟨h, hh, he, hc⟩ ?_ ha hr
  · obtain ⟨h1, h2, h3, -⟩ := this
    refine ⟨h2, h3, ?_⟩
    have hi := (inv_of_reachable h1).call k
    cases hw : (s'.call k).watcher with
    | opened => rfl
    | none => exact absurd (hi.handler.mpr (.inl hw)) h2
    | closed => exact absurd (hi.over (.inr (.inr hw))) h3
  · rintro x a x' hb ⟨h1, h2, h3, h4⟩ hs
    refine ⟨h1.next hs, ?_⟩
    have hi := (inv_of_reachable h1).call k
    obtain ⟨-, ⟨j, b, c, rfl, hx, rfl⟩ | ⟨rfl, -, rfl⟩ | ⟨rfl, n, -, -, rfl⟩⟩ := step_cases hs
    · refine ⟨?_, ?_, h4⟩ <;> by_cases hk : k = j
      · subst hk
        simp only [upd_same]
        have htr := call_tr hx
        cases htr <;> simp_all
      · simpa [upd_other _ _ hk] using h2
      · subst hk
        simp only [upd_same]
        have hov := hi.over
        have htr := call_tr hx
        cases htr <;> simp_all
      · simpa [upd_other _ _ hk] using h3
    · exact absurd rfl hb.1
    · exact absurd rfl hb.1

/-- C80_partial: nothing is left behind if there was no fsnotify watcher, or if the handler has been ended. -/
theorem C80_partial (s : State) (h : Reachable (step isSet) init s) (hp : s.panicked = false) (hr : AtRest isSet s) (k : Nat)
    (hk : (s.call k).watcher = .none ∨ (s.call k).handler = .ended) :
    ((s.call k).handler = .notStarted ∨ (s.call k).handler = .ended) ∧ (s.call k).watcher ≠ .opened := by
  have hi := (inv_of_reachable h).call k
  rcases hk with hk | hk
  · exact ⟨.inl (hi.handler.mpr (.inl hk)), by rw [hk]; simp⟩
  · refine ⟨.inr hk, fun hw => ?_⟩
    have hx := idle_of_rest hp hr k
    simp only [idle, Bool.and_eq_true] at hx
    have hm := hi.opened.mp hw
    cases hc : (s.call k).starter <;> simp [hc, hk, StarterPC.made] at hx hm

/-! ## C81 `StopWatch` stops the watcher -/

/-- C81: no callback begins after `StopWatch` has returned (until `Watch` is called again). -/
def C81_claim : Prop :=
  ∀ (isSet : Callback → Bool) (s s1 s2 : State) (acts : List Action), Reachable (step isSet) init s → step isSet s .stop = some s1 →
    (∀ k, .at k .watch ∉ acts) → run (step isSet) s1 acts = some s2 → ∀ k, (s2.call k).called = (s1.call k).called

/-- C81 is false: an event has arrived when `StopWatch` is called; the `select` takes it. -/
theorem C81_refuted : ¬ C81_claim := by
  intro hc
  have h1 := after_append (watching 0 none ++ [.at 0 (.arrive CliModel.writeEv)]) [.stop] (by decide +kernel) (by decide +kernel)
  have h2 := after_append (watching 0 none ++ [.at 0 (.arrive CliModel.writeEv)] ++ [.stop]) [.at 0 .event] (by decide +kernel) (by decide +kernel)
  simp only [run] at h1
  split at h1
  · rename_i s' hs'
    simp only [Option.some.injEq] at h1
    have := hc _ _ _ _ _ (after_reachable _ (by decide +kernel)) (hs'.trans (congrArg some h1)) (by simp) h2 0
    revert this
    decide +kernel
  · simp at h1

/-- And with two calls of `Watch`, `StopWatch` stops only the handler of the second: the channel that the first waits for is lost. -/
theorem C81_refuted_second : ∃ s : State, Reachable (step fun _ => true) init s ∧ s.panicked = false ∧ AtRest (fun _ => true) s ∧
    s.closed 1 = true ∧ (s.call 1).watcher = .closed ∧ (s.call 0).handler = .select (some 0) ∧ (s.call 0).watcher = .opened ∧ s.watchDone = some 1 :=
  ⟨after (watching 0 none ++ watching 1 none ++ [.stop] ++ [.stopped, .starter, .starter, .starter].map (.at 1)), after_reachable _ (by decide +kernel),
    by decide +kernel, rest_of_calls _ (by decide +kernel) [0, 1] (by decide +kernel) (by decide +kernel), by decide +kernel, by decide +kernel,
    by decide +kernel, by decide +kernel, by decide +kernel⟩

/-- C81_partial: if `Watch` was called only once, then once `StopWatch` has been called and the watcher has nothing left to do, the
handler has ended and the fsnotify watcher is closed; -/
theorem C81_partial (s : State) (h : Reachable (step isSet) init s) (hp : s.panicked = false) (hr : AtRest isSet s) (k : Nat)
    (hone : ∀ j, j ≠ k → (s.call j).caller = .idle) (hs : s.closed k = true) :
    (s.call k).handler = .ended ∧ (s.call k).watcher = .closed ∧ (s.call k).starter = .done := by
  have hinv := inv_of_reachable h
  have hi := hinv.call k
  have hx := idle_of_rest hp hr k
  simp only [idle, Bool.and_eq_true] at hx
  obtain ⟨⟨-, h2⟩, h3⟩ := hx
  have hm := hinv.shut k hs
  have hh : (s.call k).handler = .ended := by
    cases hc : (s.call k).handler with
    | ended => rfl
    | enter => simp [hc] at h3
    | callback f => simp [hc] at h3
    | notStarted =>
      rcases hm with hm | hm
      · rcases hi.handler.mp hc with hw | hw | hw
        · rw [hi.opened.mpr (.inr hm)] at hw; simp at hw
        · rw [hw] at hm; simp [StarterPC.made] at hm
        · rw [hw] at h2; simp at h2
      · have := hi.over (.inr (.inr hm)); rw [hc] at this; simp at this
    | select d =>
      obtain ⟨n, rfl, hn⟩ := hinv.select k d hc
      have hnk : n = k := by
        refine Decidable.byContradiction fun hne => ?_
        have hst := (hinv.call n).idle.mp (hone n hne)
        rcases hn with hn | hn
        · rw [hst] at hn; simp [StarterPC.made] at hn
        · have := (hinv.call n).closed hn; rw [hst] at this; simp at this
      subst hnk
      simp [hc, hs] at h3
  refine ⟨hh, ?_⟩
  rcases hm with hm | hm
  · exfalso
    cases hc : (s.call k).starter <;> simp [hc, hh, StarterPC.made] at h2 hm
  · exact ⟨hm, hi.closed hm⟩

/-- What is left to do in a call of `Watch`. -/
def weight (c : Call) : Nat :=
  (match c.caller with | .waiting => 1 | _ => 0) +
  (match c.starter with | .notStarted => 0 | .create => 11 | .makeChan => 10 | .spawn => 9 | .add => 5 | .initDone => 4 | .wait => 3 | .report => 2 | .close => 1 | .done => 0) +
  (match c.handler with | .notStarted => 0 | .enter => 2 | .select _ => 1 | .callback _ => 3 | .ended => 0) + 3 * c.queue.length

theorem weight_step {watchDone : Option Nat} {closed : Nat → Bool} {c c' : Call} {k : Nat} {a : CallAction} (ha : Internal (.at k a))
    (hs : callStep isSet watchDone closed c a = some c') : weight c' < weight c := by
  have htr := call_tr hs
  cases htr <;> simp_all [weight, Internal] <;> omega

/-- C81_finite: and a call of `Watch` can make only a bounded number of steps before it has nothing to do, or an event or error arrives. -/
theorem C81_finite (s : State) (k : Nat) : ∀ acts s', (∀ a ∈ acts, Internal a ∧ ∃ b, a = .at k b) → run (step isSet) s acts = some s' →
    acts.length ≤ weight (s.call k) := by
  intro acts s' ha hr
  have := run_measure (fun a => Internal a ∧ ∃ b, a = .at k b) (fun x => weight (x.call k)) (fun _ => True) trivial (fun _ _ _ _ _ _ => trivial)
    (fun x a x' hk _ hs => ?_) ha hr
  · omega
  · obtain ⟨hi, b, rfl⟩ := hk
    obtain ⟨-, ⟨j, b', c, he, hb, rfl⟩ | ⟨he, -⟩ | ⟨he, -⟩⟩ := step_cases hs
    · cases he
      simp only [upd_same]
      exact weight_step hi hb
    · simp at he
    · simp at he

/-- C81_panic: `StopWatch` panics exactly if no call of `Watch` has got to making its channel yet, or `StopWatch` was called since the
last one did; -/
theorem C81_panic (s s' : State) (hs : step isSet s .stop = some s') :
    s'.panicked = true ↔ s.watchDone = none ∨ ∃ n, s.watchDone = some n ∧ s.closed n = true := by
  obtain ⟨hp, ⟨j, b, c, he, -⟩ | ⟨-, hn, rfl⟩ | ⟨-, n, hn, hcl, rfl⟩⟩ := step_cases hs
  · simp at he
  · exact ⟨fun _ => hn, fun _ => rfl⟩
  · simp only [hp, hn, reduceCtorEq, false_or]
    constructor
    · simp
    · rintro ⟨m, hm, hc⟩
      simp only [Option.some.injEq] at hm
      subst hm
      rw [hcl] at hc
      simp at hc

/-- so not if `Watch` has returned without an error, and `StopWatch` was never called. -/
theorem C81_safe (s s' : State) (h : Reachable (step isSet) init s) (k : Nat) (hk : (s.call k).caller = .returned none) (hc : ∀ n, s.closed n = false)
    (hs : step isSet s .stop = some s') : s'.panicked = false := by
  have hinv := inv_of_reachable h
  have hi := hinv.call k
  have hadd := (hi.value none hk).1 rfl
  have hw : s.watchDone ≠ none := by
    refine hinv.made k ?_
    rcases hi.added.mp (by rw [hadd]; simp) with h1 | h1 | h1 | h1 | h1
    · rw [h1]; simp [StarterPC.made]
    · rw [h1]; simp [StarterPC.made]
    · rw [h1]; simp [StarterPC.made]
    · rw [h1]; simp [StarterPC.made]
    · exact .inr h1
  cases hp : s'.panicked with
  | false => rfl
  | true =>
    rcases (C81_panic s s' hs).mp hp with h1 | ⟨n, -, h1⟩
    · exact absurd h1 hw
    · rw [hc n] at h1; simp at h1

/-- so that `StopWatch` stops a watcher: `Watch` was called once and has returned without an error, `StopWatch` is called for the first
time, and the watcher comes to rest; -/
theorem C81_stop_partial (s s1 s2 : State) (h : Reachable (step isSet) init s) (k : Nat) (hk : (s.call k).caller = .returned none)
    (hc : ∀ n, s.closed n = false) (hs : step isSet s .stop = some s1) (acts : List Action) (hrun : run (step isSet) s1 acts = some s2)
    (hone : ∀ j, j ≠ k → (s2.call j).caller = .idle) (hp : s2.panicked = false) (hr : AtRest isSet s2) :
    (s2.call k).handler = .ended ∧ (s2.call k).watcher = .closed ∧ (s2.call k).starter = .done := by
  have hs0 := hs
  have hkeep : (∀ j, (s1.call j).caller ≠ .idle → (s2.call j).caller ≠ .idle) ∧ ∀ n, s1.closed n = true → s2.closed n = true := by
    refine run_invariant (fun x => (∀ j, (s1.call j).caller ≠ .idle → (x.call j).caller ≠ .idle) ∧ ∀ n, s1.closed n = true → x.closed n = true)
      ⟨fun _ h => h, fun _ h => h⟩ ?_ hrun
    rintro x a x' ⟨g1, g2⟩ hx
    obtain ⟨-, ⟨j, b, c, rfl, hb, rfl⟩ | ⟨rfl, -, rfl⟩ | ⟨rfl, n, -, -, rfl⟩⟩ := step_cases hx
    · refine ⟨fun i hi => ?_, g2⟩
      by_cases hij : i = j
      · subst hij
        have := g1 i hi
        simp only [upd_same]
        have htr := call_tr hb
        clear hb hx
        cases htr <;> simp_all
      · simpa only [upd_other _ _ hij] using g1 i hi
    · exact ⟨g1, g2⟩
    · refine ⟨g1, fun i hi => ?_⟩
      simp only [upd_apply]
      split
      · rfl
      · exact g2 i hi
  have hinv := inv_of_reachable h
  refine C81_partial s2 ((h.next hs).trans ⟨acts, hrun⟩) hp hr k hone (hkeep.2 k ?_)
  obtain ⟨-, ⟨j, b, c, hx, hb, rfl⟩ | ⟨-, hx, rfl⟩ | ⟨-, n, hn, -, rfl⟩⟩ := step_cases hs
  · simp at hx
  · have := C81_safe s _ h k hk hc hs0
    simp at this
  · have hnk : n = k := by
      refine Decidable.byContradiction fun hne => hkeep.1 n ?_ (hone n hne)
      intro hidle
      have hst := (hinv.call n).idle.mp hidle
      rcases hinv.done n hn with hm | hm
      · rw [hst] at hm; simp [StarterPC.made] at hm
      · have := (hinv.call n).closed hm; rw [hst] at this; simp at this
    subst hnk
    simp

/-! ## C82 An error that ends the watcher is reported -/

/-- C82: when the handler was ended by an error of the fsnotify watcher and nothing is left to do, `Watch` has returned that error or it has
been printed. -/
def C82_claim : Prop :=
  ∀ (isSet : Callback → Bool) (s : State), Reachable (step isSet) init s → s.panicked = false → AtRest isSet s → ∀ k e,
    (s.call k).failure = some e → (s.call k).caller = .returned (some e) ∨ some e ∈ (s.call k).logged

/-- The fsnotify watcher reports the error 8. -/
def failing : List Action := watching 0 none ++ ([.error 8, .starter, .starter, .starter].map (.at 0))

/-- C82 is false: "file watcher error: <nil>" is printed, whatever the error was. -/
theorem C82_refuted : ¬ C82_claim := by
  intro hc
  have := hc (fun _ => true) (after failing) (after_reachable _ (by decide +kernel)) (by decide +kernel)
    (rest_of_calls _ (by decide +kernel) [0] (by decide +kernel) (by decide +kernel)) 0 8 (by decide +kernel)
  revert this
  decide +kernel

/-- No error is ever printed. -/
theorem C82_never (s : State) (h : Reachable (step isSet) init s) (k : Nat) (e : Nat) : some e ∉ (s.call k).logged := by
  rw [((inv_of_reachable h).call k).logged]
  split <;> simp

/-- An error that comes before `Add` has returned: `Watch` returns nil, nothing is printed, and the file is not being watched. -/
theorem C82_refuted_lost : ∃ s : State, Reachable (step fun _ => true) init s ∧ s.panicked = false ∧ AtRest (fun _ => true) s ∧
    (s.call 0).failure = some 8 ∧ (s.call 0).caller = .returned none ∧ (s.call 0).logged = [] ∧ (s.call 0).watcher = .closed :=
  ⟨after ([.watch, .created none, .starter, .starter, .enter, .error 8, .added none, .starter, .ret, .starter, .starter, .starter].map (.at 0)),
    after_reachable _ (by decide +kernel), by decide +kernel, rest_of_calls _ (by decide +kernel) [0] (by decide +kernel) (by decide +kernel),
    by decide +kernel, by decide +kernel, by decide +kernel, by decide +kernel⟩

/-- C82_partial: unless it was lost in this way, something is printed. -/
theorem C82_partial (s : State) (h : Reachable (step isSet) init s) (hp : s.panicked = false) (hr : AtRest isSet s) (k : Nat) (e : Nat)
    (hf : (s.call k).failure = some e) :
    (s.call k).watcher = .closed ∧ (s.call k).logged = if (s.call k).watcherError = none then [] else [none] := by
  have hi := (inv_of_reachable h).call k
  have hh := hi.ended (by rw [hf]; simp)
  have hx := idle_of_rest hp hr k
  simp only [idle, Bool.and_eq_true] at hx
  have hcl : (s.call k).watcher = .closed := by
    cases hw : (s.call k).watcher with
    | closed => rfl
    | none => rw [hi.handler.mpr (.inl hw)] at hh; simp at hh
    | opened =>
      have hm := hi.opened.mp hw
      cases hc : (s.call k).starter <;> simp [hc, hh, StarterPC.made] at hx hm
  refine ⟨hcl, ?_⟩
  rw [hi.logged]
  simp [hcl]

/-- C82_printed_partial: in particular, if the error comes when `Add` has returned, something is printed: "file watcher error: <nil>". -/
theorem C82_printed_partial (s s1 s2 : State) (h : Reachable (step isSet) init s) (k e : Nat) (ha : (s.call k).added ≠ none)
    (hs : step isSet s (.at k (.error e)) = some s1) (acts : List Action) (hrun : run (step isSet) s1 acts = some s2) (hp : s2.panicked = false)
    (hr : AtRest isSet s2) : (s2.call k).logged = [none] ∧ (s2.call k).watcher = .closed := by
  have h1 : (s1.call k).added ≠ none ∧ (s1.call k).failure = some e ∧ (s1.call k).watcherError = some e := by
    obtain ⟨-, ⟨j, b, c, hx, hb, rfl⟩ | ⟨hx, -, rfl⟩ | ⟨hx, n, -, -, rfl⟩⟩ := step_cases hs
    · cases hx
      have htr := call_tr hb
      cases htr
      simpa using ha
    · simp at hx
    · simp at hx
  have h2 := run_invariant (fun x => Reachable (step isSet) init x ∧ (x.call k).added ≠ none ∧ (x.call k).failure = some e ∧ (x.call k).watcherError = some e)
    ⟨h.next hs, h1⟩ ?_ hrun
  · obtain ⟨h2, -, h3, h4⟩ := h2
    obtain ⟨g1, g2⟩ := C82_partial s2 h2 hp hr k e h3
    rw [h4] at g2
    exact ⟨by simpa using g2, g1⟩
  · rintro x a x' ⟨hx, g1, g2, g3⟩ hs
    refine ⟨hx.next hs, ?_⟩
    have hi := (inv_of_reachable hx).call k
    obtain ⟨-, ⟨j, b, c, rfl, hb, rfl⟩ | ⟨rfl, -, rfl⟩ | ⟨rfl, n, -, -, rfl⟩⟩ := step_cases hs
    · by_cases hk : k = j
      · subst hk
        simp only [upd_same]
        have k1 := hi.ended (by rw [g2]; simp)
        have k2 := hi.added.mp g1
        have k3 := hi.closed
        have htr := call_tr hb
        clear hb hs hi
        cases htr <;> grind
      · simp only [upd_other _ _ hk]
        exact ⟨g1, g2, g3⟩
    · exact ⟨g1, g2, g3⟩
    · exact ⟨g1, g2, g3⟩

/-! ## Examples -/

/-- C78, C79, C79_rest, C78_rest: two writes; the callbacks have returned. -/
def written : List Action :=
  watching 0 none ++ ([.arrive CliModel.writeEv, .arrive CliModel.writeEv, .event, .callbackDone, .enter, .event, .callbackDone, .enter].map (.at 0))

example : Reachable (step fun _ => true) init (after written) ∧ (after written).panicked = false ∧ AtRest (fun _ => true) (after written) ∧
    ((after written).call 0).handler = .select (some 0) ∧ ((after written).call 0).called = [.onWrite, .onWrite] ∧
    ((after written).call 0).caller = .returned none :=
  ⟨after_reachable _ (by decide +kernel), by decide +kernel, rest_of_calls _ (by decide +kernel) [0] (by decide +kernel) (by decide +kernel),
    by decide +kernel, by decide +kernel, by decide +kernel⟩

/-- C80_stays: after a failed `Watch`. -/
example : Reachable (step fun _ => true) init (after (watching 0 (some 7))) ∧ ((after (watching 0 (some 7))).call 0).handler = .select (some 0) ∧
    ∀ n, (after (watching 0 (some 7))).closed n = false :=
  ⟨after_reachable _ (by decide +kernel), by decide +kernel, fun n => rfl⟩

/-- C80_partial: `NewWatcher` fails. -/
def noWatcher : List Action := [.watch, .created (some 3), .ret].map (.at 0)

example : Reachable (step fun _ => true) init (after noWatcher) ∧ AtRest (fun _ => true) (after noWatcher) ∧
    ((after noWatcher).call 0).watcher = .none ∧ ((after noWatcher).call 0).caller = .returned (some 3) :=
  ⟨after_reachable _ (by decide +kernel), rest_of_calls _ (by decide +kernel) [0] (by decide +kernel) (by decide +kernel), by decide +kernel, by decide +kernel⟩

/-- C81_partial, C81_stop_partial: one `Watch`, and `StopWatch`. -/
def stoppedRun : List Action := written ++ [.stop] ++ ([.stopped, .starter, .starter, .starter].map (.at 0))

example : Reachable (step fun _ => true) init (after stoppedRun) ∧ (after stoppedRun).panicked = false ∧ AtRest (fun _ => true) (after stoppedRun) ∧
    (∀ j, j ≠ 0 → ((after stoppedRun).call j).caller = .idle) ∧ (after stoppedRun).closed 0 = true := by
  refine ⟨after_reachable _ (by decide +kernel), by decide +kernel, rest_of_calls _ (by decide +kernel) [0] (by decide +kernel) (by decide +kernel), ?_, by decide +kernel⟩
  intro j hj
  cases j with
  | zero => exact absurd rfl hj
  | succ j => rfl

example : run (step fun _ => true) (after written) ([.stop] ++ ([.stopped, .starter, .starter, .starter].map (.at 0))) = some (after stoppedRun) ∧
    ((after written).call 0).caller = .returned none ∧ ∀ n, (after written).closed n = false :=
  ⟨after_append _ _ (by decide +kernel) (by decide +kernel), by decide +kernel, fun _ => rfl⟩

/-- C78_end, C82_printed_partial: the error comes when `Add` has returned. -/
example : (run (step fun _ => true) (after (watching 0 none)) (.at 0 (.error 8) :: [.starter, .starter, .starter].map (.at 0))) = some (after failing) ∧
    ((after (watching 0 none)).call 0).added ≠ none ∧ ((after (watching 0 none)).call 0).handler ≠ .ended := by
  refine ⟨after_append _ _ (by decide +kernel) (by decide +kernel), by decide +kernel, by decide +kernel⟩

/-- C82_partial -/
example : Reachable (step fun _ => true) init (after failing) ∧ AtRest (fun _ => true) (after failing) ∧ ((after failing).call 0).failure = some 8 ∧
    ((after failing).call 0).logged = [none] :=
  ⟨after_reachable _ (by decide +kernel), rest_of_calls _ (by decide +kernel) [0] (by decide +kernel) (by decide +kernel), by decide +kernel, by decide +kernel⟩

end Gevulot.FileWatcherModel
