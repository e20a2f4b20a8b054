import Verif.Proofs.CliWatchSim
import Verif.Props.Cli

/-!
# C103: the configuration file, watched goroutine by goroutine

C59 and C60 are about Model/Cli.lean, in which `Watch` is one step. Here they are shown for Model/CliWatch.lean, in which the goroutines
of `Watch` run next to each other.
-/

namespace Gevulot.CliWatch

open CliModel (Config Text Ev Callback readServerConfig writeEv removeEv push dispatch)
open FileWatcherModel (CallAction Call CallInv)

/-- The steps of the program, the server's receiving included. What is left: changes of the file, and what fsnotify reports. -/
def Own : Action → Prop
  | .main | .created _ | .register _ | .added _ | .starter | .enter | .event | .handle | .recv => True
  | _ => False

/-- There is nothing to do. -/
def AtRest (s : State) : Prop := ∀ a, Own a → step s a = none

/-- C103: every execution, seen from outside, is one of Model/Cli.lean: the same is done to the file and to the channel, in the same
order; the same is read, sent and received; and `prepareConfigChan` has returned without an error in both or in neither. -/
theorem C103 (path : Option Nat) (text : Nat → Text) (acts : List Action) (d : State) (hr : run step (init path text) acts = some d) :
    ∃ acts' s, run CliModel.step (CliModel.init path text) acts' = some s ∧ acts'.filter isOutside = acts.flatMap outside ∧
      s.current = d.current ∧ s.chan = d.chan ∧ s.sent = d.sent ∧ s.received = d.received ∧ s.reads = d.reads ∧ s.history = d.history ∧
      (s.main = .running ↔ d.main = .running) ∧ (d.main = .failed → s.main = .failed) := by
  obtain ⟨acts', s, h1, h2, ⟨⟨s1, s2, s3, s4, s5, s6, s7, s8⟩, r1, -, -⟩⟩ := refines (inv_init path text) (rel_init path text) hr
  refine ⟨acts', s, h1, h2, ?_, s4, s5, s6, s7, s8, ?_, ?_⟩
  · unfold CliModel.State.current State.current
    rw [s1, s2]
  · rw [r1]
    unfold absMain
    cases d.main <;> simp
    cases d.registered with
    | none => simp only; split <;> simp
    | some b => cases b <;> simp
  · intro h
    rw [r1, h]
    rfl

/-- C103 (C59): the server gets configurations that were in the file, in the order in which they were read, none that cannot be read;
every one that could be read is sent, except that the last one may still be under way. -/
theorem C103_bad (path : Option Nat) (text : Nat → Text) (s : State) (h : Reachable step (init path text) s) :
    s.received <+: s.sent ∧ (∃ next, next.length ≤ 1 ∧ s.sent ++ next = s.reads.filterMap readServerConfig) ∧ ∀ r ∈ s.reads, r ∈ s.history := by
  obtain ⟨acts, hr⟩ := h
  obtain ⟨acts', s', h1, -, -, -, h2, h3, h4, h5, -, -⟩ := C103 path text acts s hr
  have := CliModel.C59 path text s' ⟨acts', h1⟩
  rwa [h2, h3, h4, h5] at this

/-! ## At rest -/

theorem chan_of_rest {s : State} (hr : AtRest s) : s.chan = [] := by
  have := hr .recv trivial
  simp only [step] at this
  split at this
  · simp at this
  · assumption

/-- A step of the file watcher is possible if it is possible for the call. -/
theorem watcher_none {s : State} (h : Inv s) {a : CallAction} (hn : watcherStep s a = none) :
    FileWatcherModel.callStep isSet s.fw.watchDone s.fw.closed s.call a = none := by
  simpa [watcherStep, FileWatcherModel.step, h.sound.2, State.call] using hn

/-- The watcher's side has nothing to do if nobody receives from the channel. -/
theorem quiet {s : State} (hi : Inv s) (hr : ∀ a, Own a → a ≠ .recv → step s a = none) :
    (s.main = .running ∨ s.main = .failed ∨ ∃ c, s.main = .send c ∧ 1 ≤ s.chan.length) ∧
    (s.onWrite = .none ∨ ∃ c, s.onWrite = .send c ∧ 1 ≤ s.chan.length) ∧ (s.call.handler ≠ .ended → s.onWrite = .none → s.call.queue = []) := by
  have hc := callInv hi
  have m1 : ∀ a, (∀ w, watcherStep s a = some w → ∃ b s', Own b ∧ b ≠ .recv ∧ step s b = some s') →
      FileWatcherModel.callStep isSet s.fw.watchDone s.fw.closed s.call a = none := fun a ha => by
    refine watcher_none hi ?_
    cases hw : watcherStep s a with
    | none => rfl
    | some w =>
      obtain ⟨b, s', hb, hb', hs⟩ := ha w hw
      rw [hr b hb hb'] at hs
      simp at hs
  have e1 := m1 (.created none) fun w hw => ⟨.created none, { s with fw := w }, trivial, by simp, by simp [step, hw]⟩
  have e2 := m1 .starter fun w hw => ⟨.starter, _, trivial, by simp, by simp only [step, hw, Option.map_some]; rfl⟩
  have e3 := m1 .enter fun w hw => ⟨.enter, _, trivial, by simp, by simp only [step, hw, Option.map_some]; rfl⟩
  have e4 := m1 .event fun w hw => ⟨.event, _, trivial, by simp, by simp only [step, hw, Option.map_some]; rfl⟩
  have e5 : s.call.starter ≠ .add := by
    intro ha
    cases hg : s.registered with
    | none =>
      have := hr (.register true) trivial (by simp)
      simp only [step, ha, hg, and_self, if_true] at this
      split at this <;> simp at this
    | some b =>
      have key : ∀ e : Option Nat, b = e.isNone → False := fun e he => by
        have := m1 (.added e) fun w hw => ⟨.added e, { s with fw := w }, trivial, by simp, by simp [step, hg, he, hw]⟩
        simp [FileWatcherModel.callStep, ha] at this
      cases b
      · exact key (some 0) rfl
      · exact key none rfl
  have e6 := hr .main trivial (by simp)
  have e7 := hr .handle trivial (by simp)
  have hon : s.onWrite = .none ∨ ∃ c, s.onWrite = .send c ∧ 1 ≤ s.chan.length := by
    cases ho : s.onWrite with
    | none => exact .inl rfl
    | read =>
      simp only [step, ho] at e7
      split at e7 <;> simp at e7
    | send c =>
      simp only [step, ho] at e7
      split at e7
      · simp at e7
      · exact .inr ⟨c, rfl, by omega⟩
    | done =>
      have hcb := hi.linked.callback.mp (by simp [ho])
      simp only [step, ho, Option.map_eq_none_iff] at e7
      have := watcher_none hi e7
      simp [FileWatcherModel.callStep, hcb] at this
  refine ⟨?_, hon, fun he hon => ?_⟩
  · cases hm : s.main with
    | running => exact .inl rfl
    | failed => exact .inr (.inl rfl)
    | read =>
      simp only [step, hm] at e6
      split at e6 <;> simp at e6
    | send c =>
      simp only [step, hm] at e6
      split at e6
      · simp at e6
      · exact .inr (.inr ⟨c, rfl, by omega⟩)
    | watch =>
      simp only [step, hm, Option.map_eq_none_iff] at e6
      have := watcher_none hi e6
      simp [FileWatcherModel.callStep, hi.linked.before (.inr (.inl hm))] at this
    | waiting =>
      exfalso
      simp only [step, hm, Option.map_eq_none_iff] at e6
      have e8 := watcher_none hi e6
      have hw := hi.linked.waiting.mp hm
      simp only [FileWatcherModel.callStep, hw] at e8
      have hnr : s.call.ready ≠ true := by
        intro hx
        simp [hx] at e8
      have hnw := fun hx => hnr (hc.ready.mpr hx)
      have hidle := hc.idle
      simp only [FileWatcherModel.callStep] at e1 e2
      cases hs : s.call.starter <;> simp_all
  · cases hq : s.call.queue with
    | nil => rfl
    | cons e rest =>
      exfalso
      have hreg : s.registered = some true := Decidable.byContradiction fun hx => by have := (hi.linked.empty hx).1; rw [hq] at this; simp at this
      cases hh : s.call.handler with
      | ended => exact he hh
      | notStarted =>
        have h1 := hc.handler.mp hh
        have h2 := hi.linked.created (by simp [hreg])
        rcases h1 with h1 | h1 | h1
        · exact h2.1 h1
        · exact h2.2.1 h1
        · exact h2.2.2 h1
      | enter => simp [FileWatcherModel.callStep, hh] at e3
      | select d =>
        simp only [FileWatcherModel.callStep, hh, hq] at e4
        split at e4 <;> simp at e4
      | callback f =>
        have := hi.linked.other f hh
        subst this
        exact hi.linked.callback.mpr hh hon

/-- C103, at rest `prepareConfigChan` has returned, and nothing is left in the channel or in the queue: `Watch` never keeps it waiting
for good (as long as `NewWatcher` and `Add` return). -/
theorem C103_rest (path : Option Nat) (text : Nat → Text) (s : State) (h : Reachable step (init path text) s) (hr : AtRest s) :
    (s.main = .running ∨ s.main = .failed) ∧ s.chan = [] ∧ s.onWrite = .none ∧ (s.call.handler ≠ .ended → s.call.queue = []) := by
  have hch := chan_of_rest hr
  obtain ⟨h1, h2, h3⟩ := quiet (inv_of_reachable h) fun a ha _ => hr a ha
  have hon : s.onWrite = .none := by
    rcases h2 with h2 | ⟨c, -, h2⟩
    · exact h2
    · simp [hch] at h2
  refine ⟨?_, hch, hon, fun he => h3 he hon⟩
  rcases h1 with h1 | h1 | ⟨c, -, h1⟩
  · exact .inl h1
  · exact .inr h1
  · simp [hch] at h1

/-- C103 (C60): if no change went without a notification, then when the program runs and there is nothing left to do, the last
configuration that the server has got is the one in the file, provided it can be read and the handler has not been ended by an error. -/
theorem C103_current (path : Option Nat) (text : Nat → Text) (s : State) (h : Reachable step (init path text) s) (hr : AtRest s)
    (hrun : s.main = .running) (hm : s.missed = false) (hh : s.call.handler ≠ .ended) (c : Config) (hc : readServerConfig s.current = some c) :
    s.received.getLast? = some c := by
  have hrest := C103_rest path text s h hr
  have hi := inv_of_reachable h
  obtain ⟨acts, hrun'⟩ := h
  obtain ⟨acts', s', h1, -, ⟨⟨s1, s2, s3, s4, s5, s6, s7, s8⟩, r1, r2, r3⟩⟩ := refines (inv_init path text) (rel_init path text) hrun'
  obtain ⟨r4, r5, r6⟩ := r3 hh
  have hreg : s.registered = some true := by
    have h1 := (callInv hi).value none (hi.linked.running.mp hrun)
    exact hi.linked.added none (h1.1 rfl)
  have hcur : s'.current = s.current := by unfold CliModel.State.current State.current; rw [s1, s2]
  have key := CliModel.C60 path text s' ⟨acts', h1⟩ (by rw [r1, hrun]; rfl) (r6.trans hm)
    (by rw [r2, hreg, hrest.2.2.1]; simp [absHandler, hh]) (by rw [r4, hrest.2.2.2 hh]; simp) c (by rw [hcur]; exact hc)
  have hrec := (CliModel.inv_of_reachable ⟨acts', h1⟩).received
  rw [s4, hrest.2.1, List.append_nil, s6] at hrec
  rw [hrec]
  exact key

/-! ## How many steps -/

def mainW : MainPC → Nat
  | .read => 40
  | .send _ => 38
  | .watch => 36
  | .waiting => 1
  | _ => 0

def starterW (registered : Option Bool) : FileWatcherModel.StarterPC → Nat
  | .create => 20
  | .makeChan => 19
  | .spawn => 18
  | .add => if registered = none then 9 else 8
  | .initDone => 6
  | .wait => 5
  | .report => 4
  | .close => 3
  | _ => 0

def handlerW : FileWatcherModel.HandlerPC → Nat
  | .enter => 2
  | .select _ => 1
  | _ => 0

def callbackW : CallbackPC → Nat
  | .none => 0
  | .read => 6
  | .send _ => 5
  | .done => 3

/-- How many steps there can be before there is nothing to do. -/
def work (s : State) : Nat :=
  mainW s.main + starterW s.registered s.call.starter + handlerW s.call.handler + callbackW s.onWrite + 8 * s.call.queue.length + s.chan.length

set_option maxHeartbeats 1000000 in
theorem work_step {s s' : State} {a : Action} (hi : Inv s) (ha : Own a) (hs : step s a = some s') : work s' < work s := by
  have htr := step_tr hs
  clear hs
  have hf : ∀ e f, FileWatcherModel.callbackFor isSet e = some f → f = .onWrite := fun e f h => (callbackFor_eq e f h).1
  have l9 := hi.linked.callback
  have h4 := hi.linked.before
  have c1 := (callInv hi).idle
  cases htr
  case call w h hw | retOk w h hw hx | retErr w h hw hx | created e w hw | enter w hw | close w h hw | starter w h hw | handleDone w h hw |
      event w hw hx | skip w hw hx | added e w h hw =>
    have hm := moves hw
    unfold Moves at hm
    unfold work
    rw [show ∀ x : State, x.call = x.fw.call 0 from fun _ => rfl]
    simp only
    clear hi
    generalize w.call 0 = c' at *
    generalize s.call = c at *
    cases hm <;> grind [mainW, starterW, handlerW, callbackW]
  case error | writeSeen | writeUnseen | replace | remove | other => exact ha.elim
  all_goals
    unfold work
    rw [show ∀ (x : State), x.call = x.fw.call 0 from fun _ => rfl, show ∀ (x : State), x.call = x.fw.call 0 from fun _ => rfl]
    simp only [State.call] at *
    clear hi
    generalize s.fw.call 0 = c at *
    grind [mainW, starterW, handlerW, callbackW]

/-- C103_finite: it takes a bounded number of steps to get there, in whatever order they are made. -/
theorem C103_finite (path : Option Nat) (text : Nat → Text) (s s' : State) (h : Reachable step (init path text) s) (acts : List Action)
    (ha : ∀ a ∈ acts, Own a) (hr : run step s acts = some s') : acts.length + work s' ≤ work s :=
  run_measure Own work Inv (inv_of_reachable h) (fun _ _ _ _ hi hs => inv_step hi hs) (fun _ _ _ ha hi hs => work_step hi ha hs) ha hr

/-! ## The end of the watch -/

/-- C103_ended: once an error has ended the handler of a running program, no configuration is ever sent again, whatever happens. -/
theorem C103_ended (path : Option Nat) (text : Nat → Text) (s s' : State) (h : Reachable step (init path text) s) (hrun : s.main = .running)
    (he : s.call.handler = .ended) (acts : List Action) (hr : run step s acts = some s') :
    s'.sent = s.sent ∧ s'.main = .running ∧ s'.call.handler = .ended := by
  have key := run_invariant (fun x => Inv x ∧ x.sent = s.sent ∧ x.main = .running ∧ x.call.handler = .ended)
    ⟨inv_of_reachable h, rfl, hrun, he⟩ (fun x a x' ⟨hi, h1, h2, h3⟩ hs => by
      refine ⟨inv_step hi hs, ?_⟩
      have hon : x.onWrite = .none := Decidable.byContradiction fun hx => by
        have := hi.linked.callback.mp hx
        rw [h3] at this
        simp at this
      have hcall : x.call.caller = .returned none := hi.linked.running.mp h2
      have hn : ∀ e, (notify x e).call 0 = x.call ∨ ∃ q evs, (notify x e).call 0 = { x.call with queue := q, events := evs } := fun e => by
        unfold notify
        split
        · exact .inl rfl
        · cases hw : watcherStep x (.arrive e) with
          | none => exact .inl rfl
          | some w =>
            have hm := moves hw
            unfold Moves at hm
            generalize hc' : w.call 0 = c' at *
            cases hm
            exact .inr ⟨_, _, hc'⟩
      have hn' : ∀ e, ((notify x e).call 0).handler = .ended := fun e => by
        rcases hn e with h | ⟨q, evs, h⟩ <;> rw [h] <;> exact h3
      have hready := (callInv hi).ready
      have hret := (callInv hi).returned _ hcall
      have htr := step_tr hs
      clear hs
      cases htr
      case created e w hw | enter w hw | close w h hw | starter w h hw | handleDone w h hw | event w hw hx | skip w hw hx | added e w h hw |
          error e w hw =>
        have hm := moves hw
        unfold Moves at hm
        refine ⟨h1, h2, ?_⟩
        show (w.call 0).handler = .ended
        clear hi hn hn'
        generalize w.call 0 = c' at *
        generalize x.call = c at *
        cases hm <;> grind
      case writeSeen => exact ⟨h1, h2, hn' _⟩
      case other => exact ⟨h1, h2, hn' _⟩
      case replace | remove =>
        refine ⟨h1, h2, ?_⟩
        unfold State.call relink
        simp only
        split
        · exact hn' _
        · exact h3
      all_goals first | exact ⟨h1, h2, h3⟩ | simp_all) hr
  exact ⟨key.2.1, key.2.2.1, key.2.2.2⟩

/-! ## The hypotheses are met -/

def after (acts : List Action) : State := (run step (init (some 0) CliModel.oldText) acts).getD (init (some 0) CliModel.oldText)

theorem after_reachable {acts : List Action} (h : (run step (init (some 0) CliModel.oldText) acts).isSome) :
    Reachable step (init (some 0) CliModel.oldText) (after acts) := by
  obtain ⟨s, hs⟩ := Option.isSome_iff_exists.mp h
  exact ⟨acts, by rw [after, hs]; rfl⟩

/-- The watch is set up, and an event arrives and is handled before `Add` has returned. -/
def overtaken : List Action :=
  [.main, .main, .main, .created none, .starter, .starter, .enter, .register true, .write CliModel.newText, .event, .recv, .handle, .handle, .handle,
    .enter, .added none, .starter, .main, .recv]

/-- Nothing is left to do, as a computation: main is done, the channel and the queue are empty, and no goroutine can go on. -/
theorem rest_of (s : State) (h1 : s.main = .running) (h2 : s.chan = []) (h3 : s.onWrite = .none) (h4 : s.call.queue = [])
    (h5 : (∃ d, s.call.handler = .select d) ∧ s.call.starter = .wait ∨ s.call.handler = .ended ∧ s.call.starter = .done) : AtRest s := by
  have hw : ∀ a, FileWatcherModel.callStep isSet s.fw.watchDone s.fw.closed s.call a = none → watcherStep s a = none := fun a ha => by
    unfold State.call at ha
    unfold watcherStep FileWatcherModel.step
    split
    · rfl
    · simp [ha]
  intro a ha
  cases a with
  | main => simp [step, h1]
  | created e => simp only [step]; rw [hw]; rfl; rcases h5 with ⟨⟨d, h5⟩, h6⟩ | ⟨h5, h6⟩ <;> simp [FileWatcherModel.callStep, h6]
  | register ok => rcases h5 with ⟨⟨d, h5⟩, h6⟩ | ⟨h5, h6⟩ <;> simp [step, h6]
  | added e =>
    simp only [step]
    rw [hw]
    · simp
    · rcases h5 with ⟨⟨d, h5⟩, h6⟩ | ⟨h5, h6⟩ <;> simp [FileWatcherModel.callStep, h6]
  | starter => simp only [step]; rw [hw]; rfl; rcases h5 with ⟨⟨d, h5⟩, h6⟩ | ⟨h5, h6⟩ <;> simp [FileWatcherModel.callStep, h6, h5]
  | enter => simp only [step]; rw [hw]; rfl; rcases h5 with ⟨⟨d, h5⟩, h6⟩ | ⟨h5, h6⟩ <;> simp [FileWatcherModel.callStep, h5]
  | event => simp only [step]; rw [hw]; rfl; rcases h5 with ⟨⟨d, h5⟩, h6⟩ | ⟨h5, h6⟩ <;> simp [FileWatcherModel.callStep, h5, h4]
  | handle => simp [step, h3]
  | recv => simp [step, h2]
  | _ => exact ha.elim

example : (after overtaken).received = [⟨1, 1⟩, ⟨2, 2⟩] ∧ (after overtaken).missed = false := by decide +kernel
example : Reachable step (init (some 0) CliModel.oldText) (after overtaken) := after_reachable (by decide +kernel)
example : AtRest (after overtaken) :=
  rest_of _ (by decide +kernel) (by decide +kernel) (by decide +kernel) (by decide +kernel) (.inl ⟨⟨some 0, by decide +kernel⟩, by decide +kernel⟩)
example : (after overtaken).main = .running ∧ (after overtaken).call.handler ≠ .ended ∧ readServerConfig (after overtaken).current = some ⟨2, 2⟩ := by decide +kernel

/-- fsnotify reports an error before `Add` has returned nil. -/
def deaf : List Action :=
  [.main, .main, .main, .created none, .starter, .starter, .enter, .error 8, .register true, .added none, .starter, .main, .recv, .starter, .starter,
    .starter, .write CliModel.newText]

/-- C103_deaf: the program may run without noticing any change of the file, from the start, without having said so: if fsnotify
reports an error before `Add` returns, `Watch` returns nil all the same. -/
theorem C103_deaf : Reachable step (init (some 0) CliModel.oldText) (after deaf) ∧ AtRest (after deaf) ∧ (after deaf).main = .running ∧
    (after deaf).call.logged = [] ∧ readServerConfig (after deaf).current = some ⟨2, 2⟩ ∧
    ∀ acts s, run step (after deaf) acts = some s → s.sent = [⟨1, 1⟩] := by
  have hr : Reachable step (init (some 0) CliModel.oldText) (after deaf) := after_reachable (by decide +kernel)
  refine ⟨hr, ?_, by decide +kernel, by decide +kernel, by decide +kernel, fun acts s hs => ?_⟩
  · exact rest_of _ (by decide +kernel) (by decide +kernel) (by decide +kernel) (by decide +kernel) (.inr (by decide +kernel))
  · rw [(C103_ended _ _ _ _ hr (by decide +kernel) (by decide +kernel) acts hs).1]
    decide +kernel

end Gevulot.CliWatch
