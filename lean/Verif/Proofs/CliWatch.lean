import Verif.Model.CliWatch
import Verif.Proofs.Cli
import Verif.Proofs.FileWatcher

namespace Gevulot
namespace CliWatch

open CliModel (Config Text Ev Callback readServerConfig writeEv removeEv push dispatch)
open FileWatcherModel (CallAction Call CallInv callbackFor)

/-- What one step of the file watcher does to the call. -/
def Moves (s : State) (a : CallAction) (w : FileWatcherModel.State) : Prop :=
  FileWatcherModel.Tr isSet s.fw.watchDone s.fw.closed s.call a (w.call 0)

theorem moves {s : State} {a : CallAction} {w : FileWatcherModel.State} (h : watcherStep s a = some w) : Moves s a w := by
  obtain ⟨-, ⟨k, b, c, h1, h2, rfl⟩ | ⟨h1, -⟩ | ⟨h1, -⟩⟩ := FileWatcherModel.step_cases h
  · simp only [FileWatcherModel.Action.at.injEq] at h1
    obtain ⟨rfl, rfl⟩ := h1
    have := FileWatcherModel.call_tr h2
    simpa [Moves, upd_same, State.call] using this
  · simp at h1
  · simp at h1

/-- The transitions, one by one. -/
inductive Tr (s : State) : Action → State → Prop where
  | readFailed (h : s.main = .read) (hr : readServerConfig s.current = none) : Tr s .main { s with main := .failed, reads := s.reads ++ [s.current] }
  | readOk (c) (h : s.main = .read) (hr : readServerConfig s.current = some c) : Tr s .main { s with main := .send c, reads := s.reads ++ [s.current] }
  | mainSend (c) (h : s.main = .send c) (hl : s.chan.length < 1) : Tr s .main { s with main := .watch, chan := s.chan ++ [c], sent := s.sent ++ [c] }
  | call (w) (h : s.main = .watch) (hw : watcherStep s .watch = some w) : Tr s .main { s with fw := w, main := .waiting }
  | retOk (w) (h : s.main = .waiting) (hw : watcherStep s .ret = some w) (hc : (w.call 0).caller = .returned none) : Tr s .main { s with fw := w, main := .running }
  | retErr (w) (h : s.main = .waiting) (hw : watcherStep s .ret = some w) (hc : (w.call 0).caller ≠ .returned none) : Tr s .main { s with fw := w, main := .failed }
  | created (e w) (hw : watcherStep s (.created e) = some w) : Tr s (.created e) { s with fw := w }
  | registerOk (h : s.call.starter = .add) (hn : s.registered = none) (hp : s.path.isSome = true) : Tr s (.register true) { s with registered := some true, watched := s.path }
  | registerFailed (ok) (h : s.call.starter = .add) (hn : s.registered = none) : Tr s (.register ok) { s with registered := some false }
  | added (e w) (h : s.registered = some e.isNone) (hw : watcherStep s (.added e) = some w) : Tr s (.added e) { s with fw := w }
  | close (w) (h : s.call.starter = .close) (hw : watcherStep s .starter = some w) : Tr s .starter { s with fw := w, watched := none }
  | starter (w) (h : s.call.starter ≠ .close) (hw : watcherStep s .starter = some w) : Tr s .starter { s with fw := w }
  | enter (w) (hw : watcherStep s .enter = some w) : Tr s .enter { s with fw := w }
  | event (w) (hw : watcherStep s .event = some w) (hc : (w.call 0).handler = .callback .onWrite) : Tr s .event { s with fw := w, onWrite := .read }
  | skip (w) (hw : watcherStep s .event = some w) (hc : (w.call 0).handler ≠ .callback .onWrite) : Tr s .event { s with fw := w }
  | error (e w) (hw : watcherStep s (.error e) = some w) : Tr s (.error e) { s with fw := w }
  | handleFailed (h : s.onWrite = .read) (hr : readServerConfig s.current = none) : Tr s .handle { s with onWrite := .done, reads := s.reads ++ [s.current] }
  | handleOk (c) (h : s.onWrite = .read) (hr : readServerConfig s.current = some c) : Tr s .handle { s with onWrite := .send c, reads := s.reads ++ [s.current] }
  | handleSend (c) (h : s.onWrite = .send c) (hl : s.chan.length < 1) : Tr s .handle { s with onWrite := .done, chan := s.chan ++ [c], sent := s.sent ++ [c] }
  | handleDone (w) (h : s.onWrite = .done) (hw : watcherStep s .callbackDone = some w) : Tr s .handle { s with fw := w, onWrite := .none }
  | recv (c rest) (h : s.chan = c :: rest) : Tr s .recv { s with chan := rest, received := s.received ++ [c] }
  | writeSeen (t f) (h : s.path = some f) (hw : s.watched = some f) : Tr s (.write t) { s with text := upd s.text f t, history := s.history ++ [some t], fw := notify s writeEv }
  | writeUnseen (t f m) (h : s.path = some f) (hw : s.watched ≠ some f) (hm : m = (s.missed || decide (s.main ≠ .read))) : Tr s (.write t) { s with text := upd s.text f t, history := s.history ++ [some t], missed := m }
  | replace (t) : Tr s (.replace t) (relink s (some s.files) (upd s.text s.files t) (s.files + 1))
  | remove (h : s.path.isSome = true) : Tr s .remove (relink s none s.text s.files)
  | other (e) (h : s.registered = some true) (ho : s.call.watcher = .opened) : Tr s (.other e) { s with fw := notify s e }

theorem step_tr {s s' : State} {a : Action} (hs : step s a = some s') : Tr s a s' := by
  unfold step at hs
  cases a with
  | main =>
    simp only at hs
    split at hs
    · split at hs <;> simp only [Option.some.injEq] at hs <;> subst hs
      · exact .readFailed ‹_› ‹_›
      · exact .readOk _ ‹_› ‹_›
    · split at hs
      · simp only [Option.some.injEq] at hs; subst hs
        exact .mainSend _ ‹_› ‹_›
      · simp at hs
    · simp only [Option.map_eq_some_iff] at hs
      obtain ⟨w, hw, rfl⟩ := hs
      exact .call w ‹_› hw
    · simp only [Option.map_eq_some_iff] at hs
      obtain ⟨w, hw, rfl⟩ := hs
      by_cases hc : (w.call 0).caller = .returned none
      · rw [if_pos hc]; exact .retOk w ‹_› hw hc
      · rw [if_neg hc]; exact .retErr w ‹_› hw hc
    · simp at hs
  | register ok =>
    simp only at hs
    split at hs
    · rename_i hx
      split at hs
      · rename_i h
        simp only [Bool.and_eq_true] at h
        simp only [Option.some.injEq] at hs; subst hs
        rw [h.1]
        exact .registerOk hx.1 hx.2 h.2
      · simp only [Option.some.injEq] at hs; subst hs
        exact .registerFailed _ hx.1 hx.2
    · simp at hs
  | created e =>
    simp only [Option.map_eq_some_iff] at hs
    obtain ⟨w, hw, rfl⟩ := hs
    exact .created e w hw
  | added e =>
    simp only at hs
    split at hs
    · simp only [Option.map_eq_some_iff] at hs
      obtain ⟨w, hw, rfl⟩ := hs
      exact .added e w ‹_› hw
    · simp at hs
  | starter =>
    simp only [Option.map_eq_some_iff] at hs
    obtain ⟨w, hw, rfl⟩ := hs
    by_cases hc : s.call.starter = .close
    · rw [if_pos hc]; exact .close w hc hw
    · rw [if_neg hc]; exact .starter w hc hw
  | enter =>
    simp only [Option.map_eq_some_iff] at hs
    obtain ⟨w, hw, rfl⟩ := hs
    exact .enter w hw
  | event =>
    simp only [Option.map_eq_some_iff] at hs
    obtain ⟨w, hw, rfl⟩ := hs
    by_cases hc : (w.call 0).handler = .callback .onWrite
    · rw [if_pos hc]; exact .event w hw hc
    · rw [if_neg hc]; exact .skip w hw hc
  | error e =>
    simp only [Option.map_eq_some_iff] at hs
    obtain ⟨w, hw, rfl⟩ := hs
    exact .error e w hw
  | handle =>
    simp only at hs
    split at hs
    · simp at hs
    · split at hs <;> simp only [Option.some.injEq] at hs <;> subst hs
      · exact .handleFailed ‹_› ‹_›
      · exact .handleOk _ ‹_› ‹_›
    · split at hs
      · simp only [Option.some.injEq] at hs; subst hs
        exact .handleSend _ ‹_› ‹_›
      · simp at hs
    · simp only [Option.map_eq_some_iff] at hs
      obtain ⟨w, hw, rfl⟩ := hs
      exact .handleDone w ‹_› hw
  | recv =>
    simp only at hs
    split at hs
    · simp only [Option.some.injEq] at hs; subst hs
      exact .recv _ _ ‹_›
    · simp at hs
  | write t =>
    simp only at hs
    split at hs
    · rename_i f hf
      simp only [Option.some.injEq] at hs; subst hs
      by_cases hw : s.watched = some f
      · have := Tr.writeSeen (s := s) t f hf hw
        simpa [hw] using this
      · have := Tr.writeUnseen (s := s) t f _ hf hw rfl
        simpa [hw] using this
    · simp at hs
  | replace t => simp only [Option.some.injEq] at hs; subst hs; exact .replace t
  | remove =>
    simp only at hs
    split at hs
    · simp only [Option.some.injEq] at hs; subst hs
      exact .remove ‹_›
    · simp at hs
  | other e =>
    simp only at hs
    split at hs
    · rename_i hx
      simp only [Option.some.injEq] at hs; subst hs
      exact .other e hx.1 hx.2
    · simp at hs

/-- The file watcher is in a state it can reach, and has not panicked. -/
def Sound (w : FileWatcherModel.State) : Prop := Reachable (FileWatcherModel.step isSet) FileWatcherModel.init w ∧ w.panicked = false

theorem sound_step {s : State} {a : CallAction} {w : FileWatcherModel.State} (h : Sound s.fw) (hw : watcherStep s a = some w) : Sound w := by
  refine ⟨h.1.next hw, ?_⟩
  obtain ⟨h0, ⟨k, b, c, h1, h2, rfl⟩ | ⟨h1, -⟩ | ⟨h1, -⟩⟩ := FileWatcherModel.step_cases hw
  · exact h0
  · simp at h1
  · simp at h1

theorem sound_notify {s : State} {e : Ev} (h : Sound s.fw) : Sound (notify s e) := by
  unfold notify
  split
  · exact h
  · cases hw : watcherStep s (.arrive e) with
    | none => exact h
    | some w => exact sound_step h hw

/-- What a notification does to the call. -/
theorem call_notify {s : State} {e : Ev} (h : Sound s.fw) (ho : s.call.watcher = .opened) :
    ∃ evs, (notify s e).call 0 = { s.call with queue := push s.call.queue e, events := evs } := by
  unfold notify push
  split
  · exact ⟨s.call.events, rfl⟩
  · have : watcherStep s (.arrive e) = some { s.fw with call := upd s.fw.call 0 { s.call with queue := s.call.queue ++ [e], events := s.call.events ++ [e] }, watchDone := s.fw.watchDone } := by
      unfold State.call at ho
      simp [watcherStep, FileWatcherModel.step, h.2, FileWatcherModel.callStep, ho, State.call]
    rw [this]
    exact ⟨s.call.events ++ [e], by simp [upd_same]⟩

/-- The call of `Watch` and the rest. -/
structure Linked (main : MainPC) (registered : Option Bool) (watched : Option Nat) (onWrite : CallbackPC) (c : Call) : Prop where
  waiting : main = .waiting ↔ c.caller = .waiting
  running : main = .running ↔ c.caller = .returned none
  before : main = .read ∨ main = .watch ∨ (∃ x, main = .send x) → c.caller = .idle
  unadded : registered = none → c.added = none ∧ c.starter ≠ .initDone ∧ c.starter ≠ .wait ∧ c.starter ≠ .report ∧ c.starter ≠ .close ∧
    (c.starter = .done → c.watcher = .none)
  created : registered ≠ none → c.watcher ≠ .none ∧ c.starter ≠ .makeChan ∧ c.starter ≠ .spawn
  added : ∀ e, c.added = some e → registered = some e.isNone
  empty : registered ≠ some true → c.queue = [] ∧ watched = none ∧ onWrite = .none
  callback : onWrite ≠ .none ↔ c.handler = .callback .onWrite
  other : ∀ f, c.handler = .callback f → f = .onWrite
  opened : watched ≠ none → c.watcher = .opened

structure Inv (s : State) : Prop where
  sound : Sound s.fw
  linked : Linked s.main s.registered s.watched s.onWrite s.call

theorem callInv {s : State} (h : Inv s) : CallInv isSet s.call := (FileWatcherModel.inv_of_reachable h.sound.1).call 0

theorem inv_init (path : Option Nat) (text : Nat → Text) : Inv (init path text) := by
  refine ⟨⟨.refl _, rfl⟩, ?_⟩
  constructor <;> simp [init, FileWatcherModel.init, State.call, FileWatcherModel.noCall]

theorem callbackFor_eq (e : Ev) (f : Callback) (h : callbackFor isSet e = some f) : f = .onWrite ∧ dispatch e = some .onWrite := by
  unfold callbackFor isSet at h
  cases hd : dispatch e with
  | none => simp [hd] at h
  | some g => cases g <;> simp [hd] at h <;> simp [h]

theorem callbackFor_none (e : Ev) (h : callbackFor isSet e = none) : dispatch e ≠ some .onWrite := by
  unfold callbackFor isSet at h
  intro hd
  simp [hd] at h

set_option maxHeartbeats 1000000 in
theorem inv_step {s s' : State} {a : Action} (h : Inv s) (hs : step s a = some s') : Inv s' := by
  have hc := callInv h
  have hf : ∀ e f, callbackFor isSet e = some f → f = .onWrite := fun e f h => (callbackFor_eq e f h).1
  obtain ⟨h1, h2⟩ := h
  obtain ⟨l2, l3, l4, l5, l6, l7, l8, l9, l10, l11⟩ := h2
  obtain ⟨c1, c2, c3, c4, c5, c6, c7, c8, c9, c10, c11, c12, c13, c14, c15, -, -, -, -⟩ := hc
  have hn : ∀ e, s.call.watcher = .opened → Sound (notify s e) ∧ ∃ evs, (notify s e).call 0 = { s.call with queue := push s.call.queue e, events := evs } :=
    fun e ho => ⟨sound_notify h1, call_notify h1 ho⟩
  have htr := step_tr hs
  clear hs
  cases htr
  case call w h hw =>
    refine ⟨sound_step h1 hw, ?_⟩
    have hm := moves hw
    unfold Moves at hm
    show Linked _ _ _ _ (w.call 0)
    clear hn
    generalize w.call 0 = c' at *
    generalize s.call = c at *
    cases hm
    constructor <;> grind
  case retOk w h hw hx =>
    refine ⟨sound_step h1 hw, ?_⟩
    have hm := moves hw
    unfold Moves at hm
    show Linked _ _ _ _ (w.call 0)
    clear hn
    generalize w.call 0 = c' at *
    generalize s.call = c at *
    cases hm
    constructor <;> grind
  case retErr w h hw hx =>
    refine ⟨sound_step h1 hw, ?_⟩
    have hm := moves hw
    unfold Moves at hm
    show Linked _ _ _ _ (w.call 0)
    clear hn
    generalize w.call 0 = c' at *
    generalize s.call = c at *
    cases hm
    constructor <;> grind
  case created e w hw | enter w hw | error e w hw | close w h hw | starter w h hw | handleDone w h hw | event w hw hx | skip w hw hx =>
    refine ⟨sound_step h1 hw, ?_⟩
    have hm := moves hw
    unfold Moves at hm
    show Linked _ _ _ _ (w.call 0)
    clear hn
    generalize w.call 0 = c' at *
    generalize s.call = c at *
    cases hm <;> constructor <;> grind
  case added e w h hw =>
    refine ⟨sound_step h1 hw, ?_⟩
    have hm := moves hw
    unfold Moves at hm
    show Linked _ _ _ _ (w.call 0)
    clear hn
    generalize w.call 0 = c' at *
    generalize s.call = c at *
    cases hm
    constructor <;> grind
  case writeSeen t f h hw =>
    obtain ⟨n1, evs, n2⟩ := hn writeEv (l11 (by simp [hw]))
    refine ⟨n1, ?_⟩
    show Linked _ _ _ _ ((notify s writeEv).call 0)
    rw [n2]
    generalize s.call = c at *
    constructor <;> grind
  case other e h ho =>
    obtain ⟨n1, evs, n2⟩ := hn e ho
    refine ⟨n1, ?_⟩
    show Linked _ _ _ _ ((notify s e).call 0)
    rw [n2]
    generalize s.call = c at *
    constructor <;> grind
  case replace | remove =>
    unfold relink
    by_cases hr : s.path ≠ none ∧ s.watched = s.path
    · obtain ⟨n1, evs, n2⟩ := hn removeEv (l11 (by rw [hr.2]; exact hr.1))
      refine ⟨by simpa only [if_pos hr] using n1, ?_⟩
      have : ∀ x : State, x.fw = notify s removeEv → x.call = { s.call with queue := push s.call.queue removeEv, events := evs } := fun x hx => by
        rw [← n2, ← hx]; rfl
      rw [this _ (if_pos hr)]
      generalize s.call = c at *
      constructor <;> grind
    · refine ⟨by simpa only [if_neg hr] using h1, ?_⟩
      have : ∀ x : State, x.fw = s.fw → x.call = s.call := fun x hx => by unfold State.call; rw [hx]
      rw [this _ (if_neg hr)]
      clear this hn
      generalize s.call = c at *
      constructor <;> grind
  all_goals
    refine ⟨h1, ?_⟩
    show Linked _ _ _ _ s.call
    clear hn
    generalize s.call = c at *
    constructor <;> grind [FileWatcherModel.StarterPC.made]

theorem inv_of_reachable {path : Option Nat} {text : Nat → Text} {s : State} (h : Reachable step (init path text) s) : Inv s :=
  h.invariant Inv (inv_init path text) fun _ _ _ hi hs => inv_step hi hs

end CliWatch
end Gevulot
