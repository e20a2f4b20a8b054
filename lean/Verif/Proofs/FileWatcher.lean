import Verif.Model.FileWatcher
import Verif.Proofs.Trans

namespace Gevulot
namespace FileWatcherModel

open CliModel (Ev Callback dispatch)

variable {isSet : Callback → Bool} {watchDone : Option Nat} {closed : Nat → Bool}

/-- The transitions of one call, one by one. -/
inductive Tr (isSet : Callback → Bool) (watchDone : Option Nat) (closed : Nat → Bool) (c : Call) : CallAction → Call → Prop where
  | watch (h : c.caller = .idle) : Tr _ _ _ c .watch { c with caller := .waiting, starter := .create }
  | ret (h : c.caller = .waiting) (hr : c.ready = true) : Tr _ _ _ c .ret { c with caller := .returned c.watcherError }
  | createFailed (e) (h : c.starter = .create) : Tr _ _ _ c (.created (some e)) { c with watcherError := some e, ready := true, starter := .done }
  | createOk (h : c.starter = .create) : Tr _ _ _ c (.created none) { c with watcher := .opened, starter := .makeChan }
  | added (e) (h : c.starter = .add) : Tr _ _ _ c (.added e) { c with watcherError := e, added := some e, starter := .initDone }
  | makeChan (h : c.starter = .makeChan) : Tr _ _ _ c .starter { c with starter := .spawn }
  | spawn (h : c.starter = .spawn) : Tr _ _ _ c .starter { c with handler := .enter, starter := .add }
  | initDone (h : c.starter = .initDone) : Tr _ _ _ c .starter { c with ready := true, starter := .wait }
  | wait (h : c.starter = .wait) (he : c.handler = .ended) : Tr _ _ _ c .starter { c with starter := .report }
  | reportError (h : c.starter = .report) (he : c.watcherError ≠ none) : Tr _ _ _ c .starter { c with logged := c.logged ++ [none], starter := .close }
  | report (h : c.starter = .report) (he : c.watcherError = none) : Tr _ _ _ c .starter { c with starter := .close }
  | close (h : c.starter = .close) : Tr _ _ _ c .starter { c with watcher := .closed, starter := .done }
  | enter (h : c.handler = .enter) : Tr _ _ _ c .enter { c with handler := .select watchDone }
  | callbackDone (f) (h : c.handler = .callback f) : Tr _ _ _ c .callbackDone { c with handler := .enter }
  | event (d e rest f) (h : c.handler = .select d) (hq : c.queue = e :: rest) (hf : callbackFor isSet e = some f) :
      Tr _ _ _ c .event { c with queue := rest, taken := c.taken ++ [e], called := c.called ++ [f], handler := .callback f }
  | eventSkip (d e rest) (h : c.handler = .select d) (hq : c.queue = e :: rest) (hf : callbackFor isSet e = none) :
      Tr _ _ _ c .event { c with queue := rest, taken := c.taken ++ [e], handler := .enter }
  | error (e d) (h : c.handler = .select d) (hw : c.watcher = .opened) :
      Tr _ _ _ c (.error e) { c with watcherError := some e, failure := some e, handler := .ended }
  | channelClosed (d) (h : c.handler = .select d) (hw : c.watcher = .closed) : Tr _ _ _ c .channelClosed { c with handler := .ended }
  | stopped (n) (h : c.handler = .select (some n)) (hc : closed n = true) : Tr _ _ _ c .stopped { c with handler := .ended }
  | arrive (e) (hw : c.watcher = .opened) : Tr _ _ _ c (.arrive e) { c with queue := c.queue ++ [e], events := c.events ++ [e] }

theorem call_tr {c c' : Call} {a : CallAction} (hs : callStep isSet watchDone closed c a = some c') : Tr isSet watchDone closed c a c' := by
  unfold callStep at hs
  cases a <;> simp only at hs
  case watch => split at hs <;> simp at hs; subst hs; exact .watch ‹_›
  case ret =>
    split at hs
    · split at hs <;> simp at hs; subst hs; exact .ret ‹_› ‹_›
    · simp at hs
  case created e =>
    split at hs
    · split at hs <;> simp at hs <;> subst hs
      · exact .createFailed _ ‹_›
      · exact .createOk ‹_›
    · simp at hs
  case added e => split at hs <;> simp at hs; subst hs; exact .added e ‹_›
  case starter =>
    split at hs
    · simp at hs; subst hs; exact .makeChan ‹_›
    · simp at hs; subst hs; exact .spawn ‹_›
    · simp at hs; subst hs; exact .initDone ‹_›
    · split at hs <;> simp at hs; subst hs; exact .wait ‹_› ‹_›
    · split at hs <;> simp only [Option.some.injEq] at hs <;> subst hs
      · exact .reportError ‹_› ‹_›
      · rename_i h1 h2; exact .report h1 (by simpa using h2)
    · simp at hs; subst hs; exact .close ‹_›
    · simp at hs
  case enter => split at hs <;> simp at hs; subst hs; exact .enter ‹_›
  case callbackDone => split at hs <;> simp at hs; subst hs; exact .callbackDone _ ‹_›
  case event =>
    split at hs
    · split at hs
      · split at hs <;> simp at hs <;> subst hs
        · exact .event _ _ _ _ ‹_› ‹_› ‹_›
        · exact .eventSkip _ _ _ ‹_› ‹_› ‹_›
      · simp at hs
    · simp at hs
  case error e =>
    split at hs
    · split at hs <;> simp at hs; subst hs; exact .error e _ ‹_› ‹_›
    · simp at hs
  case channelClosed =>
    split at hs
    · split at hs <;> simp at hs; subst hs; exact .channelClosed _ ‹_› ‹_›
    · simp at hs
  case stopped =>
    split at hs
    · split at hs <;> simp at hs; subst hs; exact .stopped _ ‹_› ‹_›
    · simp at hs
  case arrive e => split at hs <;> simp at hs; subst hs; exact .arrive e ‹_›

/-- A step is a step of one call, or of `StopWatch`. -/
theorem step_cases {s s' : State} {a : Action} (hs : step isSet s a = some s') :
    s.panicked = false ∧
    ((∃ k b c, a = .at k b ∧ callStep isSet s.watchDone s.closed (s.call k) b = some c ∧
      s' = { s with call := upd s.call k c, watchDone := if b = .starter ∧ (s.call k).starter = .makeChan then some k else s.watchDone }) ∨
     (a = .stop ∧ (s.watchDone = none ∨ ∃ n, s.watchDone = some n ∧ s.closed n = true) ∧ s' = { s with panicked := true }) ∨
     (a = .stop ∧ ∃ n, s.watchDone = some n ∧ s.closed n = false ∧ s' = { s with closed := upd s.closed n true })) := by
  unfold step at hs
  split at hs
  · simp at hs
  rename_i hp
  refine ⟨by simpa using hp, ?_⟩
  cases a with
  | «at» k b =>
    simp only [Option.map_eq_some_iff] at hs
    obtain ⟨c, hc, rfl⟩ := hs
    exact .inl ⟨k, b, c, rfl, hc, rfl⟩
  | stop =>
    simp only at hs
    split at hs
    · simp at hs; exact .inr (.inl ⟨rfl, .inl ‹_›, hs.symm⟩)
    · split at hs <;> simp only [Option.some.injEq] at hs
      · exact .inr (.inl ⟨rfl, .inr ⟨_, ‹_›, ‹_›⟩, hs.symm⟩)
      · rename_i h1 h2; exact .inr (.inr ⟨rfl, _, h1, by simpa using h2, hs.symm⟩)

/-- The starting goroutine has made the channel. -/
def StarterPC.made : StarterPC → Bool
  | .spawn | .add | .initDone | .wait | .report | .close => true
  | _ => false

/-- One call of `Watch`. -/
structure CallInv (isSet : Callback → Bool) (c : Call) : Prop where
  idle : c.caller = .idle ↔ c.starter = .notStarted
  opened : c.watcher = .opened ↔ (c.starter = .makeChan ∨ c.starter.made = true)
  closed : c.watcher = .closed → c.starter = .done
  handler : c.handler = .notStarted ↔ (c.watcher = .none ∨ c.starter = .makeChan ∨ c.starter = .spawn)
  over : c.starter = .report ∨ c.starter = .close ∨ c.watcher = .closed → c.handler = .ended
  ready : c.ready = true ↔ (c.starter = .wait ∨ c.starter = .report ∨ c.starter = .close ∨ c.starter = .done)
  fresh : c.starter = .notStarted ∨ c.starter = .create → c.watcherError = none ∧ c.watcher = .none
  returned : ∀ e, c.caller = .returned e → c.ready = true
  added : c.added ≠ none ↔ (c.starter = .initDone ∨ c.starter = .wait ∨ c.starter = .report ∨ c.starter = .close ∨ c.watcher = .closed)
  failed : c.starter = .done → c.watcher = .none → c.watcherError ≠ none
  addFailed : ∀ x, c.added = some (some x) → c.watcherError ≠ none
  error : ∀ x, c.watcherError = some x → c.added = some (some x) ∨ c.failure = some x ∨ c.watcher = .none
  value : ∀ e, c.caller = .returned e → (e = none → c.added = some none) ∧ (∀ x, e = some x → c.added = some (some x) ∨ c.failure = some x ∨ c.watcher = .none)
  valueAdd : ∀ e x, c.caller = .returned e → c.added = some (some x) → e ≠ none
  ended : c.failure ≠ none → c.handler = .ended
  logged : c.logged = if (c.starter = .close ∨ c.watcher = .closed) ∧ c.watcherError ≠ none then [none] else []
  events : c.events = c.taken ++ c.queue
  called : c.called = c.taken.filterMap (callbackFor isSet)
  inCallback : ∀ f, c.handler = .callback f → c.called.getLast? = some f

theorem callInv_init : CallInv isSet noCall := by
  constructor <;> simp [noCall, StarterPC.made]

set_option maxHeartbeats 1000000 in
theorem callInv_step {c c' : Call} {a : CallAction} (h : CallInv isSet c) (hs : callStep isSet watchDone closed c a = some c') : CallInv isSet c' := by
  obtain ⟨h1, h2, h3, h4, h5, h6, h7, h8, h9, h10, h11, h12, h13, h14, h15, h16, h17, h18, h19⟩ := h
  have htr := call_tr hs
  clear hs
  cases htr <;> constructor
  case ret.value h hr =>
    intro e he
    simp only [CallerPC.returned.injEq] at he
    subst he
    refine ⟨fun hn => ?_, fun x hx => h12 x hx⟩
    have hx : c.added ≠ none := by
      rcases h6.mp hr with hd | hd | hd | hd
      · exact h9.mpr (.inr (.inl hd))
      · exact h9.mpr (.inr (.inr (.inl hd)))
      · exact h9.mpr (.inr (.inr (.inr (.inl hd))))
      · cases hw : c.watcher with
        | none => exact absurd hn (h10 hd hw)
        | opened => have := h2.mp hw; rw [hd] at this; simp [StarterPC.made] at this
        | closed => exact h9.mpr (.inr (.inr (.inr (.inr hw))))
    cases ha : c.added with
    | none => exact absurd ha hx
    | some y =>
      cases y with
      | none => rfl
      | some y => exact absurd hn (h11 y ha)
  all_goals grind [StarterPC.made]

structure Inv (isSet : Callback → Bool) (s : State) : Prop where
  call : ∀ k, CallInv isSet (s.call k)
  done : ∀ n, s.watchDone = some n → (s.call n).starter.made = true ∨ (s.call n).watcher = .closed
  made : ∀ k, (s.call k).starter.made = true ∨ (s.call k).watcher = .closed → s.watchDone ≠ none
  select : ∀ k d, (s.call k).handler = .select d → ∃ n, d = some n ∧ ((s.call n).starter.made = true ∨ (s.call n).watcher = .closed)
  shut : ∀ n, s.closed n = true → (s.call n).starter.made = true ∨ (s.call n).watcher = .closed

theorem inv_init : Inv isSet init :=
  ⟨fun _ => callInv_init, by simp [init], by simp [init, noCall, StarterPC.made], by simp [init, noCall], by simp [init]⟩

/-- A channel, once made, stays made. -/
theorem made_step {c c' : Call} {a : CallAction} (h : CallInv isSet c) (hs : callStep isSet watchDone closed c a = some c') :
    (c.starter.made = true ∨ c.watcher = .closed → c'.starter.made = true ∨ c'.watcher = .closed) ∧
    (c'.starter.made = true ∨ c'.watcher = .closed → c.starter.made = true ∨ c.watcher = .closed ∨ (a = .starter ∧ c.starter = .makeChan)) := by
  have h1 := h.idle
  have h2 := h.opened
  have h3 := h.closed
  have htr := call_tr hs
  clear hs h
  cases htr <;> grind [StarterPC.made]

theorem select_step {c c' : Call} {a : CallAction} (hs : callStep isSet watchDone closed c a = some c') (d : Option Nat) (hd : c'.handler = .select d) :
    c.handler = .select d ∨ (d = watchDone ∧ c.handler = .enter ∧ a ≠ .starter) := by
  have htr := call_tr hs
  clear hs
  cases htr <;> grind

theorem inv_step {s s' : State} {a : Action} (h : Inv isSet s) (hs : step isSet s a = some s') : Inv isSet s' := by
  obtain ⟨hp, ⟨k, b, c, rfl, hc, rfl⟩ | ⟨rfl, hn, rfl⟩ | ⟨rfl, n, hn, hcl, rfl⟩⟩ := step_cases hs
  · obtain ⟨m1, m2⟩ := made_step (h.call k) hc
    have hs := select_step hc
    have hh := (h.call k).handler
    have ho := (h.call k).opened
    have hmono : ∀ n, (s.call n).starter.made = true ∨ (s.call n).watcher = .closed → (upd s.call k c n).starter.made = true ∨ (upd s.call k c n).watcher = .closed := by
      intro n hx
      by_cases hk : n = k
      · subst hk; rw [upd_same]; exact m1 hx
      · rw [upd_other _ _ hk]; exact hx
    have hnew : b = .starter → (s.call k).starter = .makeChan → c.starter.made = true := by
      intro h1 h2
      subst h1
      have htr := call_tr hc
      cases htr <;> simp_all [StarterPC.made]
    refine ⟨fun k' => ?_, fun n hx => ?_, fun k' hx => ?_, fun k' d hd => ?_, fun n hx => hmono n (h.shut n hx)⟩
    · by_cases hk : k' = k
      · subst hk; simp only [upd_same]; exact callInv_step (h.call k') hc
      · simp only [upd_other _ _ hk]; exact h.call k'
    · simp only at hx ⊢
      split at hx
      · rename_i hb
        simp only [Option.some.injEq] at hx
        subst hx
        rw [upd_same]
        exact .inl (hnew hb.1 hb.2)
      · exact hmono n (h.done n hx)
    · simp only at hx ⊢
      split
      · simp
      · rename_i hb
        by_cases hk : k' = k
        · subst hk
          rw [upd_same] at hx
          rcases m2 hx with h1 | h1 | h1
          · exact h.made k' (.inl h1)
          · exact h.made k' (.inr h1)
          · exact absurd h1 hb
        · rw [upd_other _ _ hk] at hx
          exact h.made k' hx
    · simp only at hd
      by_cases hk : k' = k
      · subst hk
        rw [upd_same] at hd
        rcases hs d hd with h1 | ⟨h1, h2, h3⟩
        · obtain ⟨n, h4, h5⟩ := h.select k' d h1
          exact ⟨n, h4, hmono n h5⟩
        · have h4 : (s.call k').starter.made = true ∨ (s.call k').watcher = .closed := by
            have h5 : (s.call k').watcher ≠ .none ∧ (s.call k').starter ≠ .makeChan := by
              constructor
              · intro hx; rw [hh.mpr (.inl hx)] at h2; simp at h2
              · intro hx; rw [hh.mpr (.inr (.inl hx))] at h2; simp at h2
            cases hw : (s.call k').watcher with
            | none => exact absurd hw h5.1
            | opened => exact .inl ((ho.mp hw).resolve_left h5.2)
            | closed => exact .inr rfl
          have h5 := h.made k' h4
          cases hw : s.watchDone with
          | none => exact absurd hw h5
          | some n => exact ⟨n, by rw [h1, hw], hmono n (h.done n hw)⟩
      · rw [upd_other _ _ hk] at hd
        obtain ⟨n, h4, h5⟩ := h.select k' d hd
        exact ⟨n, h4, hmono n h5⟩
  · exact ⟨h.call, h.done, h.made, h.select, h.shut⟩
  · refine ⟨h.call, h.done, h.made, h.select, fun m hm => ?_⟩
    simp only [upd_apply] at hm
    split at hm
    · rename_i he; subst he; exact h.done _ hn
    · exact h.shut m hm

theorem inv_of_reachable {s : State} (h : Reachable (step isSet) init s) : Inv isSet s :=
  h.invariant (Inv isSet) inv_init fun _ _ _ hi hs => inv_step hi hs

end FileWatcherModel
end Gevulot
