import Verif.Proofs.WatchLog

/-!
# C112: what is said about configurations that cannot be loaded
-/

namespace Gevulot.WatchLog

open CliModel (Config Text readServerConfig)
open Spec (bad)

/-- C112: of the readings of the file after the first, those that yield no configuration are logged, each once, in the order in which
they were made, and nothing else is. -/
theorem C112 (path : Option Nat) (text : Nat → Text) (s : State) (h : Reachable step (init path text) s) :
    s.log = (s.watch.reads.drop 1).filter bad :=
  (inv_of_reachable h).log

/-- C112_none: so no reading is lost: each has been sent to the server (or is just being sent), or has been logged, or is the first one
and has made the program fail. -/
theorem C112_none (path : Option Nat) (text : Nat → Text) (s : State) (h : Reachable step (init path text) s) :
    ∃ next, next ≤ 1 ∧ s.watch.reads.length = s.watch.sent.length + next + s.log.length + ((s.watch.reads.take 1).filter bad).length := by
  obtain ⟨-, ⟨next, h1, h2⟩, -⟩ := CliWatch.C103_bad path text s.watch (watch_reachable h)
  refine ⟨next.length, h1, ?_⟩
  have h3 : ∀ l : List (Option Text), l.length = (l.filterMap readServerConfig).length + (l.filter bad).length := fun l => by
    induction l with
    | nil => rfl
    | cons x l ih =>
      cases hx : readServerConfig x with
      | none => simp [bad, hx] at ih ⊢; omega
      | some c => simp [bad, hx] at ih ⊢; omega
  have h4 : (s.watch.reads.filter bad).length = ((s.watch.reads.take 1).filter bad).length + ((s.watch.reads.drop 1).filter bad).length := by
    rw [← List.length_append, ← List.filter_append, List.take_append_drop]
  have h5 := h3 s.watch.reads
  rw [← h2, List.length_append, h4, ← C112 path text s h] at h5
  omega

/-- C112_first: if it is the first reading that yields none, the program never sends anything nor logs anything: `prepareConfigChan` has
failed. -/
theorem C112_first (path : Option Nat) (text : Nat → Text) (s : State) (h : Reachable step (init path text) s) (r : Option Text)
    (hr : s.watch.reads.head? = some r) (hb : readServerConfig r = none) : s.watch.main = .failed ∧ s.watch.sent = [] ∧ s.watch.reads = [r] ∧ s.log = [] := by
  have key := h.invariant (fun s => Inv s ∧ ∀ r, s.watch.reads.head? = some r → bad r = true → s.watch.reads = [r])
    ⟨inv_init path text, by simp [init, CliWatch.init]⟩ fun s a s' hi hs => ⟨inv_step hi.1 hs, first_step hi.1 hi.2 hs⟩
  have h1 := key.2 r hr (by simpa [bad] using hb)
  refine ⟨((inv_of_reachable h).first r hr (by simpa [bad] using hb)).1, ?_, h1, by rw [C112 path text s h, h1]; rfl⟩
  obtain ⟨-, ⟨next, -, h2⟩, -⟩ := CliWatch.C103_bad path text s.watch (watch_reachable h)
  rw [h1] at h2
  simp [hb] at h2
  exact h2.1

/-- C112_told: when the program runs, nothing is left to do, the handler has not been ended by an error and no change went without a
notification, then the server has the configuration in the file, or else there is none in it, and that is what the last line says. -/
theorem C112_told (path : Option Nat) (text : Nat → Text) (s : State) (h : Reachable step (init path text) s) (hr : CliWatch.AtRest s.watch)
    (hrun : s.watch.main = .running) (hm : s.watch.missed = false) (hh : s.watch.call.handler ≠ .ended) :
    (∃ c, readServerConfig s.watch.current = some c ∧ s.watch.received.getLast? = some c) ∨
    (readServerConfig s.watch.current = none ∧ s.log.getLast? = some s.watch.current) := by
  have hw := watch_reachable h
  cases hc : readServerConfig s.watch.current with
  | some c => exact .inl ⟨c, rfl, CliWatch.C103_current path text s.watch hw hr hrun hm hh c hc⟩
  | none =>
    refine .inr ⟨rfl, ?_⟩
    exact last_line h hrun (read_last hw hr hrun hm hh) hc

/-- C112_said: `Run` prints that the configuration could not be loaded, and the program ends, only if `prepareConfigChan` has failed; -/
theorem C112_said (path : Option Nat) (text : Nat → Text) (s : State) (h : Reachable step (init path text) s) (hs : s.said = true) :
    s.watch.main = .failed ∧ ∀ a, step s a = none :=
  ⟨(inv_of_reachable h).said hs, fun a => by simp [step, hs]⟩

/-- and it does so when that has failed. -/
theorem C112_fails (s : State) (hn : s.said = false) (hf : s.watch.main = .failed) : step s .run = some { s with said := true } := by
  simp [step, hn, hf]

/-- The rest is Model/CliWatch.lean, -/
theorem C112_watch (path : Option Nat) (text : Nat → Text) (s : State) (h : Reachable step (init path text) s) :
    Reachable CliWatch.step (CliWatch.init path text) s.watch := watch_reachable h

/-- all of it. -/
theorem C112_all (path : Option Nat) (text : Nat → Text) (w : CliWatch.State) (h : Reachable CliWatch.step (CliWatch.init path text) w) :
    ∃ s, Reachable step (init path text) s ∧ s.watch = w :=
  have ⟨s, h1, h2, _⟩ := watch_all h
  ⟨s, h1, h2⟩

/-! ## Examples -/

def after (acts : List Action) : State := (run step (init (some 0) CliModel.oldText) acts).getD (init (some 0) CliModel.oldText)

theorem after_reachable {acts : List Action} (h : (run step (init (some 0) CliModel.oldText) acts).isSome) :
    Reachable step (init (some 0) CliModel.oldText) (after acts) := by
  obtain ⟨s, hs⟩ := Option.isSome_iff_exists.mp h
  exact ⟨acts, by rw [after, hs]; rfl⟩

/-- The program starts; then something that is no configuration is written into the file, then a configuration, and again none. -/
def spoilt : List Action :=
  ([.main, .main, .main, .created none, .starter, .starter, .enter, .register true, .added none, .starter, .main, .recv, .write none, .event, .handle,
    .handle, .enter, .write CliModel.newText, .event, .handle, .handle, .handle, .enter, .recv, .write none, .event, .handle, .handle, .enter] :
    List CliWatch.Action).map .watch

example : Reachable step (init (some 0) CliModel.oldText) (after spoilt) ∧ (after spoilt).log = [some none, some none] ∧
    (after spoilt).watch.received = [⟨1, 1⟩, ⟨2, 2⟩] ∧ (after spoilt).watch.main = .running ∧ (after spoilt).watch.missed = false ∧
    (after spoilt).watch.call.handler ≠ .ended ∧ readServerConfig (after spoilt).watch.current = none :=
  ⟨after_reachable (by decide +kernel), by decide +kernel, by decide +kernel, by decide +kernel, by decide +kernel, by decide +kernel, by decide +kernel⟩
example : CliWatch.AtRest (after spoilt).watch :=
  CliWatch.rest_of _ (by decide +kernel) (by decide +kernel) (by decide +kernel) (by decide +kernel) (.inl ⟨⟨some 0, by decide +kernel⟩, by decide +kernel⟩)

/-- There is none at the start. -/
def none' : List Action := [.watch .remove, .watch .main]

example : Reachable step (init (some 0) CliModel.oldText) (after none') ∧ (after none').watch.reads.head? = some none ∧ readServerConfig none = none ∧
    (after none').said = false ∧ (after none').watch.main = .failed ∧ (after (none' ++ [.run])).said = true :=
  ⟨after_reachable (by decide +kernel), by decide +kernel, by decide +kernel, by decide +kernel, by decide +kernel, by decide +kernel⟩

end Gevulot.WatchLog
