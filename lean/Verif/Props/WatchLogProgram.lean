import Verif.Props.WatchLog
import Verif.Props.Program

/-!
# C112 for the whole program
-/

namespace Gevulot.Program

open CliModel (readServerConfig)
open Process (exampleParse exampleBytes started)

variable {parse : Bytes → Option ConnectionParams} {bytes : Nat → Bytes} {path : Option Nat} {text : Nat → CliModel.Text}

theorem watch_reachable {s : State} (h : Reachable (step parse bytes) (init path text) s) :
    Reachable CliWatch.step (CliWatch.init path text) s.watch :=
  h.invariant (fun s => Reachable CliWatch.step (CliWatch.init path text) s.watch) (.refl _) fun s a s' hr hs => by
    cases a with
    | watch a =>
      obtain ⟨-, -, w, d, h1, -, rfl⟩ := watch_cases hs
      exact hr.next h1
    | rest a =>
      obtain ⟨-, -, x, w, -, h1, rfl⟩ := rest_cases hs
      split at h1
      · exact hr.next (a := .recv) h1
      · simp only [Process.also, Option.some.injEq] at h1
        subst h1
        exact hr

/-- C112 and C105: when the whole program has nothing to do, the handler has not been ended by an error and no change of the file went
without a notification, then the configuration in force is the one in the file, or else there is none in it, and that is what the last
line of `OnWrite` says. -/
theorem C112_program (s : State) (h : Reachable (step parse bytes) (init path text) s) (ho : s.over = false) (hr : AtRest parse bytes s)
    (hm : s.watch.missed = false) (hh : s.watch.call.handler ≠ .ended) :
    ∃ l c, Reachable WatchLog.step (WatchLog.init path text) l ∧ l.watch = s.watch ∧
      s.dist.lastConfig = some (Process.encode c) ∧ s.sys.server.current = some c.listen ∧ ServerModel.lastTried s.sys.server = some c.listen ∧
      (readServerConfig s.watch.current = some c ∨ readServerConfig s.watch.current = none ∧ l.log.getLast? = some s.watch.current) := by
  obtain ⟨l, hl, hlw⟩ := WatchLog.C112_all path text s.watch (watch_reachable h)
  obtain ⟨hrun, -, c, -, k1, k2, k3, k4⟩ := C105_current s h ho hr
  refine ⟨l, c, hl, hlw, k1, k2, k3, ?_⟩
  cases hc : readServerConfig s.watch.current with
  | some c' => exact .inl (congrArg some (k4 hm hh c' hc))
  | none =>
    refine .inr ⟨rfl, ?_⟩
    obtain ⟨cl, h1, h2, h3⟩ := sim_reachable h
    obtain ⟨hw, -⟩ := rest_whole h1 h2 h3 ho hr
    have hab := (Whole.abs_reachable h1).2
    have hx := Process.rest_of_reachable hab ho (Whole.rest_abs h1 ho hw)
    have hcl := (Process.parts_reachable hab).1
    have hs := h2.seen.rest hh
    have hsel : cl.handler = .select ∧ cl.queue = [] := by
      rcases hx.handler with hy | hy | hy
      · exact hy
      · exact absurd hy ((Process.cli_begun hcl).2 hx.running)
      · exact absurd hy (handler_of_rel h2 hh)
    have hlast : s.watch.reads.getLast? = some s.watch.current := by
      rcases CliModel.freshInv_of_reachable hcl (by rw [hx.running]; simp) (hs.2.2.trans hm) with ⟨e, he, -⟩ | h' | h'
      · rw [show (Whole.abs (s.rest cl)).cli = cl from rfl, hsel.2] at he; simp at he
      · rw [show (Whole.abs (s.rest cl)).cli = cl from rfl, hsel.1] at h'; simp at h'
      · rwa [show (Whole.abs (s.rest cl)).cli = cl from rfl, h2.same.reads, current_of_rel h2] at h'
    exact hlw ▸ WatchLog.last_line hl (hlw ▸ hrun) (hlw ▸ hlast) (hlw ▸ hc)

/-- The program has been started and has nothing to do. -/
example : ∃ s, Reachable (step exampleParse exampleBytes) (init (some 0) CliModel.oldText) s ∧ s.over = false ∧ AtRest exampleParse exampleBytes s ∧
    s.watch.missed = false ∧ s.watch.call.handler ≠ .ended := by
  obtain ⟨s, h1, h2, h3, h4, h5⟩ := up_started
  refine ⟨s, h1, ?_, h5, ?_, ?_⟩
  · rw [← over_rest s (Process.after started).cli, h2]; decide +kernel
  · rw [h4]; show (after up).watch.missed = false; decide +kernel
  · rw [h4]; show (after up).watch.call.handler ≠ .ended; decide +kernel

end Gevulot.Program
