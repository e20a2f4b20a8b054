import Verif.Model.Cli
import Verif.Model.FileWatcher

/-!
# The unit tests of pkg/cli, of the model

The tests of /repo/pkg/cli, of the model. What they say about texts that are printed by kingpin or by the logger is left out, as these
are not modelled. See Tests/Pg.lean and Tests/Server.lean.
-/

namespace Gevulot.Tests

open CliModel

/-! ## read_server_config_test.go -/

/-- testdata/example.toml; the strings are numbers. -/
def example_toml : Table := { listen := some 4242, databaseURL := some 5432 }

theorem TestReadServerConfig :
    readServerConfig (some (some example_toml)) = some { listen := 4242, databaseURL := 5432 } ∧ readServerConfig none = none := by decide

/-! ## cli_test.go -/

/-- The surroundings in the tests: one file, at path 1, watching works, and `runServer` is `server`. -/
def mockedCli (flags : Flags) (server : Config → Option Nat) : World :=
  { parse := .ok flags
    read := fun path =>
      match readServerConfig (if path = 1 then some (some example_toml) else none) with
      | some c => .ok c
      | none => .error 2
    watch := fun _ => none
    server := server }

def isRunServer : Effect → Bool
  | .runServer _ => true
  | _ => false

/-- The default path of the configuration, 0, leads nowhere: `--verbose` alone ends with 1. -/
theorem TestCliRun :
    (runCli (mockedCli ⟨false, true, false, 0⟩ fun _ => none)).1 = 0 ∧
    (runCli (mockedCli ⟨true, false, false, 0⟩ fun _ => none)).1 = 0 ∧
    (runCli (mockedCli ⟨false, false, true, 0⟩ fun _ => none)).1 = 1 ∧
    -- starts the server
    (runCli (mockedCli ⟨false, false, false, 1⟩ fun _ => none)).2.any isRunServer = true ∧
    -- exit code when there is a server error
    (∀ e, (runCli (mockedCli ⟨false, false, false, 1⟩ fun _ => some e)).1 = 1 ∧
      (runCli (mockedCli ⟨false, false, false, 1⟩ fun _ => some e)).2.getLast? = some (.stderrServer e)) ∧
    -- exit code when server exited without error
    (runCli (mockedCli ⟨false, false, false, 1⟩ fun _ => none)).1 = 0 :=
  ⟨by decide, by decide, by decide, by decide, fun _ => ⟨rfl, rfl⟩, by decide⟩

/-! ## watch_server_config_test.go -/

/-- The text of the file before and after. -/
def listening (a : Nat) : Text := some { listen := some a, databaseURL := none }

/-- The state after `watchServerConfig` has returned nil: file 0 is at the path and is watched. -/
def watching : State :=
  { init (some 0) (fun _ => listening 4242) with main := .running, watched := some 0, handler := .select }

theorem TestWatchServerConfig :
    watching.chan = [] ∧
    ∃ s, run step watching [.write (listening 31337), .event, .handle, .handle] = some s ∧ s.chan.length = 1 ∧
      s.chan.head?.map (·.listen) = some 31337 :=
  ⟨by decide, _, rfl, by decide, by decide⟩

/-! ## file_watcher_test.go -/

open FileWatcherModel in
/-- The first call of `Watch`; all three callbacks are set. -/
theorem TestFileWatcherWatch :
    ∃ s1, run (FileWatcherModel.step fun _ => true) FileWatcherModel.init [.at 0 .watch, .at 0 (.created none), .at 0 .starter, .at 0 .starter,
        .at 0 (.added none), .at 0 .starter, .at 0 .enter, .at 0 .ret] = some s1 ∧
      (s1.call 0).caller = .returned none ∧ (s1.call 0).called = [] ∧
    ∃ s2, run (FileWatcherModel.step fun _ => true) s1 [.at 0 (.arrive writeEv), .at 0 .event] = some s2 ∧ (s2.call 0).called = [.onWrite] ∧
    ∃ s3, run (FileWatcherModel.step fun _ => true) s2 [.at 0 .callbackDone, .at 0 .enter, .stop, .at 0 .stopped, .at 0 .starter,
        .at 0 .starter, .at 0 .starter] = some s3 ∧
      (s3.call 0).starter = .done ∧ (s3.call 0).called = [.onWrite] ∧ s3.panicked = false :=
  ⟨_, rfl, by decide, by decide, _, rfl, by decide, _, rfl, by decide, by decide, by decide⟩

end Gevulot.Tests
