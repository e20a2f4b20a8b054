import Verif.Model.CliWatch

/-!
# pkg/cli/watch_server_config.go, pkg/cli/cli.go: what is said about configurations that cannot be loaded

Model/CliWatch.lean says what is done with the configuration file. Here is added the line that `OnWrite` logs when the file cannot be
loaded, and the message of `Run` when `prepareConfigChan` has failed.

* A line stands for the text that was found; the text of the error is left out, and so is the path, which is always the same.
* `Run` returning ends the program (main.go): nothing happens after it. This is the only way for it to return here; the server is left out.
* What `Watch` logs is in Model/FileWatcher.lean (`logged`).
-/

namespace Gevulot.WatchLog

open CliModel (Config Text readServerConfig)

structure State where
  watch : CliWatch.State
  /-- the lines of `OnWrite`, watch_server_config.go:16 -/
  log : List (Option Text)
  /-- cli.go:142: the message has been printed, and `Run` has returned 1 -/
  said : Bool

def init (path : Option Nat) (text : Nat → Text) : State := { watch := CliWatch.init path text, log := [], said := false }

inductive Action where
  /-- a step of Model/CliWatch.lean -/
  | watch (a : CliWatch.Action)
  /-- `Run` prints the message and returns -/
  | run

/-- What `OnWrite` logs in this step, watch_server_config.go:13-18. -/
def lines (s : CliWatch.State) : CliWatch.Action → List (Option Text)
  | .handle =>
    match s.onWrite with
    | .read => if readServerConfig s.current = none then [s.current] else []
    | _ => []
  | _ => []

/-- The transitions. -/
def step (s : State) (a : Action) : Option State :=
  if s.said then none
  else
    match a with
    | .watch a => (CliWatch.step s.watch a).map fun w => { s with watch := w, log := s.log ++ lines s.watch a }
    | .run => if s.watch.main = .failed then some { s with said := true } else none

end Gevulot.WatchLog
