import Verif.Model.Distributor

/-!
# pkg/server/config_distributor.go: what the monitor logs

Model/Distributor.lean says what the distributor does. Here is added what each `monitorConfig` goroutine logs (at the debug level).

* The first line is added in the step that starts the goroutine.
* The deferred line is also logged when the goroutine panics, which ends the process.
-/

namespace Gevulot.DistributorLog

/-- The lines, config_distributor.go:175, 176, 183. -/
inductive Line where
  | starting
  | sourceClosed
  | exited
  deriving DecidableEq, Repr

structure State where
  dist : DistributorModel.State
  log : Nat → List Line

def init (caps : Nat → Nat) : State := { dist := DistributorModel.init caps, log := fun _ => [] }

/-- What monitor `i` logs in this step, config_distributor.go:173-203. -/
def lines (s s' : DistributorModel.State) (a : DistributorModel.Action) (i : Nat) : List Line :=
  match a with
  -- config_distributor.go:115
  | .thread _ => if s.mon i = .notStarted ∧ s'.mon i ≠ .notStarted then [.starting] else []
  -- `Close`, called in config_distributor.go:184, returns at once if the distributor is closed
  | .monTake j => if j = i ∧ s.source = [] then .sourceClosed :: (if s.closed then [.exited] else []) else []
  | .monDone j => if j = i then [.exited] else []
  | .monLock j => if j = i ∧ s.mon i = .closeLock then [.exited] else []
  | .monNotify j _ => if j = i ∧ s'.panicked = true then [.exited] else []
  | _ => []

/-- The distributor makes a step, and its monitors log. -/
def step (s : State) (a : DistributorModel.Action) : Option State :=
  (DistributorModel.step s.dist a).map fun d => { dist := d, log := fun i => s.log i ++ lines s.dist d a i }

end Gevulot.DistributorLog
