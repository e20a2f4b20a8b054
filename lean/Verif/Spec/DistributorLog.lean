import Verif.Model.DistributorLog

namespace Gevulot.DistributorLog.Spec

/-- The log of a monitor, by where it is. -/
def Story (log : List Line) (panicked : Bool) : DistributorModel.MonPC → Prop
  | .notStarted => log = []
  | .select | .gotten _ => log = [.starting]
  | .notifying _ _ _ => log = [.starting] ∨ panicked = true ∧ log = [.starting, .exited]
  | .closeLock => log = [.starting, .sourceClosed]
  | .exited => log = [.starting, .exited] ∨ log = [.starting, .sourceClosed, .exited]

end Gevulot.DistributorLog.Spec
