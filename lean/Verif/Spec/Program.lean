import Verif.Model.Program
import Verif.Props.CliWatch
import Verif.Spec.Whole

namespace Gevulot.Program

/-- The steps that are gevulot's to make (see `CliWatch.Own` and `Process.Internal`). -/
def Internal (s : State) : Action → Prop
  | .watch a => CliWatch.Own a
  | .rest a => Whole.Internal (s.rest s.seen) a

/-- Gevulot has nothing to do. -/
def AtRest (parse : Bytes → Option ConnectionParams) (bytes : Nat → Bytes) (s : State) : Prop :=
  ∀ a, Internal s a → step parse bytes s a = none

/-- These steps whatever the state, and permanent errors of `Accept`. -/
def Own : Action → Prop
  | .watch a => CliWatch.Own a
  | .rest a => Whole.Own a

/-- Somebody changes the file, or puts another in its place. -/
def Changes : Action → Prop
  | .watch (.write _) | .watch (.replace _) | .watch .remove => True
  | _ => False

/-- A step as it is made in Model/Whole.lean: one of the rest; of the watcher's side, what is done from outside. -/
def shown : Action → List Whole.Action
  | .watch a => (CliWatch.outside a).map fun b => .other (.cli b)
  | .rest a => [a]

/-- These steps, in Model/Whole.lean. -/
def isShown : Whole.Action → Bool
  | .other (.cli b) => CliWatch.isOutside b
  | _ => true

end Gevulot.Program
