import Verif.Model.Process
import Verif.Props.System

/-!
# What is said about the whole program
-/

namespace Gevulot.Spec

/-- A list with its immediate repeats left out. -/
def changes (l : List Nat) : List Nat := l.foldl (fun acc x => if acc.getLast? = some x then acc else acc ++ [x]) []

end Gevulot.Spec

namespace Gevulot.Process

/-- The steps that are gevulot's to make: nobody changes the file, connects or sends, and the watcher and the listeners report
no error. `watcher.Add`, `net.Listen` and `net.Dial` return. -/
def Internal (s : State) : Action → Prop
  | .cli a => a = .main ∨ (∃ ok, a = .add ok) ∨ a = .event ∨ a = .handle ∨ a = .lost
  | .sys a => System.Internal s.sys a
  | _ => True

/-- Gevulot has nothing to do. -/
def AtRest (parse : Bytes → Option ConnectionParams) (bytes : Nat → Bytes) (s : State) : Prop :=
  ∀ a, Internal s a → step parse bytes s a = none

/-- These steps whatever the state, and permanent errors of `Accept`. -/
def Own : Action → Prop
  | .cli a => a = .main ∨ (∃ ok, a = .add ok) ∨ a = .event ∨ a = .handle ∨ a = .lost
  | .sys a => System.Own a
  | _ => True

/-- Somebody changes the file, or puts another in its place. -/
def Changes : Action → Prop
  | .cli (.write _) | .cli (.replace _) | .cli .remove => True
  | _ => False

end Gevulot.Process
