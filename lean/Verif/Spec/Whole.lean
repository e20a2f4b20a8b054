import Verif.Model.Whole
import Verif.Spec.Pieces
import Verif.Spec.Process

namespace Gevulot.Spec

/-- The program `s`, in which messages are read and written piece by piece, looks like `t`, in which each message is read in one step and
written in one step: they differ in their sessions only, and there as `LooksLike` says. -/
structure ProgramLooksLike (s : Whole.State) (t : Process.State) : Prop where
  cli : t.cli = s.proc.cli
  dist : t.dist = s.proc.dist
  main : t.main = s.proc.main
  server : t.sys.server = s.proc.sys.server
  toClose : t.sys.toClose = s.proc.sys.toClose
  closing : t.sys.closing = s.proc.sys.closing
  crashed : t.sys.crashed = s.proc.sys.crashed
  session : ∀ u, LooksLike (s.sess u) (t.sys.sess u)

end Gevulot.Spec

namespace Gevulot.Whole

/-- The steps that are gevulot's to make (see `Process.Internal`). -/
def Internal (s : State) : Action → Prop
  | .other a => Process.Internal s.proc a
  | .piece _ _ => True

/-- Gevulot has nothing to do. -/
def AtRest (parse : Bytes → Option ConnectionParams) (bytes : Nat → Bytes) (s : State) : Prop :=
  ∀ a, Internal s a → step parse bytes s a = none

/-- These steps whatever the state, and permanent errors of `Accept`. -/
def Own : Action → Prop
  | .other a => Process.Own a
  | .piece _ _ => True

/-- Somebody changes the file, or puts another in its place. -/
def Changes : Action → Prop
  | .other a => Process.Changes a
  | .piece _ _ => False

/-- No write fails in a way in which none can. -/
def Possible (p : Process.State) : Process.Action → Prop
  | .sys (.session t a) => Pieces.Possible (p.sys.sess t) a
  | _ => True

/-- An execution without such writes. -/
inductive PossibleRun (parse : Bytes → Option ConnectionParams) (bytes : Nat → Bytes) : Process.State → List Process.Action → Process.State → Prop
  | nil (t) : PossibleRun parse bytes t [] t
  | cons {t a u acts t'} : Possible t a → Process.step parse bytes t a = some u → PossibleRun parse bytes u acts t' →
      PossibleRun parse bytes t (a :: acts) t'

end Gevulot.Whole
