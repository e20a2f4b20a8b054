import Verif.Model.ServerLog

/-!
# What the server logs

What the property C110 is stated with.
-/

namespace Gevulot.ServerLog

open ServerModel (Tid Addr AcceptErr PC)

/-- What `Start` says about an attempt to listen. -/
def attempt (x : Tid × Addr × Option Nat) : List Line :=
  match x.2.2 with
  | some _ => [.serving x.2.1]
  | none => [.serving x.2.1, .cantListen x.2.1]

/-- What `Start` says about the attempt it is making. -/
def pending : PC → List Line
  | .startListen a => [.serving a]
  | _ => []

/-- What `Serve` says about the listener before: nothing if there was none, perhaps that closing it failed. -/
def olds : List (List Line) := [[], [.closingOld], [.closingOld, .oldError]]

/-- What `Serve` says about errors of `Accept`: those that do not speak of a closed connection. -/
def complaints (h : List (AcceptErr × Bool)) : List Line := (h.filter fun x => !x.2).map fun x => .acceptError x.1

/-- The errors among what `Accept` has returned. -/
def failures (l : List ServerModel.Outcome) : List AcceptErr := l.filterMap fun o => match o with | .err e => some e | _ => none

/-- The log of a call of `Start`. -/
def StartStory (s : State) (t : Tid) : Prop :=
  s.log t = (s.server.tried.filter fun x => decide (x.1 = t)).flatMap attempt ++ pending (s.server.pc t) ++
    (if s.server.starter = some t ∧ s.server.pc t = .returned .errClosed then [.startFinished] else [])

/-- The log of a call of `Serve`. -/
def ServeStory (l : List Line) (h : List (AcceptErr × Bool)) : PC → Prop
  | .serveCheck _ | .serveLock _ => l = [] ∧ h = []
  | .serveAccept _ | .serveDo _ _ => ∃ old ∈ olds, l = old ++ .ready :: complaints h
  | .returned .errClosed => l = [.changeError]
  | .returned _ => ∃ old ∈ olds, l = old ++ .ready :: (complaints h ++ [.serveFinished])
  | _ => l = [.changeError] ∨ ∃ old ∈ olds, l = old ++ .ready :: (complaints h ++ [.serveFinished])

/-- The log of a call of `ServeConn`. -/
def ConnStory (l : List Line) (c : Nat) : PC → Prop
  | .connCheck => l = []
  | .connRegCheck | .connRegLock | .connRun | .connRemove _ => l = [.newClient c]
  | .returned (.session _) => l = [.newClient c, .connExited c]
  | _ => l = [] ∨ l = [.newClient c, .connExited c]

/-- The log of a call of `Close`. -/
def CloseStory (l : List Line) : PC → Prop
  | .closeFire => l = []
  | .closeLock => l = [.closing]
  | .closeWait _ => ∃ ts : List Tid, l = .closing :: ts.map .sessionError
  | _ => l = [] ∨ ∃ ts : List Tid, l = .closing :: (ts.map .sessionError ++ [.closeExited])

end Gevulot.ServerLog
