import Verif.Model.FullSession
import Verif.Model.FileWatcher

/-!
# Data races

Two goroutines race for a variable if both are about to access it, one of them to write it, and nothing makes one of them wait for
the other: both may make their step in the same state. (Reads and writes of a variable that are ordered by a channel, a lock, a
`go` statement or a wait group are never both possible.) Under Go's memory model nothing is guaranteed about such a program; the
models, which have sequentially consistent memory, are right about the variables for which there is no race.

Here is, for the variables that are accessed by several goroutines without a lock, which goroutines are about to access them.
-/

namespace Gevulot

/-- How a variable is accessed. -/
inductive Access where
  | read
  | write
  deriving DecidableEq, Repr

/-- Two accesses one of which is a write. -/
def Access.conflict : Option Access → Option Access → Bool
  | some .write, some _ => true
  | some _, some .write => true
  | _, _ => false

/-- Two goroutines race. -/
def Race {G : Type} (uses : G → Option Access) : Prop := ∃ a b, a ≠ b ∧ Access.conflict (uses a) (uses b) = true

namespace FullSession

open SessionModel (Peer)

/-- The goroutines of a session: the one that has called `Start`, another one that has called `Close` (and does the closing), and
those of `Start`. -/
inductive Goroutine where
  | start
  | closer
  | inPump (p : Peer)
  | outPump (p : Peer)
  | processing
  deriving DecidableEq, Repr

/-- Accesses to `s.dbConn`: session.go:218; 221; 132-133; 266; 288. (The other fields of a session are set by `NewSession` and only
read after that, or guarded by `s.mu`.) -/
def usesDBConn (s : State) : Goroutine → Option Access
  | .start =>
    match s.hs with
    | .assign _ => some .write
    | .startup _ => some .read
    | _ => if s.base.start = .closing ∧ s.base.closer = .closeDB then some .read else none
  | .closer => if s.base.start ≠ .closing ∧ s.base.closer = .closeDB then some .read else none
  | .inPump .db => if s.base.inPump .db = .recv then some .read else none
  | .outPump .db =>
    match s.base.outPump .db with
    | .write _ => some .read
    | _ => none
  | _ => none

end FullSession

namespace FileWatcherModel

/-- The goroutines of one call of `Watch`. -/
inductive Goroutine where
  | caller
  | starter
  | handler
  deriving DecidableEq, Repr

/-- Accesses to `watcherError` of a call of `Watch`: file_watcher.go:132; 50, 113, 123; 101. -/
def Call.usesError (c : Call) : Goroutine → Option Access
  | .caller => if c.caller = .waiting ∧ c.ready = true then some .read else none
  | .starter =>
    match c.starter with
    | .create => some .write
    | .add => some .write
    | .report => some .read
    | _ => none
  | .handler =>
    match c.handler with
    | .select _ => if c.watcher = .opened then some .write else none
    | _ => none

/-- The goroutines that access `w.watchDone`. -/
inductive DoneUser where
  /-- of a call of `Watch` -/
  | starter (k : Nat)
  | handler (k : Nat)
  /-- a caller of `StopWatch` -/
  | stop (n : Nat)
  deriving DecidableEq, Repr

/-- Accesses to `w.watchDone`: file_watcher.go:62; 106; 137. `stops` says which callers of `StopWatch` there are. -/
def usesDone (stops : Nat → Bool) (s : State) : DoneUser → Option Access
  | .starter k => if (s.call k).starter = .makeChan then some .write else none
  | .handler k => if (s.call k).handler = .enter then some .read else none
  | .stop n => if stops n then some .read else none

end FileWatcherModel

end Gevulot
