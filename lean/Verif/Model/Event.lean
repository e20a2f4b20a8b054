import Verif.Model.Trans

/-!
# pkg/server/event.go, with `sync.Once` of the Go standard library

Any number of concurrent `Fire` calls, identified by natural numbers. `sync.Once` is modelled as it is written in the Go
standard library (fast path, mutex, second check, deferred store), one atomic operation per step. `HasFired` and receiving
from `Done` are single atomic reads: `fired = 1` and `doneClosed`.
-/

namespace Gevulot.EventModel

/-- Where a call of `Fire` is. -/
inductive PC where
  /-- not called yet -/
  | idle
  /-- called; event.go:26, about to read `o.done` in `Once.Do` -/
  | fastPath
  /-- `o.m.Lock()` of `Once.doSlow` -/
  | lock
  /-- holding the mutex, about to read `o.done` again -/
  | recheck
  /-- event.go:27, `atomic.StoreInt32(&e.fired, 1)` -/
  | store
  /-- event.go:28, `close(e.doneChan)` -/
  | close
  /-- event.go:29, `ret = true`, then the deferred store of `o.done` -/
  | storeDone
  /-- the deferred `o.m.Unlock()`, carrying `ret` -/
  | unlock (ret : Bool)
  /-- event.go:32, returned -/
  | returned (ret : Bool)
  deriving DecidableEq, Repr

/-- An `Event` (event.go:9-13) and the calls on it. -/
structure State where
  /-- `fired == 1` -/
  fired : Bool
  /-- `doneChan` is closed -/
  doneClosed : Bool
  /-- `fireOnce.done` -/
  onceDone : Bool
  /-- `fireOnce.m`: the call that holds it -/
  mutex : Option Nat
  /-- a second `close(e.doneChan)` happened: run-time panic "close of closed channel" -/
  panicked : Bool
  pc : Nat → PC

/-- `NewEvent`, event.go:16-18, before any call. -/
def init : State :=
  { fired := false, doneClosed := false, onceDone := false, mutex := none, panicked := false, pc := fun _ => .idle }

/-- `HasFired`, event.go:41-43. -/
def State.hasFired (s : State) : Bool := s.fired

/-- The next atomic step of call `i` of `Fire`, event.go:23-33. -/
def step (s : State) (i : Nat) : Option State :=
  if s.panicked then none
  else
    match s.pc i with
    | .idle => some { s with pc := upd s.pc i .fastPath }
    | .fastPath => some { s with pc := upd s.pc i (if s.onceDone then .returned false else .lock) }
    | .lock => if s.mutex = none then some { s with mutex := some i, pc := upd s.pc i .recheck } else none
    | .recheck => some { s with pc := upd s.pc i (if s.onceDone then .unlock false else .store) }
    | .store => some { s with fired := true, pc := upd s.pc i .close }
    | .close =>
      if s.doneClosed then some { s with panicked := true }
      else some { s with doneClosed := true, pc := upd s.pc i .storeDone }
    | .storeDone => some { s with onceDone := true, pc := upd s.pc i (.unlock true) }
    | .unlock ret => some { s with mutex := none, pc := upd s.pc i (.returned ret) }
    | .returned _ => none

end Gevulot.EventModel
