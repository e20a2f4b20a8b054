import Verif.Model.Server

/-!
# pkg/server/server.go, with the mutex

In Model/Server.lean the sections under `srv.mu` are one step each. Here the mutex is taken and released in steps of their own, and so is
each thing done in between: closing the old listener and setting the new one (server.go:272-287), registering and removing a session
(server.go:308-317, 322-325), and `Close`, which closes the listener, forgets it, closes the sessions one after the other in the
order in which the map is iterated, which is arbitrary, and forgets them (server.go:229-248). Meanwhile every other goroutine
does what it does without the mutex, such as accepting connections from the listener that was just closed, or being refused.

Everything else is a step of Model/Server.lean. In a section a thread remains at the point of Model/Server.lean before it.
-/

namespace Gevulot.ServerLock

open ServerModel (Tid PC Ret closeListener closeResult)

/-- Where a thread is that has the mutex. -/
inductive Section where
  /-- the mutex was taken, nothing was done yet, server.go:275, 311, 325, 232 -/
  | entered
  /-- `changeListener`, server.go:285 -/
  | assign
  /-- `Close`: the listener was closed, with this result, server.go:234 -/
  | forget (r : Ret)
  /-- `Close`: these sessions were not closed yet, server.go:238 -/
  | sessions (r : Ret) (todo : List Tid)
  /-- `Close`, server.go:246 -/
  | reset (r : Ret)
  /-- everything is done; after `Unlock` the thread goes on here -/
  | leave (next : PC)
  deriving DecidableEq, Repr

structure State where
  base : ServerModel.State
  /-- who has the mutex -/
  held : Option (Tid × Section)

def init (current : Option ServerModel.Addr) : State := { base := ServerModel.init current, held := none }

/-- The points of Model/Server.lean before `srv.mu.Lock()`, server.go:272, 308, 322, 229 -/
def locks : PC → Bool
  | .serveLock _ | .connRegLock | .connRemove _ | .closeLock => true
  | _ => false

inductive Action where
  /-- anything that is done without the mutex -/
  | other (a : ServerModel.Action)
  /-- `srv.mu.Lock()` returns -/
  | lock (t : Tid)
  /-- the thread that has the mutex goes on -/
  | inside
  /-- the loop of `Close` comes to this session -/
  | closeSession (u : Tid)

/-- A step for which the mutex must be taken. -/
def locked (s : ServerModel.State) : ServerModel.Action → Bool
  | .thread t => locks (s.pc t)
  | _ => false

/-- The transitions. -/
def step (s : State) (a : Action) : Option State :=
  if s.base.watchdogPanic || s.base.sendPanic then none
  else
    match a with
    | .other a => if locked s.base a then none else (ServerModel.step s.base a).map fun b => { s with base := b }
    | .lock t =>
      match s.held with
      | none => if locks (s.base.pc t) then some { s with held := some (t, .entered) } else none
      | some _ => none
    | .inside =>
      match s.held with
      | some (t, .entered) =>
        match s.base.pc t with
        | .serveLock _ => some { base := { s.base with lnOpen := closeListener s.base }, held := some (t, .assign) }
        | .connRegLock => some { base := { s.base with sessions := t :: s.base.sessions }, held := some (t, .leave .connRun) }
        | .connRemove r => some { base := { s.base with sessions := s.base.sessions.filter (· ≠ t) }, held := some (t, .leave (.returned r)) }
        | .closeLock => some { base := { s.base with lnOpen := closeListener s.base }, held := some (t, .forget (closeResult s.base)) }
        | _ => none
      | some (t, .assign) =>
        match s.base.pc t with
        | .serveLock ln => some { base := { s.base with listener := some ln, installed := s.base.installed ++ [ln] }, held := some (t, .leave (.serveAccept ln)) }
        | _ => none
      | some (t, .forget r) => some { base := { s.base with listener := none }, held := some (t, .sessions r s.base.sessions) }
      | some (t, .sessions r []) => some { s with held := some (t, .reset r) }
      | some (t, .reset r) => some { base := { s.base with sessions := [] }, held := some (t, .leave (.closeWait r)) }
      | some (t, .leave next) => some { base := { s.base with pc := upd s.base.pc t next }, held := none }
      | _ => none
    | .closeSession u =>
      match s.held with
      | some (t, .sessions r todo) =>
        if u ∈ todo then some { base := { s.base with connClosed := upd s.base.connClosed u true }, held := some (t, .sessions r (todo.filter (· ≠ u))) } else none
      | _ => none

end Gevulot.ServerLock
