import Verif.Model.FullSession
import Verif.Model.Server

/-!
# pkg/server: the server together with its sessions

Model/Server.lean treats a session as something that ends whenever it likes, and takes all of `Close`'s work under the lock
as one step. Here each `ServeConn` runs a session of Model/FullSession.lean, and the lock is held for as long as `Close` is
closing the sessions, one after the other (server.go:229-247):

* `Session.Start` is called by `ServeConn` after the session was registered (server.go:207), and `ServeConn` goes on when it
  has returned. Nobody else calls it.
* `Session.Close` is called by `Start` itself and by `Server.Close`, by nobody else.
* A panic in any goroutine ends the process, with all sessions.

Everything in this file is about how the two models are tied together; what the steps do is defined there. What a session's
`cfg.Get()` returns is arbitrary.
-/

namespace Gevulot.System

open ServerModel (Tid PC)

/-- A process: a server, the session of each `ServeConn`, named after its thread, and where `Server.Close` is. -/
structure State where
  server : ServerModel.State
  sess : Tid → FullSession.State
  /-- the sessions that the loop in `Server.Close` (server.go:237-243) has not got to yet -/
  toClose : List Tid
  /-- the session it is closing right now, with the call of `Session.Close` that does the closing -/
  closing : Option Tid
  /-- the process has panicked -/
  crashed : Bool

/-- `NewServer`, server.go:54-60. -/
def init (current : Option ServerModel.Addr) : State :=
  { server := ServerModel.init current, sess := fun _ => FullSession.init, toClose := [], closing := none, crashed := false }

/-- Who makes the next step. -/
inductive Action where
  /-- the server, or its surroundings -/
  | server (a : ServerModel.Action)
  /-- `Server.Close` gets to the next session -/
  | closeNext (t : Tid)
  /-- the session of this thread, or its peers -/
  | session (t : Tid) (a : FullSession.Action)

/-- The call of `Session.Close` made by `Server.Close` has returned. -/
def State.closeReturned (s : State) : Bool :=
  match s.closing with
  | none => true
  | some t => (s.sess t).base.closer = .done

/-- `Server.Close` holds the lock. -/
def State.locked (s : State) : Bool := !(s.toClose.isEmpty && s.closeReturned)

/-- The steps of a thread that begin with `srv.mu.Lock()`, or come after `srv.mu.Unlock()` in `Close`. -/
def afterLock : PC → Bool
  | .serveLock _ | .connRegLock | .connRemove _ | .closeLock | .closeWait _ => true
  | _ => false

/-- Whether the server may make this step. -/
def State.allows (s : State) : ServerModel.Action → Bool
  | .thread t | .watchdog t => !(s.locked && afterLock (s.server.pc t))
  -- server.go:207: `ServeConn` goes on when `Start` has returned
  | .sessionEnd t _ => (s.sess t).base.start = .returned
  | _ => true

/-- Whether a session may make this step: `Start` is called by `ServeConn`, `Close` by the server (`closeNext`). -/
def State.sessionMay (s : State) (t : Tid) : FullSession.Action → Bool
  | .base .callStart => s.server.pc t = .connRun
  | .base .callClose => false
  | _ => true

/-- The transitions. -/
def step (parse : Bytes → Option ConnectionParams) (s : State) (a : Action) : Option State :=
  if s.crashed then none
  else
    match a with
    | .server a =>
      if s.allows a then
        (ServerModel.step s.server a).map fun srv =>
          { s with
            server := srv
            -- server.go:229-237: `Close` has the lock and begins with the loop over the sessions
            toClose := match a with
              | .thread t => if s.server.pc t = .closeLock then s.server.sessions else s.toClose
              | _ => s.toClose
            crashed := srv.watchdogPanic || srv.sendPanic }
      else none
    | .closeNext t =>
      if t ∈ s.toClose ∧ s.closeReturned then
        (FullSession.step parse (s.sess t) (.base .callClose)).map fun x =>
          { s with
            sess := upd s.sess t x
            toClose := s.toClose.filter (· ≠ t)
            -- session.go:118: a call that does not win `Fire` returns at once
            closing := if (s.sess t).base.fired then none else some t }
      else none
    | .session t a =>
      if s.sessionMay t a then
        (FullSession.step parse (s.sess t) a).map fun x => { s with sess := upd s.sess t x, crashed := x.base.crashed }
      else none

end Gevulot.System
