import Verif.Model.Server

/-!
# pkg/server/server.go: what the server logs

Model/Server.lean says what the server does. Here is added what each of its calls and goroutines logs.

* Each thread has a log of its own: how lines of different threads are interleaved is left open. A line is added in the step that
  leads to it; lines of deferred calls in the step in which the function returns.
* `Note` has what Model/Server.lean leaves open and the log depends on: whether the text of an error of `Accept` speaks of a closed
  connection, and which sessions could not be closed without an error.
* The texts of errors are left out.
-/

namespace Gevulot.ServerLog

open ServerModel (Tid Addr AcceptErr)

/-- The lines of the server. -/
inductive Line where
  /-- "server: serving on %s", server.go:104 -/
  | serving (a : Addr)
  /-- "server: can't listen on %s: %v", server.go:110 -/
  | cantListen (a : Addr)
  /-- "server: Start() loop finished", server.go:98 -/
  | startFinished
  /-- "server: error has been occurred while changing listeners: %v", server.go:134 -/
  | changeError
  /-- "server: closing the old listener", server.go:276 -/
  | closingOld
  /-- "server: error while closing old listener: %v", server.go:281 -/
  | oldError
  /-- "server: ready to accept client connections", server.go:138 -/
  | ready
  /-- "server: error while accepting client connection: %v", server.go:155 -/
  | acceptError (e : AcceptErr)
  /-- "server: Serve() loop finished", server.go:146 -/
  | serveFinished
  /-- "server: new client connection from %s", server.go:186 -/
  | newClient (conn : Nat)
  /-- "serve: ServeConn() for %s exited", server.go:184 -/
  | connExited (conn : Nat)
  /-- "server: closing", server.go:221 -/
  | closing
  /-- "server: error closing session: %v", server.go:242 -/
  | sessionError (t : Tid)
  /-- "server: Close() exited", server.go:224 -/
  | closeExited
  deriving DecidableEq, Repr

/-- What the log depends on and the server does not. -/
structure Note where
  /-- the error of `Accept` contains "use of closed network connection", server.go:154 -/
  closedText : Bool
  /-- `s.Close()` of this session returns an error, server.go:239 -/
  closeFails : Tid → Bool

structure State where
  server : ServerModel.State
  log : Tid → List Line
  /-- not in the code: the errors that the `Accept` of each thread has returned, and whether they speak of a closed connection -/
  heard : Tid → List (AcceptErr × Bool)

def init (current : Option Addr) : State :=
  { server := ServerModel.init current, log := fun _ => [], heard := fun _ => [] }

/-- Closing the old listener in `changeListener`, server.go:275-283 -/
def oldLines (s : ServerModel.State) : List Line :=
  match s.listener with
  | some ln => if s.lnOpen ln then [.closingOld] else [.closingOld, .oldError]
  | none => []

/-- The connection that `ServeConn` of this thread was given. -/
def connLine (s : ServerModel.State) (t : Tid) (f : Nat → Line) : List Line :=
  match s.op t with
  | some (.serveConn c) => [f c]
  | _ => []

/-- The lines that a step of the thread adds. -/
def threadLines (s : ServerModel.State) (t : Tid) (n : Note) : List Line :=
  match s.pc t with
  | .serveCheck _ => if s.shutdown then [.changeError] else []
  | .serveLock _ => oldLines s ++ [.ready]
  | .connCheck => if s.shutdown then [] else connLine s t .newClient
  | .connRegCheck => if s.shutdown then connLine s t .connExited else []
  | .connRemove _ => connLine s t .connExited
  | .closeFire => if s.shutdown then [] else [.closing]
  | .closeLock => (s.sessions.filter n.closeFails).map .sessionError
  | .closeWait _ => [.closeExited]
  | _ => []

/-- The lines that a step adds. -/
def lines (s : ServerModel.State) (n : Note) : ServerModel.Action → List Line
  | .thread t => threadLines s t n
  | .takeConfig _ => (s.updates.head?.map Line.serving).toList
  | .noticeShutdown _ => [.startFinished]
  | .listen t ok =>
    match s.pc t with
    | .startListen a => if ok then [] else [.cantListen a]
    | _ => []
  | .accept _ (.err e) => (if n.closedText then [] else [.acceptError e]) ++ if e.survived then [] else [.serveFinished]
  | _ => []

/-- Who logs them. -/
def who : ServerModel.Action → Option Tid
  | .thread t | .takeConfig t | .noticeShutdown t | .listen t _ | .accept t _ => some t
  | _ => none

/-- The error of `Accept` that the step is about. -/
def failure (n : Note) : ServerModel.Action → List (AcceptErr × Bool)
  | .accept _ (.err e) => [(e, n.closedText)]
  | _ => []

/-- The server makes a step and logs. -/
def step (s : State) (a : ServerModel.Action × Note) : Option State :=
  match ServerModel.step s.server a.1 with
  | some s' =>
    some
      { server := s'
        log := fun t => if who a.1 = some t then s.log t ++ lines s.server a.2 a.1 else s.log t
        heard := fun t => if who a.1 = some t then s.heard t ++ failure a.2 a.1 else s.heard t }
  | none => none

end Gevulot.ServerLog
