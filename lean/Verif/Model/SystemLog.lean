import Verif.Model.System
import Verif.Model.ServerLog
import Verif.Model.SessionLog

/-!
# The server with its sessions: what `ServeConn` returns, and all that is logged

Model/System.lean puts the server and the sessions of its connections together, but leaves open what `Session.Start` returns and
does not log. Here the server is that of Model/ServerLog.lean and each session is one of Model/SessionLog.lean, and what `ServeConn`
returns is what `Start` of its session has returned (server.go:207).

* `srv.server` is `sys.server` and `(info t).sess` is `sys.sess t` (C111_one): a step is made in all of them.
* Of an error that `Start` returns it is only kept, on the side of the server, that it is not nil.
* That a session could not be closed (server.go:242) is logged in the step in which `Close` gets the lock, see Model/ServerLog.lean.
-/

namespace Gevulot.SystemLog

open ServerModel (Tid)

structure State where
  sys : System.State
  srv : ServerLog.State
  info : Tid → SessionLog.State

def init (current : Option ServerModel.Addr) : State :=
  { sys := System.init current, srv := ServerLog.init current, info := fun _ => SessionLog.init }

inductive Action where
  /-- a step of the process -/
  | sys (a : System.Action) (n : ServerLog.Note)
  /-- a goroutine of the session of this thread hands its error to its group -/
  | report (t : Tid) (g : SessionLog.Goroutine)

/-- server.go:207: `ServeConn` returns nil if and only if `Start` does. -/
def State.returnsAs (s : State) : System.Action → Bool
  | .server (.sessionEnd t e) => decide (e = none) == decide ((s.info t).ret = some (.group none))
  | _ => true

/-- The server with its log and the sessions with theirs. -/
def State.moved (parse : Bytes → Option ConnectionParams) (s : State) (n : ServerLog.Note) : System.Action → Option (ServerLog.State × (Tid → SessionLog.State))
  | .server b => (ServerLog.step s.srv (b, n)).map fun x => (x, s.info)
  | .closeNext t => (SessionLog.step parse (s.info t) (.sess (.base .callClose))).map fun x => (s.srv, upd s.info t x)
  | .session t b => (SessionLog.step parse (s.info t) (.sess b)).map fun x => (s.srv, upd s.info t x)

/-- The transitions. -/
def step (parse : Bytes → Option ConnectionParams) (s : State) : Action → Option State
  | .sys a n =>
    if s.returnsAs a then
      match System.step parse s.sys a, s.moved parse n a with
      | some y, some x => some { sys := y, srv := x.1, info := x.2 }
      | _, _ => none
    else none
  | .report t g =>
    if s.sys.crashed then none
    else (SessionLog.step parse (s.info t) (.report g)).map fun x => { s with info := upd s.info t x }

end Gevulot.SystemLog
