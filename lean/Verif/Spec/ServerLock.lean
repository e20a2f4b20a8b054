import Verif.Model.ServerLock
import Verif.Spec.Server

namespace Gevulot.ServerLock

open ServerModel (Tid)

/-- `s` looks like `g`, in which the sections under the mutex are one step each: they differ at most in what the mutex guards, while
somebody has it; in where this thread is; and in which connections `Close` has closed while it is at it. -/
structure LooksLike (s : State) (g : ServerModel.State) : Prop where
  free : s.held = none → g = s.base
  pc : ∀ u, (∀ x, s.held ≠ some (u, x)) → g.pc u = s.base.pc u
  connClosed : ∀ u, s.base.connClosed u = true → g.connClosed u = true
  start : g.start = s.base.start
  shutdown : g.shutdown = s.base.shutdown
  wg : g.wg = s.base.wg
  spawned : g.spawned = s.base.spawned
  lnCount : g.lnCount = s.base.lnCount
  lnOpen : g.lnOpen = s.base.lnOpen
  lnAddr : g.lnAddr = s.base.lnAddr
  current : g.current = s.base.current
  configClosed : g.configClosed = s.base.configClosed
  subscribed : g.subscribed = s.base.subscribed
  updates : g.updates = s.base.updates
  updatesClosed : g.updatesClosed = s.base.updatesClosed
  op : g.op = s.base.op
  starter : g.starter = s.base.starter
  tried : g.tried = s.base.tried
  accepts : g.accepts = s.base.accepts
  jobs : g.jobs = s.base.jobs
  watchdogPanic : g.watchdogPanic = s.base.watchdogPanic
  sendPanic : g.sendPanic = s.base.sendPanic

/-- Steps that the server makes by itself (see `ServerModel.Action.inner`). -/
def Action.inner : Action → Bool
  | .other a => a.inner
  | _ => true

/-- The server has nothing to do. -/
def AtRest (s : State) : Prop := ∀ a, a.inner = true → step s a = none

/-- See `ServerModel.Action.own`. -/
def Action.own : Action → Bool
  | .other a => a.own
  | _ => true

end Gevulot.ServerLock
