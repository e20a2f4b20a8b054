import Verif.Model.Cli
import Verif.Model.Distributor
import Verif.Model.System
import Mathlib.Data.Nat.Pairing

/-!
# The whole program: pkg/cli/cli.go, pkg/server/run.go

The configuration file and its watcher (Model/Cli.lean), the configuration distributor (Model/Distributor.lean) and the server
with its sessions (Model/System.lean) as `cli.Run` and `server.Run` put them together. This file only says how they are tied
together; what the steps do is defined in those models. A step of the program is a step of one of the parts, or steps of
several parts at the same time:

* The channel made by `prepareConfigChan` (cli.go:108) is the source of the distributor (run.go:5): sending to it is a step of
  the watcher's side and `produce`, taking from it is a step of the monitor and `recv`.
* `Start` calls `Subscribe` of the distributor (server.go:89), and the channel it subscribes, of capacity 1, is channel 0 of the
  distributor. What the model of the server calls a configuration arriving is the monitor getting to this channel.
* `ServeConn` gives the distributor to its session (server.go:189), which calls `Get` (session.go:329).
* `main` calls `Start`, then the deferred `Close` of the server and of the distributor (run.go:5-11), and then the process ends.
  Nobody else calls these, nobody closes the source, and nobody else has a listener to offer or to close.
* A panic in any goroutine ends the process.

The command line before `prepareConfigChan` (cli.go:121-135) is left out (see `runCli` in Model/Cli.lean).
-/

namespace Gevulot.Process

open ServerModel (Tid PC)

/-- The distributor knows a configuration by a number. -/
def encode (c : CliModel.Config) : DistributorModel.Config := Nat.pair c.listen c.databaseURL

def decode (n : DistributorModel.Config) : CliModel.Config := ⟨n.unpair.1, n.unpair.2⟩

/-- The check given to `Subscribe`, server.go:89-91 -/
def listenChanged : DistributorModel.Check := fun old new =>
  match old with
  | none => true
  | some o => (decode o).listen != (decode new).listen

/-- The main goroutine. -/
inductive MainPC where
  /-- in `prepareConfigChan`, cli.go:138 -/
  | prepare
  /-- in `srv.Start()`, run.go:11 -/
  | start
  /-- in `srv.Close()`, run.go:9 -/
  | closeServer
  /-- in `cfg.Close()`, run.go:6 -/
  | closeConfig
  /-- `os.Exit`, main.go:16 -/
  | exited
  deriving DecidableEq, Repr

structure State where
  cli : CliModel.State
  dist : DistributorModel.State
  sys : System.State
  main : MainPC

def init (path : Option Nat) (text : Nat → CliModel.Text) : State :=
  { cli := CliModel.init path text, dist := DistributorModel.init fun _ => 1, sys := System.init none, main := .prepare }

/-- The caller of the distributor in the session of this thread. (The main goroutine is 0 when it calls `Subscribe`, and 1 when
it calls `Close`.) -/
def getter : Tid → Nat
  | .go n => 2 * n + 2
  | .user n => 2 * n + 3

/-- Who makes the next step. -/
inductive Action where
  /-- the watcher of the configuration file, or whoever writes to that file -/
  | cli (a : CliModel.Action)
  /-- the distributor -/
  | dist (a : DistributorModel.Action)
  /-- the server, a session, or the peers of a session -/
  | sys (a : System.Action)
  /-- the main goroutine goes on -/
  | main
  /-- `Start` calls `Subscribe` -/
  | subscribe
  /-- the session of this thread calls `Get`; its call returns -/
  | get (t : Tid)
  | gotten (t : Tid)

/-- The steps of the parts that make up a step. -/
structure Plan where
  cli : Option CliModel.Action := none
  dist : Option DistributorModel.Action := none
  sys : Option System.Action := none
  main : MainPC

/-- The watcher's side. -/
def planCli (s : State) (a : CliModel.Action) : Option Plan :=
  match a with
  | .main =>
    match s.cli.main with
    | .send c => some { cli := some a, dist := some (.produce (encode c)), main := s.main }
    | _ => some { cli := some a, main := s.main }
  | .handle =>
    match s.cli.handler with
    | .send c => some { cli := some a, dist := some (.produce (encode c)), main := s.main }
    | _ => some { cli := some a, main := s.main }
  | .recv => none
  | _ => some { cli := some a, main := s.main }

/-- The distributor. -/
def planDist (s : State) (a : DistributorModel.Action) : Option Plan :=
  match a with
  | .thread t =>
    match s.dist.pc t with
    -- `Subscribe` succeeds
    | .subLocked (.user _) _ => some { dist := some a, sys := some (.server (.thread (.user 0))), main := s.main }
    -- or fails (`Start` then closes its channel, server.go:87, of which nobody knows)
    | .subCheck (.user _) _ =>
      if s.dist.closed then some { dist := some a, sys := some (.server (.thread (.user 0))), main := s.main }
      else some { dist := some a, main := s.main }
    | .closeFire => if s.dist.closed then some { dist := some a, main := s.main } else some { dist := some a, sys := some (.server .closeConfig), main := s.main }
    | _ => some { dist := some a, main := s.main }
  | .monTake _ =>
    match s.dist.source with
    | _ :: _ => some { cli := some .recv, dist := some a, main := s.main }
    | [] => if s.dist.closed then some { dist := some a, main := s.main } else some { dist := some a, sys := some (.server .closeConfig), main := s.main }
  | .monNotify i (.user _) =>
    match s.dist.mon i with
    | .notifying _ new _ => some { dist := some a, sys := some (.server (.config (decode new).listen)), main := s.main }
    | _ => none
  | .monNotify _ (.getter _) | .cancel _ | .monDone _ | .monLock _ => some { dist := some a, main := s.main }
  | .produce _ | .closeSource | .call _ _ | .userRecv _ | .userLeave _ | .userClose _ => none

/-- The server and its sessions. -/
def planSys (s : State) (a : System.Action) : Option Plan :=
  match a with
  | .server (.thread t) => if s.sys.server.pc t = .startSubscribe then none else some { sys := some a, main := s.main }
  | .server (.takeConfig _) => some { dist := some (.userRecv 0), sys := some a, main := s.main }
  | .server (.noticeShutdown _) => some { dist := some (.userClose 0), sys := some a, main := s.main }
  | .server (.listen _ _) | .server (.accept _ _) | .server (.sessionEnd _ _) | .server (.watchdog _) => some { sys := some a, main := s.main }
  | .server (.call _ _) | .server (.config _) | .server .closeConfig | .server (.userListen _) | .server (.userCloseListener _) => none
  | .closeNext _ => some { sys := some a, main := s.main }
  | .session _ (.getConfig _) => none
  | .session _ _ => some { sys := some a, main := s.main }

/-- The main goroutine. -/
def planMain (s : State) : Option Plan :=
  match s.main with
  | .prepare =>
    match s.cli.main with
    | .running => some { sys := some (.server (.call 0 .start)), main := .start }
    | .failed => some { main := .exited }
    | _ => none
  | .start =>
    match s.sys.server.pc (.user 0) with
    | .returned _ => some { sys := some (.server (.call 1 .close)), main := .closeServer }
    | _ => none
  | .closeServer =>
    match s.sys.server.pc (.user 1) with
    | .returned _ => some { dist := some (.call 1 .close), main := .closeConfig }
    | _ => none
  | .closeConfig =>
    match s.dist.pc 1 with
    | .returned _ => some { main := .exited }
    | _ => none
  | .exited => none

/-- What `Get` has returned, to a session: the `DatabaseURL` of the configuration, or an error. `bytes` says which string a
number stands for. -/
def answer (bytes : Nat → Bytes) : DistributorModel.Ret → Option Bytes
  | .config c => some (bytes (decode c).databaseURL)
  | _ => none

def plan (bytes : Nat → Bytes) (s : State) (a : Action) : Option Plan :=
  match a with
  | .cli a => planCli s a
  | .dist a => planDist s a
  | .sys a => planSys s a
  | .main => planMain s
  | .subscribe =>
    match s.sys.server.pc (.user 0) with
    | .startSubscribe => some { dist := some (.call 0 (.subscribe 0 [listenChanged])), main := s.main }
    | _ => none
  | .get t =>
    match (s.sys.sess t).hs with
    | .config _ => some { dist := some (.call (getter t) .get), main := s.main }
    | _ => none
  | .gotten t =>
    match s.dist.pc (getter t) with
    | .returned r => some { sys := some (.session t (.getConfig (answer bytes r))), main := s.main }
    | _ => none

/-- A step of a part, if it is to make one. -/
def also {σ α : Type} (step : σ → α → Option σ) (s : σ) : Option α → Option σ
  | none => some s
  | some a => step s a

/-- The process has ended. -/
def State.over (s : State) : Bool := s.main = .exited || s.dist.panicked || s.sys.crashed

/-- The transitions. -/
def step (parse : Bytes → Option ConnectionParams) (bytes : Nat → Bytes) (s : State) (a : Action) : Option State :=
  if s.over then none
  else
    match plan bytes s a with
    | none => none
    | some p =>
      match also CliModel.step s.cli p.cli, also DistributorModel.step s.dist p.dist, also (System.step parse) s.sys p.sys with
      | some cli, some dist, some sys => some { cli := cli, dist := dist, sys := sys, main := p.main }
      | _, _, _ => none

end Gevulot.Process
