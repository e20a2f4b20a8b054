import Verif.Model.CliWatch
import Verif.Model.Whole

/-!
# The whole program, step by step: messages in pieces, and the goroutines of `Watch`

Model/Whole.lean with the watcher's side of Model/CliWatch.lean in the place of Model/Cli.lean. This file only says how they are tied
together:

* A send to the channel made by `prepareConfigChan` (cli.go:109, watch_server_config.go:20) is a step of the watcher's side and `produce`
  of the distributor; a receive is a step of the monitor and `recv` of the watcher's side.
* Of the rest of the watcher's side, the rest of the program sees only whether `prepareConfigChan` has returned, and with an error or
  without (cli.go:138-142).
-/

namespace Gevulot.Program

open ServerModel (Tid)
open SessionModel (Peer)

structure State where
  watch : CliWatch.State
  dist : DistributorModel.State
  sys : System.State
  main : Process.MainPC
  /-- as in Model/Whole.lean -/
  rbuf : Tid → Peer → Bytes
  wrote : Tid → Peer → Nat

def init (path : Option Nat) (text : Nat → CliModel.Text) : State :=
  { watch := CliWatch.init path text, dist := DistributorModel.init fun _ => 1, sys := System.init none, main := .prepare
    rbuf := fun _ _ => [], wrote := fun _ _ => 0 }

/-- The process has ended. -/
def State.over (s : State) : Bool := s.main = .exited || s.dist.panicked || s.sys.crashed

/-- The program, with this for the watcher's side. -/
def State.rest (s : State) (cli : CliModel.State) : Whole.State :=
  { proc := { cli := cli, dist := s.dist, sys := s.sys, main := s.main }, rbuf := s.rbuf, wrote := s.wrote }

/-- Whether `prepareConfigChan` has returned. -/
def seenMain : CliWatch.MainPC → CliModel.MainPC
  | .running => .running
  | .failed => .failed
  | _ => .read

/-- What is seen of the watcher's side: the channel, and whether `prepareConfigChan` has returned. -/
def State.seen (s : State) : CliModel.State :=
  { CliModel.init s.watch.path s.watch.text with main := seenMain s.watch.main, chan := s.watch.chan }

/-- The session of a thread. -/
def State.sess (s : State) (t : Tid) : Pieces.State := (s.rest s.seen).sess t

inductive Action where
  /-- the watcher of the configuration file, or whoever writes to that file -/
  | watch (a : CliWatch.Action)
  /-- the rest -/
  | rest (a : Whole.Action)

/-- What this step of the watcher's side sends to the channel. -/
def sends (w : CliWatch.State) : CliWatch.Action → Option CliModel.Config
  | .main =>
    match w.main with
    | .send c => some c
    | _ => none
  | .handle =>
    match w.onWrite with
    | .send c => some c
    | _ => none
  | _ => none

/-- Whether this step of the rest receives from the channel. -/
def takes (s : State) : Whole.Action → Bool
  | .other (.dist (.monTake _)) => !s.dist.source.isEmpty
  | _ => false

/-- The steps of Model/Whole.lean that are replaced. -/
def replaced : Whole.Action → Bool
  | .other (.cli _) => true
  | _ => false

/-- The transitions. -/
def step (parse : Bytes → Option ConnectionParams) (bytes : Nat → Bytes) (s : State) (a : Action) : Option State :=
  if s.over then none
  else
    match a with
    | .watch .recv => none
    | .watch a =>
      match CliWatch.step s.watch a, Process.also DistributorModel.step s.dist ((sends s.watch a).map fun c => .produce (Process.encode c)) with
      | some w, some d => some { s with watch := w, dist := d }
      | _, _ => none
    | .rest a =>
      if replaced a then none
      else
        match Whole.step parse bytes (s.rest s.seen) a, Process.also CliWatch.step s.watch (if takes s a then some .recv else none) with
        | some x, some w => some { watch := w, dist := x.proc.dist, sys := x.proc.sys, main := x.proc.main, rbuf := x.rbuf, wrote := x.wrote }
        | _, _ => none

end Gevulot.Program
