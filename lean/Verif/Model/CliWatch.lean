import Verif.Model.FileWatcher

/-!
# pkg/cli/cli.go, watch_server_config.go and file_watcher.go together

`prepareConfigChan` with the goroutines of `Watch` step by step (Model/FileWatcher.lean) and the configuration file (as in
Model/Cli.lean). In Model/Cli.lean `Watch` is a single step of the main goroutine and the handler of the events begins with it;
here the main goroutine waits in `Watch` while one goroutine creates the fsnotify watcher, starts the handler, adds the path and
releases the main goroutine, each of which may fail, be delayed, or be overtaken by the others.

* There is one `fileWatcher`, on which `Watch` is called once (call 0) and `StopWatch` never; only `OnWrite` is set
  (watch_server_config.go:11-23).
* `watcher.Add` asks the system for a watch, and returns afterwards. From the first of these moments on there are events. Before,
  there are none, as nothing is being watched. Closing the watcher removes the watch.
* What the system and fsnotify do is as in Model/Cli.lean: a watch is on a file, equal events are merged, other events and errors
  come at any time.
-/

namespace Gevulot.CliWatch

open CliModel (Config Text Ev Callback readServerConfig writeEv removeEv)
open FileWatcherModel (CallAction Call)

/-- `prepareConfigChan`, cli.go:101-118: before reading (102); before sending (109); before `Watch` (111,
watch_server_config.go:25); in it; after -/
inductive MainPC where
  | read
  | send (c : Config)
  | watch
  | waiting
  | running
  | failed
  deriving DecidableEq, Repr

/-- `OnWrite`, watch_server_config.go:12-23: not called; before reading (13); sending (20); about to return -/
inductive CallbackPC where
  | none
  | read
  | send (c : Config)
  | done
  deriving DecidableEq, Repr

structure State where
  /-- the file system: where the path leads to; the texts of the files; how many files there are; the file being watched -/
  path : Option Nat
  text : Nat → Text
  files : Nat
  watched : Option Nat
  /-- the `fileWatcher` -/
  fw : FileWatcherModel.State
  /-- `watcher.Add` has asked for the watch, with success or not -/
  registered : Option Bool
  main : MainPC
  onWrite : CallbackPC
  /-- `configChan`, of capacity 1 -/
  chan : List Config
  /-- not in the code: as in Model/Cli.lean -/
  sent : List Config
  received : List Config
  reads : List (Option Text)
  history : List (Option Text)
  missed : Bool

def init (path : Option Nat) (text : Nat → Text) : State :=
  { path := path, text := text, files := match path with | some f => f + 1 | none => 0
    watched := none, fw := FileWatcherModel.init, registered := none, main := .read, onWrite := .none, chan := [], sent := [], received := []
    reads := [], history := [path.map text], missed := false }

/-- What is at the path. -/
def State.current (s : State) : Option Text := s.path.map s.text

/-- The call of `Watch`. -/
def State.call (s : State) : Call := s.fw.call 0

/-- The callbacks that are not nil. -/
def isSet : Callback → Bool
  | .onWrite => true
  | _ => false

/-- A step of the file watcher. -/
def watcherStep (s : State) (a : CallAction) : Option FileWatcherModel.State := FileWatcherModel.step isSet s.fw (.at 0 a)

/-- An event is put into the queue, if it is not merged with the last one. -/
def notify (s : State) (e : Ev) : FileWatcherModel.State :=
  if s.call.queue.getLast? = some e then s.fw else (watcherStep s (.arrive e)).getD s.fw

inductive Action where
  /-- the main goroutine goes on -/
  | main
  /-- `fsnotify.NewWatcher` returns; `watcher.Add` asks for the watch; `watcher.Add` returns -/
  | created (e : Option Nat)
  | register (ok : Bool)
  | added (e : Option Nat)
  /-- the goroutine that starts and closes the watcher goes on -/
  | starter
  /-- the handler enters the `select`; takes an event; gets an error; its callback goes on -/
  | enter
  | event
  | error (e : Nat)
  | handle
  /-- the server receives from the channel -/
  | recv
  /-- somebody writes to the file in place; replaces it; removes it -/
  | write (t : Text)
  | replace (t : Text)
  | remove
  /-- some other event is put into the queue -/
  | other (e : Ev)

/-- The file at the path is no longer the one it was. -/
def relink (s : State) (path : Option Nat) (text : Nat → Text) (files : Nat) : State :=
  { s with
    path := path, text := text, files := files
    watched := none
    fw := if s.path ≠ none ∧ s.watched = s.path then notify s removeEv else s.fw
    history := s.history ++ [path.map text]
    missed := s.missed || decide (s.main ≠ .read) }

/-- The transitions. -/
def step (s : State) (a : Action) : Option State :=
  match a with
  | .main =>
    match s.main with
    | .read =>
      match readServerConfig s.current with
      | none => some { s with main := .failed, reads := s.reads ++ [s.current] }
      | some c => some { s with main := .send c, reads := s.reads ++ [s.current] }
    | .send c => if s.chan.length < 1 then some { s with main := .watch, chan := s.chan ++ [c], sent := s.sent ++ [c] } else none
    | .watch => (watcherStep s .watch).map fun w => { s with fw := w, main := .waiting }
    | .waiting =>
      (watcherStep s .ret).map fun w =>
        { s with fw := w, main := if (w.call 0).caller = .returned none then .running else .failed }
    | _ => none
  | .created e => (watcherStep s (.created e)).map fun w => { s with fw := w }
  | .register ok =>
    if s.call.starter = .add ∧ s.registered = none then
      if ok && s.path.isSome then some { s with registered := some true, watched := s.path } else some { s with registered := some false }
    else none
  | .added e =>
    if s.registered = some e.isNone then (watcherStep s (.added e)).map fun w => { s with fw := w } else none
  | .starter =>
    (watcherStep s .starter).map fun w => { s with fw := w, watched := if s.call.starter = .close then none else s.watched }
  | .enter => (watcherStep s .enter).map fun w => { s with fw := w }
  | .event =>
    (watcherStep s .event).map fun w =>
      { s with fw := w, onWrite := if (w.call 0).handler = .callback .onWrite then .read else s.onWrite }
  | .error e => (watcherStep s (.error e)).map fun w => { s with fw := w }
  | .handle =>
    match s.onWrite with
    | .none => none
    | .read =>
      match readServerConfig s.current with
      | none => some { s with onWrite := .done, reads := s.reads ++ [s.current] }
      | some c => some { s with onWrite := .send c, reads := s.reads ++ [s.current] }
    | .send c => if s.chan.length < 1 then some { s with onWrite := .done, chan := s.chan ++ [c], sent := s.sent ++ [c] } else none
    | .done => (watcherStep s .callbackDone).map fun w => { s with fw := w, onWrite := .none }
  | .recv =>
    match s.chan with
    | c :: rest => some { s with chan := rest, received := s.received ++ [c] }
    | [] => none
  | .write t =>
    match s.path with
    | some f =>
      some { s with
        text := upd s.text f t
        history := s.history ++ [some t]
        fw := if s.watched = some f then notify s writeEv else s.fw
        missed := s.missed || (decide (s.main ≠ .read) && decide (s.watched ≠ some f)) }
    | none => none
  | .replace t => some (relink s (some s.files) (upd s.text s.files t) (s.files + 1))
  | .remove => if s.path.isSome then some (relink s none s.text s.files) else none
  | .other e => if s.registered = some true ∧ s.call.watcher = .opened then some { s with fw := notify s e } else none

end Gevulot.CliWatch
