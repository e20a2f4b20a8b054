import Verif.Model.Trans

/-!
# pkg/cli

The command line (`Run`, cli.go) as a function of what happens around it; reading the configuration (read_server_config.go);
and the goroutines of the file watcher (file_watcher.go, watch_server_config.go) as a transition system.

* What kingpin makes of the arguments is an input: an error, or which flags were given (cli.go:82). Both `--help` and
  `--version` set `isHelp` (cli.go:79-80).
* A text in the configuration file is what the TOML decoder makes of it: nothing (a syntax or type error), or the values of
  the two settings, if present (config.go:5-11). The empty text decodes to a table without settings. Strings are numbers, `0`
  being the empty string.
* The file system: a path leads to a file (or nowhere), and a file has a text. A watch is on a file, not on a path
  (inotify(7)): writing to the file puts a write event into the queue, where it is merged with an equal event if that is the
  last one still in the queue; renaming another file to the path, or removing the path, removes the watch.
* Anything else may put events into the queue, and the watcher may report an error, at any time.
* The sink of the channel is `server.Run`; receiving from the channel may happen at any time.
-/

namespace Gevulot.CliModel

/-! ## Reading the configuration -/

/-- A decoded TOML text: the settings that are present. -/
structure Table where
  listen : Option Nat
  databaseURL : Option Nat
  deriving DecidableEq, Repr

/-- The text of a file: `none` if it cannot be decoded. -/
abbrev Text := Option Table

/-- server/config.go:5-11 -/
structure Config where
  listen : Nat
  databaseURL : Nat
  deriving DecidableEq, Repr

/-- `readServerConfig`, read_server_config.go:12-29, of a path that leads to a file with this text (or to no readable file):
settings that are absent stay empty. -/
def readServerConfig : Option Text → Option Config
  | none => none
  | some none => none
  | some (some t) => some { listen := t.listen.getD 0, databaseURL := t.databaseURL.getD 0 }

/-! ## The command line -/

/-- The flags given, cli.go:66-80 -/
structure Flags where
  help : Bool
  version : Bool
  verbose : Bool
  path : Nat

/-- `cliArgs`, cli.go:37-49 -/
structure Args where
  isHelp : Bool
  isVersion : Bool
  isVerbose : Bool
  configPath : Nat

/-- What a run does that can be seen from outside. -/
inductive Effect where
  /-- reads the file -/
  | readConfig (path : Nat)
  /-- starts watching the file -/
  | watch (path : Nat)
  /-- calls `runServer` with a channel that contains this configuration -/
  | runServer (c : Config)
  /-- `fmt.Fprintf(c.stderr, …)`: the error as is, or after "failed to load config", or after "server error" -/
  | stderrArgs (e : Nat)
  | stderrConfig (e : Nat)
  | stderrServer (e : Nat)
  deriving DecidableEq, Repr

/-- The surroundings of a run: what kingpin, reading, watching and the server return. Errors are numbers. -/
structure World where
  parse : Except Nat Flags
  read : Nat → Except Nat Config
  watch : Nat → Option Nat
  server : Config → Option Nat

/-- `parseArgs`, cli.go:52-89 -/
def parseArgs (w : World) : Except Nat Args :=
  match w.parse with
  | .error e => .error e
  | .ok f => .ok { isHelp := f.help || f.version, isVersion := false, isVerbose := f.verbose, configPath := f.path }

/-- `prepareConfigChan`, cli.go:101-118: the configuration in the channel or the error, and the effects -/
def prepareConfigChan (w : World) (path : Nat) : Except Nat Config × List Effect :=
  match w.read path with
  | .error e => (.error e, [.readConfig path])
  | .ok c =>
    match w.watch path with
    | some e => (.error e, [.readConfig path, .watch path])
    | none => (.ok c, [.readConfig path, .watch path])

/-- `Run`, cli.go:121-155: the exit code and the effects. (Configuring the logger is left out.) -/
def runCli (w : World) : Nat × List Effect :=
  match parseArgs w with
  | .error e => (1, [.stderrArgs e])
  | .ok args =>
    if args.isHelp || args.isVersion then (0, [])
    else
      match prepareConfigChan w args.configPath with
      | (.error e, eff) => (1, eff ++ [.stderrConfig e])
      | (.ok c, eff) =>
        match w.server c with
        | some e => (1, eff ++ [.runServer c, .stderrServer e])
        | none => (0, eff ++ [.runServer c])

/-! ## The file watcher -/

/-- `fsnotify.Op`: a set of operations -/
structure Ev where
  create : Bool
  write : Bool
  remove : Bool
  rename : Bool
  chmod : Bool
  deriving DecidableEq, Repr

/-- The callbacks of a `fileWatcher`, file_watcher.go:19-24 -/
inductive Callback where
  | onCreate
  | onWrite
  | onRemove
  deriving DecidableEq, Repr

/-- Which callback an event leads to, file_watcher.go:79-94 -/
def dispatch (e : Ev) : Option Callback :=
  if e.create then some .onCreate
  else if e.write then some .onWrite
  else if e.remove then some .onRemove
  else none

/-- `prepareConfigChan`: before reading; before sending; before watching; the watch is set up, and `Watch` is about to return
(file_watcher.go:113-132); after -/
inductive MainPC where
  | read
  | send (c : Config)
  | add
  | watching
  | running
  | failed
  deriving DecidableEq, Repr

/-- The events handler, file_watcher.go:65-110: not yet started; at the `select`; in `OnWrite` before reading
(watch_server_config.go:13); sending (watch_server_config.go:20); returned -/
inductive HandlerPC where
  | idle
  | select
  | read
  | send (c : Config)
  | stopped
  deriving DecidableEq, Repr

structure State where
  /-- the file system: where the path leads to; the texts of the files; how many files there are -/
  path : Option Nat
  text : Nat → Text
  files : Nat
  /-- the file being watched, and the queue of events -/
  watched : Option Nat
  queue : List Ev
  main : MainPC
  handler : HandlerPC
  /-- `configChan`, of capacity 1 -/
  chan : List Config
  /-- not in the code: everything sent and received -/
  sent : List Config
  received : List Config
  /-- not in the code: what was found at the path each time it was read -/
  reads : List (Option Text)
  /-- not in the code: what has been at the path so far -/
  history : List (Option Text)
  /-- not in the code: the file has been changed without a notification since it was first read -/
  missed : Bool

def init (path : Option Nat) (text : Nat → Text) : State :=
  { path := path, text := text, files := match path with | some f => f + 1 | none => 0
    watched := none, queue := [], main := .read, handler := .idle, chan := [], sent := [], received := [], reads := []
    history := [path.map text], missed := false }

/-- What is at the path. -/
def State.current (s : State) : Option Text := s.path.map s.text

/-- The queue merges an event with the last one if that is equal, inotify(7) -/
def push (q : List Ev) (e : Ev) : List Ev := if q.getLast? = some e then q else q ++ [e]

def writeEv : Ev := ⟨false, true, false, false, false⟩
def removeEv : Ev := ⟨false, false, true, false, false⟩

inductive Action where
  /-- `prepareConfigChan` goes on; `watcher.Add` succeeds or fails; `Watch` returns the error that the watcher has reported in the
  meantime (file_watcher.go:100, 132) -/
  | main
  | add (ok : Bool)
  | lost
  /-- the handler takes an event; goes on; gets an error -/
  | event
  | handle
  | error
  /-- the server receives from the channel -/
  | recv
  /-- somebody writes to the file in place; replaces it; removes it -/
  | write (t : Text)
  | replace (t : Text)
  | remove
  /-- some other event is put into the queue -/
  | other (e : Ev)

/-- The file at the path is no longer the one it was. -/
def relink (s : State) (path : Option Nat) (text : Nat → Text) (files : Nat) : State :=
  { s with
    path := path, text := text, files := files
    watched := none
    queue := if s.path ≠ none ∧ s.watched = s.path then push s.queue removeEv else s.queue
    history := s.history ++ [path.map text]
    missed := s.missed || decide (s.main ≠ .read) }

def step (s : State) (a : Action) : Option State :=
  match a with
  | .main =>
    match s.main with
    | .read =>
      match readServerConfig s.current with
      | none => some { s with main := .failed, reads := s.reads ++ [s.current] }
      | some c => some { s with main := .send c, reads := s.reads ++ [s.current] }
    | .send c => if s.chan.length < 1 then some { s with main := .add, chan := s.chan ++ [c], sent := s.sent ++ [c] } else none
    | .watching => some { s with main := .running }
    | _ => none
  | .add ok =>
    match s.main with
    | .add =>
      if ok && s.path.isSome then some { s with main := .watching, watched := s.path, handler := .select }
      else some { s with main := .failed, handler := .select }
    | _ => none
  | .lost => if s.main = .watching ∧ s.handler = .stopped then some { s with main := .failed } else none
  | .event =>
    match s.handler with
    | .select =>
      match s.queue with
      | e :: rest =>
        match dispatch e with
        | some .onWrite => some { s with queue := rest, handler := .read }
        | _ => some { s with queue := rest }
      | [] => none
    | _ => none
  | .handle =>
    match s.handler with
    | .read =>
      match readServerConfig s.current with
      | none => some { s with handler := .select, reads := s.reads ++ [s.current] }
      | some c => some { s with handler := .send c, reads := s.reads ++ [s.current] }
    | .send c => if s.chan.length < 1 then some { s with handler := .select, chan := s.chan ++ [c], sent := s.sent ++ [c] } else none
    | _ => none
  | .error =>
    match s.handler with
    | .select => some { s with handler := .stopped, watched := none }
    | _ => none
  | .recv =>
    match s.chan with
    | c :: rest => some { s with chan := rest, received := s.received ++ [c] }
    | [] => none
  | .write t =>
    match s.path with
    | some f =>
      some { s with
        text := upd s.text f t
        history := s.history ++ [some t]
        queue := if s.watched = some f then push s.queue writeEv else s.queue
        missed := s.missed || (decide (s.main ≠ .read) && decide (s.watched ≠ some f)) }
    | none => none
  | .replace t => some (relink s (some s.files) (upd s.text s.files t) (s.files + 1))
  | .remove => if s.path.isSome then some (relink s none s.text s.files) else none
  | .other e => some { s with queue := push s.queue e }

end Gevulot.CliModel
