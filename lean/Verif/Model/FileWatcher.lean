import Verif.Model.Cli

/-!
# pkg/cli/file_watcher.go

One `fileWatcher`, on which `Watch` may be called any number of times, by any goroutines, and `StopWatch` likewise, at the level of
the steps of its goroutines. For each call of `Watch` there are the caller, the goroutine that starts and closes the fsnotify
watcher (file_watcher.go:46-126), and the handler of the events (file_watcher.go:65-110).

* `fsnotify.NewWatcher` and `watcher.Add` succeed or fail; events and errors arrive at any time while the watcher is open; its
  channels are closed by `watcher.Close`, and only by that.
* The callbacks are arbitrary; one that does not return is one that makes no further step.
* `w.watchDone` is read and written without synchronisation; memory is sequentially consistent (see Model/Trans.lean). The `select`
  reads it when it is entered, file_watcher.go:70, 106.
* Errors are numbers; nil is `none`.
-/

namespace Gevulot.FileWatcherModel

open CliModel (Ev Callback dispatch)

/-- The caller of `Watch`. -/
inductive CallerPC where
  | idle
  /-- file_watcher.go:129 -/
  | waiting
  | returned (e : Option Nat)
  deriving DecidableEq, Repr

/-- The goroutine that starts and closes the watcher. -/
inductive StarterPC where
  | notStarted
  /-- file_watcher.go:47 -/
  | create
  /-- file_watcher.go:62 -/
  | makeChan
  /-- file_watcher.go:65 -/
  | spawn
  /-- file_watcher.go:113 -/
  | add
  /-- file_watcher.go:116 -/
  | initDone
  /-- file_watcher.go:119 -/
  | wait
  /-- file_watcher.go:123-125 -/
  | report
  /-- the deferred `watcher.Close()`, file_watcher.go:55 -/
  | close
  | done
  deriving DecidableEq, Repr

/-- The handler of the events. -/
inductive HandlerPC where
  | notStarted
  /-- about to enter the `select`, file_watcher.go:70 -/
  | enter
  /-- at the `select`, with the channel that `w.watchDone` was (nil, or made by this call of `Watch`) -/
  | select (done : Option Nat)
  /-- in a callback -/
  | callback (f : Callback)
  | ended
  deriving DecidableEq, Repr

/-- The fsnotify watcher. -/
inductive Watcher where
  | none
  | opened
  | closed
  deriving DecidableEq, Repr

/-- One call of `Watch`. -/
structure Call where
  caller : CallerPC
  starter : StarterPC
  handler : HandlerPC
  /-- `watcherError`, file_watcher.go:38 -/
  watcherError : Option Nat
  /-- `initWG.Done()` has been called -/
  ready : Bool
  watcher : Watcher
  /-- the events that were not taken yet -/
  queue : List Ev
  /-- not in the code: what `watcher.Add` returned -/
  added : Option (Option Nat)
  /-- not in the code: all events; the events taken by the handler; the callbacks called -/
  events : List Ev
  taken : List Ev
  called : List Callback
  /-- not in the code: the error that ended the handler -/
  failure : Option Nat
  /-- the errors printed by file_watcher.go:124 -/
  logged : List (Option Nat)
  deriving DecidableEq, Repr

structure State where
  call : Nat → Call
  /-- `w.watchDone`: nil, or the channel made by this call of `Watch` -/
  watchDone : Option Nat
  /-- the channels that were closed -/
  closed : Nat → Bool
  /-- the process has panicked -/
  panicked : Bool

def noCall : Call :=
  { caller := .idle, starter := .notStarted, handler := .notStarted, watcherError := none, ready := false, watcher := .none, queue := []
    added := none, events := [], taken := [], called := [], failure := none, logged := [] }

/-- `newFileWatcher`, file_watcher.go:29-31 -/
def init : State := { call := fun _ => noCall, watchDone := none, closed := fun _ => false, panicked := false }

/-- What happens in one call of `Watch`. -/
inductive CallAction where
  /-- somebody makes the call; it returns -/
  | watch
  | ret
  /-- `fsnotify.NewWatcher` and `watcher.Add` return -/
  | created (e : Option Nat)
  | added (e : Option Nat)
  /-- the starting goroutine goes on -/
  | starter
  /-- the handler enters the `select`; its callback returns -/
  | enter
  | callbackDone
  /-- the `select` takes an event; an error; finds `Events` or `Errors` closed; finds `watchDone` closed -/
  | event
  | error (e : Nat)
  | channelClosed
  | stopped
  /-- an event arrives -/
  | arrive (e : Ev)
  deriving DecidableEq, Repr

inductive Action where
  | at (k : Nat) (a : CallAction)
  /-- somebody calls `StopWatch`, file_watcher.go:136-138 -/
  | stop
  deriving DecidableEq, Repr

/-- The callback for this event, if there is one: `isSet` says which fields are not nil, file_watcher.go:79-94 -/
def callbackFor (isSet : Callback → Bool) (e : Ev) : Option Callback :=
  match dispatch e with
  | some f => if isSet f then some f else none
  | none => none

/-- The transitions of one call, given `w.watchDone` and which channels are closed. -/
def callStep (isSet : Callback → Bool) (watchDone : Option Nat) (closed : Nat → Bool) (c : Call) (a : CallAction) : Option Call :=
  match a with
  | .watch =>
    match c.caller with
    | .idle => some { c with caller := .waiting, starter := .create }
    | _ => none
  | .ret =>
    match c.caller with
    | .waiting => if c.ready then some { c with caller := .returned c.watcherError } else none
    | _ => none
  | .created e =>
    match c.starter with
    | .create =>
      match e with
      | some _ => some { c with watcherError := e, ready := true, starter := .done }
      | none => some { c with watcher := .opened, starter := .makeChan }
    | _ => none
  | .added e =>
    match c.starter with
    | .add => some { c with watcherError := e, added := some e, starter := .initDone }
    | _ => none
  | .starter =>
    match c.starter with
    | .makeChan => some { c with starter := .spawn }
    | .spawn => some { c with handler := .enter, starter := .add }
    | .initDone => some { c with ready := true, starter := .wait }
    | .wait => if c.handler = .ended then some { c with starter := .report } else none
    | .report =>
      -- it is `err` that is printed, which is nil after file_watcher.go:49-53
      if c.watcherError ≠ none then some { c with logged := c.logged ++ [none], starter := .close } else some { c with starter := .close }
    | .close => some { c with watcher := .closed, starter := .done }
    | _ => none
  | .enter =>
    match c.handler with
    | .enter => some { c with handler := .select watchDone }
    | _ => none
  | .callbackDone =>
    match c.handler with
    | .callback _ => some { c with handler := .enter }
    | _ => none
  | .event =>
    match c.handler with
    | .select _ =>
      match c.queue with
      | e :: rest =>
        match callbackFor isSet e with
        | some f => some { c with queue := rest, taken := c.taken ++ [e], called := c.called ++ [f], handler := .callback f }
        | none => some { c with queue := rest, taken := c.taken ++ [e], handler := .enter }
      | [] => none
    | _ => none
  | .error e =>
    match c.handler with
    | .select _ => if c.watcher = .opened then some { c with watcherError := some e, failure := some e, handler := .ended } else none
    | _ => none
  | .channelClosed =>
    match c.handler with
    | .select _ => if c.watcher = .closed then some { c with handler := .ended } else none
    | _ => none
  | .stopped =>
    match c.handler with
    | .select (some n) => if closed n then some { c with handler := .ended } else none
    | _ => none
  | .arrive e => if c.watcher = .opened then some { c with queue := c.queue ++ [e], events := c.events ++ [e] } else none

/-- The transitions. -/
def step (isSet : Callback → Bool) (s : State) (a : Action) : Option State :=
  if s.panicked then none
  else
    match a with
    | .at k a =>
      (callStep isSet s.watchDone s.closed (s.call k) a).map fun c =>
        { s with
          call := upd s.call k c
          -- file_watcher.go:62
          watchDone := if a = .starter ∧ (s.call k).starter = .makeChan then some k else s.watchDone }
    | .stop =>
      match s.watchDone with
      | none => some { s with panicked := true }
      | some n => if s.closed n then some { s with panicked := true } else some { s with closed := upd s.closed n true }

end Gevulot.FileWatcherModel
