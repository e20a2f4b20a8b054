import Verif.Model.Trans

/-!
# pkg/server/server.go

The server as a transition system: any number of calls of `Start`, `Serve`, `ServeConn` and `Close`, each made by its own
thread, the goroutines the server starts with `do`, the configuration store, and the owners of listeners and connections.

* The sections of the code under `srv.mu` are one step each: the fields they touch are touched nowhere else, and closing a
  listener or a session does not block. What the closing makes other goroutines do happens after that step.
* The events `start` and `shutdown` are atomic flags (justified by C41, C42).
* A session is what one call of `ServeConn` runs; it is named after the thread. `Session.Start` ends whenever it likes, and
  has then closed its connection (session.go:83). How sessions behave is modelled in `Verif.Model.Session`.
* A configuration is its listening address; the rest of it is of no interest to the server. The configuration store is a
  distributor as specified in `Verif.Spec.Distributor` (C44): after `Subscribe` the channel gets the current configuration
  and every later one with another listening address. A send blocks while the channel is full and panics when it is closed.
* `do` (server.go:292-299): adding to the wait group and starting the goroutine are one step. The wait group is a counter; that its
  implementation behaves like one is C87, in `Verif.Model.WaitGroup`. `Accept` and the `do` that follows are two steps.
* A listener is a number, given out by `net.Listen`. Accepting on a closed listener gives no connection. Any error may be
  returned by `Accept` at any time.
* The watchdog of `Close` may fire at any time while `Close` waits (time is not modelled).
* Logging and the test hooks (nil outside of tests) are left out.
-/

namespace Gevulot.ServerModel

/-- A listening address, config.go:6 -/
abbrev Addr := Nat

/-- A thread: a caller of the API, or a goroutine started by `do`, numbered in the order in which they were started. -/
inductive Tid where
  | user (n : Nat)
  | go (n : Nat)
  deriving DecidableEq, Repr

/-- The calls. -/
inductive Op where
  | start
  | serve (ln : Nat)
  | serveConn (conn : Nat)
  | close
  deriving DecidableEq, Repr

/-- An error of `Accept`: whether it is a `net.Error` and what `Temporary()` says then, server.go:159-160 -/
structure AcceptErr where
  isNetError : Bool
  temporary : Bool
  deriving DecidableEq, Repr

/-- What `Accept` returns. -/
inductive Outcome where
  | conn (c : Nat)
  | err (e : AcceptErr)
  deriving DecidableEq, Repr

/-- What a call returns. -/
inductive Ret where
  | nil
  /-- `ErrServerClosed` -/
  | errClosed
  /-- `ErrServerAlreadyStarted` -/
  | errStarted
  /-- the error of `config.Subscribe` -/
  | errConfig
  /-- the error of `Accept` -/
  | errAccept (e : AcceptErr)
  /-- the error of `listener.Close()` -/
  | errListener
  /-- what `Session.Start` returned -/
  | session (e : Option Nat)
  deriving DecidableEq, Repr

/-- Where a thread is. -/
inductive PC where
  | idle
  /-- `Start`, server.go:76 -/
  | startCheck
  /-- `Start`, server.go:81 -/
  | startFire
  /-- `Start`, server.go:89 -/
  | startSubscribe
  /-- `Start`, server.go:101 -/
  | startLoop
  /-- `Start`, server.go:107 -/
  | startListen (a : Addr)
  /-- `Start`, server.go:115 -/
  | startDo (ln : Nat)
  /-- `Serve`, `changeListener`, server.go:268 -/
  | serveCheck (ln : Nat)
  /-- `Serve`, `changeListener`, server.go:272 -/
  | serveLock (ln : Nat)
  /-- `Serve`, server.go:150 -/
  | serveAccept (ln : Nat)
  /-- `Serve`, server.go:169: a connection has been accepted -/
  | serveDo (ln : Nat) (conn : Nat)
  /-- `ServeConn`, server.go:179 -/
  | connCheck
  /-- `ServeConn`, `registerSession`, server.go:304 -/
  | connRegCheck
  /-- `ServeConn`, `registerSession`, server.go:308 -/
  | connRegLock
  /-- `ServeConn`, in `Session.Start`, server.go:207 -/
  | connRun
  /-- `ServeConn`, the deferred `removeSession`, server.go:199, 322 -/
  | connRemove (r : Ret)
  /-- `Close`, server.go:217 -/
  | closeFire
  /-- `Close`, server.go:229 -/
  | closeLock
  /-- `Close`, server.go:257 -/
  | closeWait (r : Ret)
  | returned (r : Ret)
  /-- a goroutine after `wg.Done()`, server.go:296 -/
  | done
  deriving DecidableEq, Repr

/-- The server and its surroundings, server.go:22-51. -/
structure State where
  start : Bool
  shutdown : Bool
  listener : Option Nat
  /-- the keys of `sessions` -/
  sessions : List Tid
  wg : Nat
  pc : Tid → PC
  /-- how many goroutines were started by `do` -/
  spawned : Nat
  /-- listeners: how many were made, which are open, and their addresses -/
  lnCount : Nat
  lnOpen : Nat → Bool
  lnAddr : Nat → Addr
  /-- the connection given to the `ServeConn` of this thread has been closed -/
  connClosed : Tid → Bool
  /-- the configuration store: the current listening address; whether it is closed -/
  current : Option Addr
  configClosed : Bool
  /-- the channel made by `Start`: whether it is subscribed, its buffer (of capacity 1), whether it is closed -/
  subscribed : Bool
  updates : List Addr
  updatesClosed : Bool
  /-- not in the code: which call each thread executes -/
  op : Tid → Option Op
  /-- not in the code: which thread has fired `start` -/
  starter : Option Tid
  /-- not in the code: the attempts of `Start` to listen, with the thread and, if it worked, the listener -/
  tried : List (Tid × Addr × Option Nat)
  /-- not in the code: the listeners set by `changeListener`, in that order -/
  installed : List Nat
  /-- not in the code: what `Accept` has returned to the `Serve` of each thread -/
  accepts : Tid → List Outcome
  /-- not in the code: who started which goroutine -/
  jobs : List (Tid × Op)
  /-- the process has panicked: in the watchdog; or sending a configuration -/
  watchdogPanic : Bool
  sendPanic : Bool

/-- `NewServer`, server.go:54-60, in a process in which a configuration may or may not have arrived already. -/
def init (current : Option Addr) : State :=
  { start := false, shutdown := false, listener := none, sessions := [], wg := 0, pc := fun _ => .idle, spawned := 0
    lnCount := 0, lnOpen := fun _ => false, lnAddr := fun _ => 0, connClosed := fun _ => false
    current := current, configClosed := false, subscribed := false, updates := [], updatesClosed := false
    op := fun _ => none, starter := none, tried := [], installed := [], accepts := fun _ => [], jobs := []
    watchdogPanic := false, sendPanic := false }

/-- Who makes the next step. -/
inductive Action where
  /-- thread `n` makes a call -/
  | call (n : Nat) (op : Op)
  /-- the thread goes on -/
  | thread (t : Tid)
  /-- the `select` in `Start` takes a configuration; or notices the shutdown -/
  | takeConfig (t : Tid)
  | noticeShutdown (t : Tid)
  /-- `net.Listen` in `Start` succeeds, or fails -/
  | listen (t : Tid) (ok : Bool)
  /-- `Accept` returns -/
  | accept (t : Tid) (o : Outcome)
  /-- `Session.Start` returns -/
  | sessionEnd (t : Tid) (e : Option Nat)
  /-- the watchdog of `Close` fires -/
  | watchdog (t : Tid)
  /-- a new configuration with this listening address arrives -/
  | config (a : Addr)
  /-- the configuration store is closed -/
  | closeConfig
  /-- somebody else opens a listener (to give it to `Serve`), or closes one -/
  | userListen (a : Addr)
  | userCloseListener (ln : Nat)

/-- The first step of a call. -/
def entry : Op → PC
  | .start => .startCheck
  | .serve ln => .serveCheck ln
  | .serveConn _ => .connCheck
  | .close => .closeFire

/-- `Serve` is called with a listener that somebody has opened before. -/
def Op.exists (s : State) : Op → Bool
  | .serve ln => decide (ln < s.lnCount)
  | _ => true

/-- `srv.do(f)`, server.go:292-299 -/
def spawn (s : State) (t : Tid) (op : Op) : State :=
  { s with wg := s.wg + 1, spawned := s.spawned + 1, pc := upd s.pc (.go s.spawned) (entry op), op := upd s.op (.go s.spawned) (some op), jobs := s.jobs ++ [(t, op)] }

/-- `net.Listen` -/
def openListener (s : State) (a : Addr) : State :=
  { s with lnCount := s.lnCount + 1, lnOpen := upd s.lnOpen s.lnCount true, lnAddr := upd s.lnAddr s.lnCount a }

/-- The check given to `Subscribe`, server.go:89-91 -/
def addressChanged (old : Option Addr) (new : Addr) : Bool :=
  match old with
  | none => true
  | some a => a != new

/-- Errors after which `Serve` goes on, server.go:160 -/
def AcceptErr.survived (e : AcceptErr) : Bool := e.isNetError && e.temporary

/-- `srv.listener.Close()` if there is one, server.go:232, 275 -/
def closeListener (s : State) : Nat → Bool :=
  match s.listener with
  | some ln => upd s.lnOpen ln false
  | none => s.lnOpen

/-- What that returns: closing a closed listener is an error. -/
def closeResult (s : State) : Ret :=
  match s.listener with
  | some ln => if s.lnOpen ln then .nil else .errListener
  | none => .nil

/-- The transitions. -/
def step (s : State) (a : Action) : Option State :=
  if s.watchdogPanic || s.sendPanic then none
  else
    match a with
    | .call n op =>
      match s.pc (.user n) with
      | .idle =>
        if op.exists s then some { s with pc := upd s.pc (.user n) (entry op), op := upd s.op (.user n) (some op) } else none
      | _ => none
    | .thread t =>
      match s.pc t with
      | .startCheck => some { s with pc := upd s.pc t (if s.shutdown then .returned .errClosed else .startFire) }
      | .startFire =>
        if s.start then some { s with pc := upd s.pc t (.returned .errStarted) }
        else some { s with start := true, starter := some t, pc := upd s.pc t .startSubscribe }
      | .startSubscribe =>
        if s.configClosed then some { s with updatesClosed := true, pc := upd s.pc t (.returned .errConfig) }
        else some { s with subscribed := true, updates := s.current.toList, pc := upd s.pc t .startLoop }
      | .startDo ln =>
        let s := spawn s t (.serve ln)
        some { s with pc := upd s.pc t .startLoop }
      | .serveCheck ln => some { s with pc := upd s.pc t (if s.shutdown then .returned .errClosed else .serveLock ln) }
      | .serveLock ln =>
        some { s with lnOpen := closeListener s, listener := some ln, installed := s.installed ++ [ln], pc := upd s.pc t (.serveAccept ln) }
      | .serveDo ln c =>
        let s := spawn s t (.serveConn c)
        some { s with pc := upd s.pc t (.serveAccept ln) }
      | .connCheck => some { s with pc := upd s.pc t (if s.shutdown then .returned .errClosed else .connRegCheck) }
      | .connRegCheck => some { s with pc := upd s.pc t (if s.shutdown then .returned .errClosed else .connRegLock) }
      | .connRegLock => some { s with sessions := t :: s.sessions, pc := upd s.pc t .connRun }
      | .connRemove r => some { s with sessions := s.sessions.filter (· ≠ t), pc := upd s.pc t (.returned r) }
      | .closeFire =>
        if s.shutdown then some { s with pc := upd s.pc t (.returned .nil) }
        else some { s with shutdown := true, pc := upd s.pc t .closeLock }
      | .closeLock =>
        some { s with lnOpen := closeListener s, listener := none, connClosed := fun x => s.connClosed x || decide (x ∈ s.sessions), sessions := [], pc := upd s.pc t (.closeWait (closeResult s)) }
      | .closeWait r => if s.wg = 0 then some { s with pc := upd s.pc t (.returned r) } else none
      | .returned _ =>
        match t with
        | .go _ => some { s with wg := s.wg - 1, pc := upd s.pc t .done }
        | .user _ => none
      | _ => none
    | .takeConfig t =>
      match s.pc t with
      | .startLoop =>
        match s.updates with
        | a :: rest => some { s with updates := rest, pc := upd s.pc t (.startListen a) }
        | [] => none
      | _ => none
    | .noticeShutdown t =>
      match s.pc t with
      | .startLoop => if s.shutdown then some { s with updatesClosed := true, pc := upd s.pc t (.returned .errClosed) } else none
      | _ => none
    | .listen t ok =>
      match s.pc t with
      | .startListen a =>
        if ok then
          let s' := openListener s a
          some { s' with tried := s.tried ++ [(t, a, some s.lnCount)], pc := upd s.pc t (.startDo s.lnCount) }
        else some { s with tried := s.tried ++ [(t, a, none)], pc := upd s.pc t .startLoop }
      | _ => none
    | .accept t o =>
      match s.pc t with
      | .serveAccept ln =>
        match o with
        | .conn c =>
          if s.lnOpen ln then some { s with accepts := upd s.accepts t (s.accepts t ++ [o]), pc := upd s.pc t (.serveDo ln c) }
          else none
        | .err e =>
          if e.survived then some { s with accepts := upd s.accepts t (s.accepts t ++ [o]) }
          else some { s with accepts := upd s.accepts t (s.accepts t ++ [o]), pc := upd s.pc t (.returned (.errAccept e)) }
      | _ => none
    | .sessionEnd t e =>
      match s.pc t with
      | .connRun => some { s with connClosed := upd s.connClosed t true, pc := upd s.pc t (.connRemove (.session e)) }
      | _ => none
    | .watchdog t =>
      match s.pc t with
      | .closeWait _ => some { s with watchdogPanic := true }
      | _ => none
    | .config a =>
      if s.configClosed then none
      else if s.subscribed && addressChanged s.current a then
        if s.updatesClosed then some { s with current := some a, sendPanic := true }
        else if s.updates.length < 1 then some { s with current := some a, updates := s.updates ++ [a] }
        else none
      else some { s with current := some a }
    | .closeConfig => some { s with configClosed := true }
    | .userListen a => some (openListener s a)
    | .userCloseListener ln => some { s with lnOpen := upd s.lnOpen ln false }

end Gevulot.ServerModel
