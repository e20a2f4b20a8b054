import Verif.Model.Trans

/-!
# pkg/server/config_distributor.go

The distributor as a transition system: any number of calls of `Get`, `Subscribe`, `Unsubscribe` and `Close`, each made by
its own thread, the monitoring goroutines, the source of configurations, and the users of the subscribed channels.

* A configuration is a pointer; all that matters is its identity, here a number. The source never carries nil.
* A check is any function of the previous configuration (if any) and the new one.
* `sync.RWMutex`: one holder, or none. The read-locked section of `Get` (config_distributor.go:75-79) reads one field and
  is one step, possible when no writer holds the lock.
* Events (`started`, `closed`) are atomic flags (justified by C41, C42).
* A user's channel has a capacity, a buffer, goroutines waiting to receive from it, and may be closed by the user. A send
  hands the value to a waiting receiver or else puts it into the buffer; it blocks if there is neither, and panics if the
  channel is closed. The channel made by `Get` (config_distributor.go:150) is unbuffered and received from only by that
  call of `Get`: a send to it is possible exactly when the call is at its `select`.
* The map of subscriptions is its list of keys and a function giving the checks for each key; ranging over it visits the
  keys in any order.
* In `Subscribe` (config_distributor.go:101-118) the send of the current configuration, the registration, the start of the
  monitor and the unlocking are one step: after the send nothing can block and everything happens under the lock.
* Logging is left out.
-/

namespace Gevulot.DistributorModel

/-- A `*Config`, pkg/server/config.go:5-11: its identity. -/
abbrev Config := Nat

/-- `ConfigChangedCheckFn`, config_distributor.go:25 -/
abbrev Check := Option Config → Config → Bool

/-- A channel: of a user, or the one made by the call of `Get` of thread `t`. -/
inductive ChanId where
  | user (n : Nat)
  | getter (t : Nat)
  deriving DecidableEq, Repr

/-- A user's channel. -/
structure UserChan where
  cap : Nat
  buf : List Config
  /-- goroutines blocked in a receive from it -/
  waiting : Nat
  closed : Bool
  deriving DecidableEq, Repr

/-- What a call returns. -/
inductive Ret where
  /-- `Get`: a configuration and no error -/
  | config (c : Config)
  /-- `Subscribe`: no error; `Unsubscribe`, `Close`: nothing -/
  | ok
  /-- `ErrConfigDistributorClosed` -/
  | errClosed
  deriving DecidableEq, Repr

/-- The calls. -/
inductive Op where
  | get
  | subscribe (ch : Nat) (checks : List Check)
  | unsubscribe (ch : Nat)
  | close

/-- Where a thread is. -/
inductive PC where
  | idle
  /-- `Get`, config_distributor.go:68 -/
  | getEnter
  /-- `Get`, config_distributor.go:75-84 -/
  | getSnapshot
  /-- `Subscribe`, config_distributor.go:94 -/
  | subCheck (ch : ChanId) (checks : List Check)
  /-- `Subscribe`, config_distributor.go:98 -/
  | subLock (ch : ChanId) (checks : List Check)
  /-- `Subscribe`, config_distributor.go:101-118, holding the lock -/
  | subLocked (ch : ChanId) (checks : List Check)
  /-- `waitForNextConfig`, config_distributor.go:163 -/
  | getSelect
  /-- `waitForNextConfig`, the deferred `Unsubscribe`, config_distributor.go:160, 122-127; what is going to be returned -/
  | getUnsub (r : Ret)
  /-- `Unsubscribe`, config_distributor.go:123 -/
  | unsubLock (ch : Nat)
  /-- `Close`, config_distributor.go:131 -/
  | closeFire
  /-- `Close`, config_distributor.go:135 -/
  | closeLock
  | returned (r : Ret)

/-- A monitoring goroutine, `monitorConfig`, config_distributor.go:173-204. -/
inductive MonPC where
  | notStarted
  /-- config_distributor.go:179 -/
  | select
  /-- config_distributor.go:190 -/
  | gotten (c : Config)
  /-- `notifySubscribersLocked`, config_distributor.go:207-213, holding the lock; the channels not visited yet -/
  | notifying (old : Option Config) (new : Config) (remaining : List ChanId)
  /-- `p.Close()`, config_distributor.go:184, 135 -/
  | closeLock
  | exited
  deriving DecidableEq, Repr

/-- Who holds `p.mu`. -/
inductive Holder where
  | thread (t : Nat)
  | monitor (i : Nat)
  deriving DecidableEq, Repr

/-- What happened under the lock. -/
inductive Ev where
  /-- a subscription was registered -/
  | subscribe (ch : ChanId) (checks : List Check)
  /-- a subscription was cancelled -/
  | unsubscribe (ch : ChanId)
  /-- all subscriptions were cancelled -/
  | closeAll
  /-- a configuration from the source became the current one -/
  | update (c : Config)

/-- The distributor and its surroundings, config_distributor.go:29-47. -/
structure State where
  lock : Option Holder
  started : Bool
  closed : Bool
  /-- configurations in the source channel -/
  source : List Config
  sourceClosed : Bool
  lastConfig : Option Config
  /-- `subscriptions`: its keys, and its values -/
  keys : List ChanId
  checks : ChanId → List Check
  pc : Nat → PC
  /-- the monitoring goroutines that were started -/
  mon : Nat → MonPC
  monCount : Nat
  chans : Nat → UserChan
  /-- not in the code: what was sent to each channel -/
  delivered : ChanId → List Config
  /-- not in the code: what happened under the lock, in order -/
  hist : List Ev
  /-- not in the code: everything put into the source channel -/
  produced : List Config
  /-- the process has panicked -/
  panicked : Bool

/-- `NewConfigDistributor`, config_distributor.go:57-63. -/
def init (caps : Nat → Nat) : State :=
  { lock := none, started := false, closed := false, source := [], sourceClosed := false, lastConfig := none, keys := []
    checks := fun _ => [], pc := fun _ => .idle, mon := fun _ => .notStarted, monCount := 0
    chans := fun n => { cap := caps n, buf := [], waiting := 0, closed := false }
    delivered := fun _ => [], hist := [], produced := [], panicked := false }

/-- Who makes the next step. -/
inductive Action where
  /-- a configuration is put into the source channel -/
  | produce (c : Config)
  /-- the source channel is closed -/
  | closeSource
  /-- thread `t` makes a call -/
  | call (t : Nat) (op : Op)
  /-- the call of thread `t` goes on -/
  | thread (t : Nat)
  /-- the `select` in `waitForNextConfig` notices that the distributor is closed -/
  | cancel (t : Nat)
  /-- the `select` in `monitorConfig` takes a configuration, or notices that the source is closed -/
  | monTake (i : Nat)
  /-- the `select` in `monitorConfig` notices that the distributor is closed -/
  | monDone (i : Nat)
  /-- a monitor gets the lock, or releases it -/
  | monLock (i : Nat)
  /-- a monitor visits the next channel -/
  | monNotify (i : Nat) (ch : ChanId)
  /-- a user receives from its channel, or starts to wait -/
  | userRecv (n : Nat)
  /-- a user stops waiting -/
  | userLeave (n : Nat)
  /-- a user closes its channel -/
  | userClose (n : Nat)

/-- `shouldSendUpdatedConfig`, config_distributor.go:217-230 -/
def shouldSend (checks : List Check) (old : Option Config) (new : Config) : Bool :=
  if checks.length = 0 then true else checks.any fun f => f old new

/-- `ch <- c`: `none` while it blocks. -/
def send (s : State) (ch : ChanId) (c : Config) : Option State :=
  match ch with
  | .user n =>
    if (s.chans n).closed then some { s with panicked := true }
    else if 0 < (s.chans n).waiting then
      some { s with chans := upd s.chans n { s.chans n with waiting := (s.chans n).waiting - 1 }, delivered := upd s.delivered ch (s.delivered ch ++ [c]) }
    else if (s.chans n).buf.length < (s.chans n).cap then
      some { s with chans := upd s.chans n { s.chans n with buf := (s.chans n).buf ++ [c] }, delivered := upd s.delivered ch (s.delivered ch ++ [c]) }
    else none
  | .getter t =>
    match s.pc t with
    | .getSelect => some { s with pc := upd s.pc t (.getUnsub (.config c)), delivered := upd s.delivered ch (s.delivered ch ++ [c]) }
    -- the channel is closed when `Get` returns, config_distributor.go:151
    | .returned _ => some { s with panicked := true }
    | _ => none

/-- `p.subscriptions[ch] = checks`, config_distributor.go:111 -/
def register (s : State) (ch : ChanId) (checks : List Check) : State :=
  { s with keys := if ch ∈ s.keys then s.keys else ch :: s.keys, checks := upd s.checks ch checks, hist := s.hist ++ [.subscribe ch checks] }

/-- config_distributor.go:114-116 -/
def startMonitor (s : State) : State :=
  if s.started then s else { s with started := true, mon := upd s.mon s.monCount .select, monCount := s.monCount + 1 }

/-- What `Subscribe` continues with after it has returned nil. -/
def afterSubscribe : ChanId → PC
  | .user _ => .returned .ok
  | .getter _ => .getSelect

/-- config_distributor.go:106-118, on the state after the send -/
def finishSubscribe (s : State) (t : Nat) (ch : ChanId) (checks : List Check) : State :=
  let s := startMonitor (register s ch checks)
  { s with lock := none, pc := upd s.pc t (afterSubscribe ch) }

/-- `delete(p.subscriptions, ch)`, config_distributor.go:144-146 -/
def unregister (s : State) (ch : ChanId) : State :=
  { s with keys := s.keys.filter (· ≠ ch), hist := s.hist ++ [.unsubscribe ch] }

/-- The transitions. -/
def step (s : State) (a : Action) : Option State :=
  if s.panicked then none
  else
    match a with
    | .produce c => if s.sourceClosed then none else some { s with source := s.source ++ [c], produced := s.produced ++ [c] }
    | .closeSource => if s.sourceClosed then none else some { s with sourceClosed := true }
    | .call t op =>
      match s.pc t with
      | .idle =>
        match op with
        | .get => some { s with pc := upd s.pc t .getEnter }
        | .subscribe n checks => some { s with pc := upd s.pc t (.subCheck (.user n) checks) }
        | .unsubscribe n => some { s with pc := upd s.pc t (.unsubLock n) }
        | .close => some { s with pc := upd s.pc t .closeFire }
      | _ => none
    | .thread t =>
      match s.pc t with
      | .getEnter => some { s with pc := upd s.pc t (if s.closed then .returned .errClosed else .getSnapshot) }
      | .getSnapshot =>
        if s.lock = none then
          match s.lastConfig with
          | some c => some { s with pc := upd s.pc t (.returned (.config c)) }
          | none => some { s with pc := upd s.pc t (.subCheck (.getter t) []) }
        else none
      | .subCheck ch checks =>
        -- for `Get`, an error of `Subscribe` is returned without `Unsubscribe`, config_distributor.go:156-158
        some { s with pc := upd s.pc t (if s.closed then .returned .errClosed else .subLock ch checks) }
      | .subLock ch checks =>
        if s.lock = none then some { s with lock := some (.thread t), pc := upd s.pc t (.subLocked ch checks) } else none
      | .subLocked ch checks =>
        match s.lastConfig with
        | some c =>
          if shouldSend checks none c then
            match send s ch c with
            | none => none
            | some s1 => if s1.panicked then some s1 else some (finishSubscribe s1 t ch checks)
          else some (finishSubscribe s t ch checks)
        | none => some (finishSubscribe s t ch checks)
      | .getUnsub r =>
        if s.lock = none then
          let s := unregister s (.getter t)
          some { s with pc := upd s.pc t (.returned r) }
        else none
      | .unsubLock n =>
        if s.lock = none then
          let s := unregister s (.user n)
          some { s with pc := upd s.pc t (.returned .ok) }
        else none
      | .closeFire =>
        if s.closed then some { s with pc := upd s.pc t (.returned .ok) }
        else some { s with closed := true, pc := upd s.pc t .closeLock }
      | .closeLock =>
        if s.lock = none then some { s with keys := [], hist := s.hist ++ [.closeAll], pc := upd s.pc t (.returned .ok) }
        else none
      | _ => none
    | .cancel t =>
      match s.pc t with
      | .getSelect => if s.closed then some { s with pc := upd s.pc t (.getUnsub .errClosed) } else none
      | _ => none
    | .monTake i =>
      match s.mon i with
      | .select =>
        match s.source with
        | c :: rest => some { s with source := rest, mon := upd s.mon i (.gotten c) }
        | [] =>
          if s.sourceClosed then
            if s.closed then some { s with mon := upd s.mon i .exited }
            else some { s with closed := true, mon := upd s.mon i .closeLock }
          else none
      | _ => none
    | .monDone i =>
      match s.mon i with
      | .select => if s.closed then some { s with mon := upd s.mon i .exited } else none
      | _ => none
    | .monLock i =>
      match s.mon i with
      | .gotten c =>
        if s.lock = none then
          some { s with lock := some (.monitor i), lastConfig := some c, hist := s.hist ++ [.update c], mon := upd s.mon i (.notifying s.lastConfig c s.keys) }
        else none
      | .notifying _ _ [] => some { s with lock := none, mon := upd s.mon i .select }
      | .closeLock =>
        if s.lock = none then some { s with keys := [], hist := s.hist ++ [.closeAll], mon := upd s.mon i .exited } else none
      | _ => none
    | .monNotify i ch =>
      match s.mon i with
      | .notifying old new remaining =>
        if ch ∈ remaining then
          if shouldSend (s.checks ch) old new then
            match send s ch new with
            | none => none
            | some s1 => if s1.panicked then some s1 else some { s1 with mon := upd s1.mon i (.notifying old new (remaining.filter (· ≠ ch))) }
          else some { s with mon := upd s.mon i (.notifying old new (remaining.filter (· ≠ ch))) }
        else none
      | _ => none
    | .userRecv n =>
      match (s.chans n).buf with
      | _ :: rest => some { s with chans := upd s.chans n { s.chans n with buf := rest } }
      | [] =>
        if (s.chans n).closed then some s
        else some { s with chans := upd s.chans n { s.chans n with waiting := (s.chans n).waiting + 1 } }
    | .userLeave n =>
      if 0 < (s.chans n).waiting then some { s with chans := upd s.chans n { s.chans n with waiting := (s.chans n).waiting - 1 } }
      else none
    | .userClose n =>
      if (s.chans n).closed then some { s with panicked := true }
      else some { s with chans := upd s.chans n { s.chans n with closed := true, waiting := 0 } }

end Gevulot.DistributorModel
