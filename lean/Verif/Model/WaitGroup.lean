import Verif.Model.Server

/-!
# The wait group of the server

`Verif.Model.Server` has `srv.wg` as a counter: `Add` and `Done` change it in one step, and `Wait` returns in a step in which
it is zero. Here the server runs with the `sync.WaitGroup` of Go's library as it is (waitgroup.go of Go 1.13, the version in
go.mod: a word with the counter and the number of waiters, changed by atomic operations, and a semaphore), including the checks
with which it panics if it is misused.

* The uses: `Add(1)` in `do`, server.go:293; `Done()`, server.go:296; `Wait()` in `Close`, server.go:257.
* The counter is `wg` of the server's state. It is a natural number (in Go it overflows after 2³¹ goroutines).
* `Done` is `Add(-1)`. In the server's state the goroutine is `done` from the atomic addition on; what `Add` does after that
  is in `wpc`.
* `runtime_Semacquire` waits until the semaphore is positive and takes one; `runtime_Semrelease` adds one.
* A panic ends the process.
-/

namespace Gevulot.WaitGroup

open ServerModel (Tid)

/-- Where a thread is in `Add` or `Wait`, beyond their first atomic operation. -/
inductive WPC where
  | idle
  /-- `Done`: it has brought the counter to zero while there were `w` waiters; "if *statep != state" -/
  | check (w : Nat)
  /-- `Done`: "*statep = 0" -/
  | reset (w : Nat)
  /-- `Done`: "runtime_Semrelease" for each of `w` waiters -/
  | release (w : Nat)
  /-- `Wait`: it has loaded the counter `v` and the number of waiters `w`; the compare-and-swap -/
  | cas (v w : Nat)
  /-- `Wait`: "runtime_Semacquire" -/
  | sleep
  /-- `Wait`: "if *statep != 0" -/
  | awake
  deriving DecidableEq, Repr

/-- The panics. -/
inductive Panic where
  /-- "sync: negative WaitGroup counter" -/
  | negative
  /-- "sync: WaitGroup misuse: Add called concurrently with Wait" -/
  | misuse
  /-- "sync: WaitGroup is reused before previous Wait has returned" -/
  | reused
  deriving DecidableEq, Repr

structure State where
  server : ServerModel.State
  waiters : Nat
  sema : Nat
  wpc : Tid → WPC
  panic : Option Panic

def init (c : Option ServerModel.Addr) : State :=
  { server := ServerModel.init c, waiters := 0, sema := 0, wpc := fun _ => .idle, panic := none }

inductive Action where
  /-- a step of the server; of a thread that is at `Add`, `Done` or `Wait`, their first atomic operation -/
  | server (a : ServerModel.Action)
  /-- the thread goes on in `Add` or `Wait` -/
  | wg (t : Tid)

/-- The process has panicked. -/
def State.over (s : State) : Bool := s.panic.isSome || s.server.watchdogPanic || s.server.sendPanic

/-- `Add(1)`: "if w != 0 && delta > 0 && v == int32(delta)" -/
def add (s : State) (srv : ServerModel.State) : State :=
  if s.waiters ≠ 0 ∧ srv.wg = 1 then { s with server := srv, panic := some .misuse } else { s with server := srv }

/-- `Done()`: "if v > 0 || w == 0 { return }" -/
def done (s : State) (srv : ServerModel.State) (t : Tid) : State :=
  if s.server.wg = 0 then { s with panic := some .negative }
  else if srv.wg = 0 ∧ s.waiters ≠ 0 then { s with server := srv, wpc := upd s.wpc t (.check s.waiters) }
  else { s with server := srv }

def step (s : State) (a : Action) : Option State :=
  if s.over then none
  else
    match a with
    | .server (.thread t) =>
      if s.wpc t ≠ .idle then none
      else
        match s.server.pc t, ServerModel.step s.server (.thread t) with
        | .startDo _, some srv => some (add s srv)
        | .serveDo _ _, some srv => some (add s srv)
        | .returned _, some srv => some (done s srv t)
        -- "if v == 0 { return }"
        | .closeWait _, some srv => some { s with server := srv }
        | .closeWait _, none => some { s with wpc := upd s.wpc t (.cas s.server.wg s.waiters) }
        | _, some srv => some { s with server := srv }
        | _, none => none
    | .server a =>
      match ServerModel.step s.server a with
      | some srv => some { s with server := srv }
      | none => none
    | .wg t =>
      match s.wpc t with
      | .idle => none
      | .check w =>
        if s.server.wg = 0 ∧ s.waiters = w then some { s with wpc := upd s.wpc t (.reset w) } else some { s with panic := some .misuse }
      | .reset w => some { s with server := { s.server with wg := 0 }, waiters := 0, wpc := upd s.wpc t (.release w) }
      | .release 0 => some { s with wpc := upd s.wpc t .idle }
      | .release (w + 1) => some { s with sema := s.sema + 1, wpc := upd s.wpc t (.release w) }
      | .cas v w =>
        if s.server.wg = v ∧ s.waiters = w then some { s with waiters := w + 1, wpc := upd s.wpc t .sleep }
        else some { s with wpc := upd s.wpc t .idle }
      | .sleep => if s.sema = 0 then none else some { s with sema := s.sema - 1, wpc := upd s.wpc t .awake }
      | .awake =>
        if s.server.wg = 0 ∧ s.waiters = 0 then
          match ServerModel.step s.server (.thread t) with
          | some srv => some { s with server := srv, wpc := upd s.wpc t .idle }
          | none => none
        else some { s with panic := some .reused }

end Gevulot.WaitGroup
