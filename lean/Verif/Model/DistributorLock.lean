import Verif.Model.Distributor

/-!
# pkg/server/config_distributor.go, with the RWMutex

In Model/Distributor.lean a section under `p.mu` in which nothing blocks is one step. Here the mutex is taken and given back in steps of
their own, and so is each thing done in between:

* `Get` takes the mutex for reading, reads, and gives it back (config_distributor.go:75-79); any number of calls may be in there.
* `Subscribe` sends, registers the channel, starts the monitor, and unlocks (config_distributor.go:98-118).
* `Unsubscribe` locks, deletes, and unlocks (config_distributor.go:122-127), also at the end of `Get`.
* `Close` locks, deletes the subscriptions one after the other in the order in which the map is iterated, which is arbitrary, and unlocks
  (config_distributor.go:135-140), whether called by a user or by the monitor.
* The monitor locks, sets the configuration, and then notifies (config_distributor.go:189-194).

The mutex is as documented and as in Go: a call of `Lock` that waits for readers keeps new readers out, and only one such call does at a
time. `State.base.lock` is the mutex of Model/Distributor.lean; it is set in the sections that are more than one step there.

Everything else is a step of Model/Distributor.lean. In a section a thread remains at the point of Model/Distributor.lean before it.
-/

namespace Gevulot.DistributorLock

open DistributorModel (Config Check ChanId Holder PC MonPC Ev shouldSend send register startMonitor afterSubscribe unregister)

/-- Where a goroutine is that has the mutex for writing. -/
inductive Section where
  /-- nothing was done yet -/
  | entered
  /-- `Subscribe`, config_distributor.go:106-111: the current configuration was sent, if need be -/
  | register (ch : ChanId) (checks : List Check)
  /-- `Subscribe`, config_distributor.go:114 -/
  | start (ch : ChanId)
  /-- `Close`, config_distributor.go:138: the subscriptions not deleted yet -/
  | deleting (todo : List ChanId)
  /-- everything is done; after `Unlock` the thread, or the monitor, goes on here -/
  | leave (next : PC)
  | leaveMon (next : MonPC)

structure State where
  base : DistributorModel.State
  /-- who is in a section that is one step in Model/Distributor.lean -/
  held : Option (Holder × Section)
  /-- the calls of `Get` that have the mutex for reading -/
  readers : List Nat
  /-- for each of them whether it has read, and how it will go on -/
  rd : Nat → Option (Option PC)
  /-- who waits in `Lock` for the readers to leave -/
  want : Option Holder

/-- Nobody is in a section. -/
def bare (g : DistributorModel.State) : State := { base := g, held := none, readers := [], rd := fun _ => none, want := none }

def init (caps : Nat → Nat) : State := bare (DistributorModel.init caps)

/-- The points of Model/Distributor.lean before `RLock`, before `Lock`, and in `Subscribe` after it. -/
def guards : PC → Bool
  | .getSnapshot | .subLock _ _ | .subLocked _ _ | .getUnsub _ | .unsubLock _ | .closeLock => true
  | _ => false

def guardsMon : MonPC → Bool
  | .gotten _ | .closeLock => true
  | _ => false

/-- A step for which the mutex must be taken, or which is done in several steps here. -/
def guarded (s : DistributorModel.State) : DistributorModel.Action → Bool
  | .thread t => guards (s.pc t)
  | .monLock i => guardsMon (s.mon i)
  | _ => false

/-- It is about to call `Lock`. -/
def locks (s : DistributorModel.State) : Holder → Bool
  | .thread t =>
    match s.pc t with
    | .subLock _ _ | .getUnsub _ | .unsubLock _ | .closeLock => true
    | _ => false
  | .monitor i => guardsMon (s.mon i)

inductive Action where
  /-- anything that is done without the mutex, or by the monitor while it notifies -/
  | other (a : DistributorModel.Action)
  /-- `Get`: `RLock` returns; the read; `RUnlock` -/
  | rlock (t : Nat)
  | read (t : Nat)
  | runlock (t : Nat)
  /-- `Lock` keeps new readers out; and returns -/
  | announce (h : Holder)
  | lock
  /-- who has the mutex for writing goes on -/
  | inside
  /-- the loop of `Close` comes to this channel -/
  | delete (ch : ChanId)

/-- The transitions. -/
def step (s : State) (a : Action) : Option State :=
  if s.base.panicked then none
  else
    match a with
    | .other a => if guarded s.base a then none else (DistributorModel.step s.base a).map fun b => { s with base := b }
    | .rlock t =>
      match s.base.pc t, s.rd t with
      | .getSnapshot, none =>
        if s.base.lock = none ∧ s.held.isNone ∧ s.want = none then some { s with readers := t :: s.readers, rd := upd s.rd t (some none) } else none
      | _, _ => none
    | .read t =>
      match s.rd t with
      | some none =>
        match s.base.lastConfig with
        | some c => some { s with rd := upd s.rd t (some (some (.returned (.config c)))) }
        | none => some { s with rd := upd s.rd t (some (some (.subCheck (.getter t) []))) }
      | _ => none
    | .runlock t =>
      match s.rd t with
      | some (some p) => some { s with base := { s.base with pc := upd s.base.pc t p }, readers := s.readers.filter (· ≠ t), rd := upd s.rd t none }
      | _ => none
    | .announce h =>
      if locks s.base h = true ∧ s.base.lock = none ∧ s.held.isNone ∧ s.want = none then some { s with want := some h } else none
    | .lock =>
      match s.want, s.readers with
      | some (.thread t), [] =>
        match s.base.pc t with
        | .subLock ch checks => some { s with base := { s.base with lock := some (.thread t), pc := upd s.base.pc t (.subLocked ch checks) }, want := none }
        | _ => some { s with held := some (.thread t, .entered), want := none }
      | some (.monitor i), [] => some { s with held := some (.monitor i, .entered), want := none }
      | _, _ => none
    | .inside =>
      match s.held with
      | none =>
        match s.base.lock with
        | some (.thread t) =>
          match s.base.pc t with
          | .subLocked ch checks =>
            match s.base.lastConfig with
            | some c =>
              if shouldSend checks none c then
                match send s.base ch c with
                | none => none
                | some s1 => if s1.panicked then some { s with base := s1 } else some { s with base := s1, held := some (.thread t, .register ch checks) }
              else some { s with held := some (.thread t, .register ch checks) }
            | none => some { s with held := some (.thread t, .register ch checks) }
          | _ => none
        | _ => none
      | some (.thread t, .register ch checks) => some { s with base := register s.base ch checks, held := some (.thread t, .start ch) }
      | some (.thread t, .start ch) => some { s with base := startMonitor s.base, held := some (.thread t, .leave (afterSubscribe ch)) }
      | some (.thread t, .leave p) => some { s with base := { s.base with lock := none, pc := upd s.base.pc t p }, held := none }
      | some (.thread t, .entered) =>
        match s.base.pc t with
        | .getUnsub r => some { s with base := unregister s.base (.getter t), held := some (.thread t, .leave (.returned r)) }
        | .unsubLock n => some { s with base := unregister s.base (.user n), held := some (.thread t, .leave (.returned .ok)) }
        | .closeLock => some { s with base := { s.base with hist := s.base.hist ++ [.closeAll] }, held := some (.thread t, .deleting s.base.keys) }
        | _ => none
      | some (.monitor i, .entered) =>
        match s.base.mon i with
        | .gotten c =>
          some { s with base := { s.base with lock := some (.monitor i), lastConfig := some c, hist := s.base.hist ++ [.update c], mon := upd s.base.mon i (.notifying s.base.lastConfig c s.base.keys) }, held := none }
        | .closeLock => some { s with base := { s.base with hist := s.base.hist ++ [.closeAll] }, held := some (.monitor i, .deleting s.base.keys) }
        | _ => none
      | some (.thread t, .deleting []) => some { s with held := some (.thread t, .leave (.returned .ok)) }
      | some (.monitor i, .deleting []) => some { s with held := some (.monitor i, .leaveMon .exited) }
      | some (.monitor i, .leaveMon q) => some { s with base := { s.base with lock := none, mon := upd s.base.mon i q }, held := none }
      | _ => none
    | .delete ch =>
      match s.held with
      | some (h, .deleting todo) =>
        if ch ∈ todo then some { s with base := { s.base with keys := s.base.keys.filter (· ≠ ch) }, held := some (h, .deleting (todo.filter (· ≠ ch))) } else none
      | _ => none

end Gevulot.DistributorLock
