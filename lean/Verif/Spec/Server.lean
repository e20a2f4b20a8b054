import Verif.Model.Server

/-!
# What is said about the server
-/

namespace Gevulot.ServerModel

/-- The thread runs `Serve` and has not yet installed its listener `ln`. -/
def PC.pending : PC → Option Nat
  | .serveCheck ln => some ln
  | .serveLock ln => some ln
  | _ => none

/-- The thread runs `Serve` and is accepting connections from `ln`. -/
def PC.accepting : PC → Option Nat
  | .serveAccept ln => some ln
  | .serveDo ln _ => some ln
  | _ => none

/-- The connection that `Serve` has accepted and for which no goroutine has been started yet. -/
def PC.inHand : PC → Option Nat
  | .serveDo _ c => some c
  | _ => none

/-- The listener of the last successful attempt of `Start` to listen. -/
def lastListener (s : State) : Option Nat := (s.tried.filterMap (·.2.2)).getLast?

/-- The address of the last attempt of `Start` to listen. -/
def lastTried (s : State) : Option Addr := s.tried.getLast?.map (·.2.1)

/-- The server is listening on `ln`: it is the current listener, open, and some `Serve` is accepting from it. -/
def ListeningOn (s : State) (ln : Nat) : Prop :=
  s.listener = some ln ∧ s.lnOpen ln = true ∧ ∃ t, (s.pc t).accepting = some ln

/-- The dust has settled: `Start` waits for configurations, there is none, and no `Serve` is about to install a listener. -/
def Settled (s : State) : Prop :=
  (∃ t, s.pc t = .startLoop) ∧ s.updates = [] ∧ ∀ t, (s.pc t).pending = none

/-- Steps that the server makes by itself: its threads go on, `Start` takes a configuration, listens, notices the shutdown. -/
def Action.inner : Action → Bool
  | .thread _ | .takeConfig _ | .noticeShutdown _ | .listen _ _ => true
  | _ => false

/-- The server has nothing to do. -/
def AtRest (s : State) : Prop := ∀ a, a.inner = true → ServerModel.step s a = none

/-- These steps, and permanent errors of `Accept` and the ends of sessions. -/
def Action.own : Action → Bool
  | .sessionEnd _ _ => true
  | .accept _ (.err e) => !e.survived
  | a => a.inner

/-- An undisturbed step: nobody but `Start` calls `Serve`, nobody calls `Close`, open listeners stay open and accept without
permanent errors. -/
def Undisturbed (s : State) : Action → Prop
  | .call _ op => op = .start ∨ ∃ c, op = .serveConn c
  | .accept t (.err e) => e.survived = true ∨ ∀ ln, s.pc t = .serveAccept ln → s.lnOpen ln = false
  | .userCloseListener _ => False
  | _ => True

/-- And moreover `Start` does not start a `Serve` before the previous one has installed its listener. -/
def Calm (s : State) : Action → Prop
  | .thread t => ∀ ln, s.pc t = .startDo ln → ∀ t', (s.pc t').pending = none
  | a => Undisturbed s a

/-- Reachable by steps with this property. -/
inductive ReachableBy (P : State → Action → Prop) (c : Option Addr) : State → Prop where
  | init : ReachableBy P c (init c)
  | step {s a s'} : ReachableBy P c s → P s a → ServerModel.step s a = some s' → ReachableBy P c s'

/-- Everything the server had installed is closed: there is no listener and no session any more, every listener ever
installed is closed, and so is every connection still being served. -/
structure AllClosed (s : State) : Prop where
  listener : s.listener = none
  sessions : s.sessions = []
  listeners : ∀ ln ∈ s.installed, s.lnOpen ln = false
  conns : ∀ t r, s.pc t = .connRun ∨ s.pc t = .connRemove r → s.connClosed t = true

/-- The thread is not between a check that the server is open and what it does relying on it. -/
def PC.quiet : PC → Bool
  | .startFire => false
  | .startSubscribe => false
  | .startListen _ => false
  | .startDo _ => false
  | .serveCheck _ => false
  | .serveLock _ => false
  | .connRegLock => false
  | _ => true

/-- Nobody is in the middle of anything. -/
def Quiet (s : State) : Prop := (∀ t, (s.pc t).quiet = true) ∧ ((∃ t, s.pc t = .startLoop) → s.updates = [])

/-- Steps which must happen sooner or later when everything is closed: goroutines go on, `Accept` returns a permanent error,
sessions end. -/
def Action.winding (s : State) : Action → Prop
  | .thread _ => True
  | .accept t (.err e) => e.survived = false ∧ ∀ ln, s.pc t = .serveAccept ln → s.lnOpen ln = false
  | .sessionEnd t _ => s.connClosed t = true
  | _ => False

/-- `s'` is reached from `s` by such steps only. -/
inductive WindsDown : State → State → Prop where
  | refl (s) : WindsDown s s
  | step {s a s' s''} : a.winding s → ServerModel.step s a = some s' → WindsDown s' s'' → WindsDown s s''

end Gevulot.ServerModel
