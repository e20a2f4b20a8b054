import Verif.Model.WaitGroup
import Verif.Spec.Server

/-!
# What is said about the wait group
-/

namespace Gevulot.WaitGroup

open ServerModel (Tid PC)

/-- The thread is about to call `do`: `Start` with a new listener, or `Serve` with a new connection. -/
def CallsDo (s : State) (t : Tid) : Prop := (∃ ln, s.server.pc t = .startDo ln) ∨ ∃ ln c, s.server.pc t = .serveDo ln c

/-- `Close` is in `Wait`, where it waits for goroutines, or has been woken up. -/
def Waiting (s : State) : Prop := ∃ t, s.wpc t = .sleep ∨ s.wpc t = .awake

/-- No caller's thread (that is, not one of the server's goroutines) calls `do` when `Close` has been waiting for the goroutines
and none is left. -/
def Careful (s : State) : Action → Prop
  | .server (.thread (.user n)) => CallsDo s (.user n) → s.server.wg = 0 → ¬ Waiting s
  | _ => True

/-- Reachable by such steps. -/
inductive ReachableCarefully (c : Option ServerModel.Addr) : State → Prop where
  | init : ReachableCarefully c (init c)
  | step {s a s'} : ReachableCarefully c s → Careful s a → WaitGroup.step s a = some s' → ReachableCarefully c s'

/-- The steps of the server and of the wait group. -/
def Action.inner : Action → Bool
  | .server a => a.inner
  | .wg _ => true

/-- These, and permanent errors of `Accept` and the ends of sessions. -/
def Action.own : Action → Bool
  | .server a => a.own
  | .wg _ => true

/-- There is nothing to do. -/
def AtRest (s : State) : Prop := ∀ a, a.inner = true → WaitGroup.step s a = none

end Gevulot.WaitGroup
