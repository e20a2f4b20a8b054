/-!
# Concurrent programs as transition systems

A concurrent part of the code is a function `step : State → Action → Option State`. An action names which goroutine (or
which part of the outside world) makes its next atomic step; `none` means that it cannot make it now (it is blocked, or
has nothing to do). An execution is a list of actions; the scheduler is the choice of that list, so a statement about all
executions is a statement about all interleavings of any length. Memory is sequentially consistent at the granularity of
the steps; where the code has a data race this is said at the model.
-/

namespace Gevulot

/-- The state after the actions, `none` if one of them was not possible. -/
def run {σ α : Type} (step : σ → α → Option σ) : σ → List α → Option σ
  | s, [] => some s
  | s, a :: as =>
    match step s a with
    | some s' => run step s' as
    | none => none

/-- `s` can be reached from `s0`. -/
def Reachable {σ α : Type} (step : σ → α → Option σ) (s0 s : σ) : Prop := ∃ acts, run step s0 acts = some s

/-- Function update: `m[k] = v`. -/
def upd {κ β : Type} [DecidableEq κ] (f : κ → β) (k : κ) (v : β) : κ → β := fun k' => if k' = k then v else f k'

end Gevulot
