import Verif.Model.DistributorLock
import Verif.Spec.Distributor

namespace Gevulot.DistributorLock

/-- Nobody is in a section that is one step in Model/Distributor.lean. -/
def Free (s : State) : Prop := s.held = none ∧ s.readers = []

/-- `s` looks like `g`, in which such sections are one step: they differ at most in what the mutex guards, while somebody has it for writing; and in where those are
who have it. -/
structure LooksLike (s : State) (g : DistributorModel.State) : Prop where
  free : Free s → g = s.base
  pc : ∀ t, (∀ x, s.held ≠ some (.thread t, x)) → t ∉ s.readers → g.pc t = s.base.pc t
  reading : s.held = none → g = { s.base with pc := g.pc }
  closed : g.closed = s.base.closed
  source : g.source = s.base.source
  sourceClosed : g.sourceClosed = s.base.sourceClosed
  lastConfig : g.lastConfig = s.base.lastConfig
  chans : g.chans = s.base.chans
  delivered : g.delivered = s.base.delivered
  produced : g.produced = s.base.produced
  panicked : g.panicked = s.base.panicked

/-- The steps that calls and monitors make on their own (see `DistributorModel.Action.own`). -/
def Action.own : Action → Bool
  | .other a => a.own
  | _ => true

/-- The distributor has nothing to do. -/
def AtRest (s : State) : Prop := ∀ a, a.own = true → step s a = none

/-- It is between `Lock` and `Unlock`. -/
def Writing (s : State) : DistributorModel.Holder → Prop
  | .thread t => (∃ x, s.held = some (.thread t, x)) ∨ ∃ ch checks, s.base.pc t = .subLocked ch checks
  | .monitor i => (∃ x, s.held = some (.monitor i, x)) ∨ ∃ old new remaining, s.base.mon i = .notifying old new remaining

end Gevulot.DistributorLock
