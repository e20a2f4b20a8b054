import Verif.Model.Distributor

/-!
# Specification: what a channel receives

Written from the documentation of `ConfigStore` (config_distributor.go:11-21) and of the methods, as a function of the
history of updates and (un)subscriptions.
-/

namespace Gevulot.Spec
open DistributorModel

/-- What there is to know about one channel. -/
structure View where
  /-- the current configuration -/
  current : Option Config
  /-- the checks it is subscribed with, if it is -/
  sub : Option (List Check)
  /-- what it was sent -/
  got : List Config

/-- "If checks are specified, new config will be sent to the channel only if one of them returns true." -/
def wants (checks : List Check) (old : Option Config) (new : Config) : Prop :=
  checks = [] ∨ ∃ f ∈ checks, f old new = true

instance (checks : List Check) (old : Option Config) (new : Config) : Decidable (wants checks old new) :=
  inferInstanceAs (Decidable (_ ∨ _))

/-- What an event means for a channel. -/
def observe (ch : ChanId) (v : View) : Ev → View
  | .subscribe ch' checks =>
    if ch' = ch then
      -- "Send current config immediately"
      { v with sub := some checks, got := v.got ++ (match v.current with
          | some c => if wants checks none c then [c] else []
          | none => []) }
    else v
  | .unsubscribe ch' => if ch' = ch then { v with sub := none } else v
  | .closeAll => { v with sub := none }
  | .update c =>
    { v with current := some c, got := v.got ++ (match v.sub with
        | some checks => if wants checks v.current c then [c] else []
        | none => []) }

/-- What is known about a channel after a history. -/
def view (ch : ChanId) (hist : List Ev) : View := hist.foldl (observe ch) ⟨none, none, []⟩

/-- The configurations of a history. -/
def updates (hist : List Ev) : List Config := hist.filterMap fun
  | .update c => some c
  | _ => none

end Gevulot.Spec

/-! ## Standing still -/

namespace Gevulot.DistributorModel

/-- The two ways in which the distributor waits for itself while holding its lock. -/
inductive Deadlocked (s : State) : Prop where
  /-- `Get` sends the current configuration to its own unbuffered channel, from which only it receives -/
  | ownChannel (t : Nat) (ks : List Check) (h : s.pc t = .subLocked (.getter t) ks) (hc : s.lastConfig ≠ none)
  /-- the monitor sends to the channel of a `Get` that has its result already and waits for the lock -/
  | doneGetter (i : Nat) (old : Option Config) (new : Config) (rem : List ChanId) (t : Nat) (r : Ret) (h : s.mon i = .notifying old new rem)
      (hm : .getter t ∈ rem) (hp : s.pc t = .getUnsub r)

/-- The steps that calls and monitors make on their own, and users receiving: nobody makes a new call, closes anything or
produces a configuration. -/
def Action.internal : Action → Prop
  | .produce _ => False
  | .closeSource => False
  | .call _ _ => False
  | .userClose _ => False
  | .userLeave _ => False
  | _ => True

/-- The steps that calls and monitors make on their own. -/
def Action.own : Action → Bool
  | .thread _ | .cancel _ | .monTake _ | .monDone _ | .monLock _ | .monNotify _ _ => true
  | _ => false

/-- The distributor has nothing to do. -/
def AtRest (s : State) : Prop := ∀ a, a.own = true → step s a = none

/-- The distributor is sending to this channel of a user, nobody receives from it, and there is no room in it. -/
inductive BlockedOn (s : State) (n : Nat) : Prop where
  /-- the current configuration, in `Subscribe` -/
  | subscribing (t : Nat) (ks : List Check) (h : s.pc t = .subLocked (.user n) ks) (hc : s.lastConfig ≠ none)
      (hw : (s.chans n).waiting = 0) (hf : (s.chans n).cap ≤ (s.chans n).buf.length)
  /-- an update -/
  | notifying (i : Nat) (old : Option Config) (new : Config) (rem : List ChanId) (h : s.mon i = .notifying old new rem)
      (hm : .user n ∈ rem) (hw : (s.chans n).waiting = 0) (hf : (s.chans n).cap ≤ (s.chans n).buf.length)

end Gevulot.DistributorModel
