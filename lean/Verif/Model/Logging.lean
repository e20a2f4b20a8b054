import Verif.Model.FullSession

/-!
# What a session writes to the log

`startProcessing` logs every message it passes on, session.go:306, 315, with the level `Info`, which is logged by default
(pkg/cli/cli.go:91-99 only ever lowers the level). Added to the whole session of Model/FullSession.lean, with the log as one more component
of the state.

* Only these lines are modelled. The other lines of a session (session.go:75, 76, 105, 107, 123, 129, 135, 144, 152, 163) are constants or
  errors.
* A line is logged in the step in which the message is taken from its channel: until the message is passed on nobody else can tell.
* What logrus does with the text of a line (quoting, a time stamp) is not modelled.
-/

namespace Gevulot.LogModel

open SessionModel (Peer)

/-- A line of the log: where the message came from, and the message. -/
structure Line where
  source : Peer
  message : Msg
  deriving DecidableEq

/-- Its text: `"-> %s"` and `"<- %s"` of the bytes of the frame, session.go:306, 315. -/
def Line.text (l : Line) : Bytes :=
  (match l.source with | .client => ascii "-> " | .db => ascii "<- ") ++ l.message.frame.bytes

structure State where
  sess : FullSession.State
  log : List Line

def init : State := { sess := FullSession.init, log := [] }

/-- What is logged in a step: the message that was taken, session.go:301-306, 310-315. -/
def lines (s : SessionModel.State) : SessionModel.Action → List Line
  | .procRecv p =>
    match (s.inCh p).buf with
    | m :: _ => [⟨p, m⟩]
    | [] => []
  | _ => []

/-- The transitions. -/
def step (parse : Bytes → Option ConnectionParams) (s : State) (a : FullSession.Action) : Option State :=
  (FullSession.step parse s.sess a).map fun x =>
    { sess := x, log := s.log ++ (match a with | .base b => lines s.sess.base b | _ => []) }

end Gevulot.LogModel
