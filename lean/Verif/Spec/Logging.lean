import Verif.Model.Logging

/-!
# The log of a session

What the properties of the log are stated with.
-/

namespace Gevulot.LogModel

open SessionModel (Peer)

/-- The messages logged that came from `p`. -/
def messagesFrom (p : Peer) (log : List Line) : List Msg := (log.filter (·.source = p)).map (·.message)

/-- What the log shows of the bytes of `p`: the texts of its lines without the arrows, one after the other. -/
def shown (p : Peer) (log : List Line) : Bytes := (log.filter (·.source = p)).flatMap fun l => l.text.drop 3

/-- A password message (also used for SASL and GSSAPI responses): its type is 'p'. -/
def isPassword (m : Msg) : Prop := m.frame.bytes.head? = some (BitVec.ofNat 8 'p'.toNat)

instance (m : Msg) : Decidable (isPassword m) := inferInstanceAs (Decidable (_ = _))

end Gevulot.LogModel
