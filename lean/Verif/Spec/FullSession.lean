import Verif.Model.FullSession
import Verif.Spec.Session
import Verif.Spec.Handshake

/-!
# Specification: what a whole session does to the two byte streams
-/

namespace Gevulot.Spec

/-- `b` is a startup packet that is received as `m`: `RecvStartupMessage` takes exactly these bytes, whatever follows. -/
def StartupPacket (b : Bytes) (m : StartupMessage) : Prop :=
  ∀ rest final, ∃ r, recvStartupMessage ⟨[b ++ rest], final⟩ = (.ok m, r) ∧ r.bytes = rest

/-- `b` is an SSL request. -/
def SSLRequest (b : Bytes) : Prop := ∃ m, StartupPacket b m ∧ m.protocolVersion.toNat = 80877103

/-- The startup message `m` is one gevulot should let through with these settings: protocol 3.0, and the database it asks
for (the first `database` parameter) is the configured one. -/
def Admitted (m : StartupMessage) (settings : ConnectionParams) : Prop :=
  m.protocolVersion.toNat = 196608 ∧ firstValue m.parameters (ascii "database") = settings.get (ascii "database")

/-- The character 'N'. -/
def no : Byte := 0x4e

end Gevulot.Spec
