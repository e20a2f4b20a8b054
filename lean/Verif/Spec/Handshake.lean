import Verif.Model.Handshake
import Verif.Spec.Wire

/-!
# Specification: the opening of a client's stream
-/

namespace Gevulot.Spec

/-- `SSLRequests r n r'`: the stream `r` starts with `n` startup packets that are SSL requests, after which `r'`
remains. -/
inductive SSLRequests : Reader → Nat → Reader → Prop where
  | none (r : Reader) : SSLRequests r 0 r
  | one {r r1 r' : Reader} {m : StartupMessage} {n : Nat} (h : recvStartupMessage r = (.ok m, r1))
      (hv : m.protocolVersion.toNat = 80877103) (rest : SSLRequests r1 n r') : SSLRequests r (n + 1) r'

/-- `Opening r n m r'`: `r` starts with `n` SSL requests followed by the startup packet `m`, which is not one; `r'`
remains. -/
def Opening (r : Reader) (n : Nat) (m : StartupMessage) (r' : Reader) : Prop :=
  ∃ r1, SSLRequests r n r1 ∧ recvStartupMessage r1 = (.ok m, r') ∧ m.protocolVersion.toNat ≠ 80877103

/-- An SSLRequest on the wire: length 8, code 80877103. -/
def sslRequestPacket : Bytes := int32 8 ++ int32 80877103

/-- Value of the first parameter with that name, the empty string if there is none. -/
def firstValue (params : List StartupParameter) (name : Bytes) : Bytes :=
  ((params.find? (fun p => p.name == name)).map StartupParameter.value).getD []

/-- Value of the last parameter with that name. -/
def lastValue (params : List StartupParameter) (name : Bytes) : Option Bytes :=
  (params.reverse.find? (fun p => p.name == name)).map StartupParameter.value

/-- The database PostgreSQL connects a client to (`ProcessStartupPacket` in PostgreSQL's postmaster): the last `database`
parameter, or, if there is none or it is empty, the user name. -/
def pgDatabase (m : StartupMessage) : Bytes :=
  match lastValue m.parameters (ascii "database") with
  | some (c :: cs) => c :: cs
  | _ => (lastValue m.parameters (ascii "user")).getD []

end Gevulot.Spec
