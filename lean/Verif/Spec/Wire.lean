import Verif.Model.Go

/-!
# Specification: PostgreSQL wire primitives

Written with natural-number arithmetic only, independently of the model's buffers.
<https://www.postgresql.org/docs/9.6/protocol-message-types.html>
-/

namespace Gevulot.Spec

/-- The `k` big-endian base-256 digits of `n`. -/
def be : (k n : Nat) → Bytes
  | 0, _ => []
  | k + 1, n => be k (n / 256) ++ [BitVec.ofNat 8 (n % 256)]

/-- The number denoted by a big-endian byte string. -/
def value (bs : Bytes) : Nat := bs.foldl (fun acc b => acc * 256 + b.toNat) 0

/-- `Int32(z)`: 4 bytes, big-endian two's complement. -/
def int32 (z : Int) : Bytes := be 4 (z % 4294967296).toNat

/-- `Int16(z)`: 2 bytes, big-endian two's complement. -/
def int16 (z : Int) : Bytes := be 2 (z % 65536).toNat

/-- `String(s)`: the bytes followed by a zero byte. -/
def cstr (s : Bytes) : Bytes := s ++ [0]

/-- A string that can be sent as a NUL-terminated string. -/
def NulFree (s : Bytes) : Prop := (0 : Byte) ∉ s

instance (s : Bytes) : Decidable (NulFree s) := inferInstanceAs (Decidable (_ ∉ _))

end Gevulot.Spec

namespace Gevulot.Spec

/-- A PostgreSQL message on the wire: type byte, `Int32` length of everything but the type byte, body. -/
def standardFrame (t : Byte) (body : Bytes) : Bytes := t :: (int32 (body.length + 4) ++ body)

/-- The startup packet: no type byte. -/
def startupFrame (body : Bytes) : Bytes := int32 (body.length + 4) ++ body

end Gevulot.Spec
