import Verif.Model.Go

/-! # What a hex dump looks like -/

namespace Gevulot.Spec

/-- `0` to `9`, `a` to `f`. -/
def hexDigit (n : Nat) : Byte := BitVec.ofNat 8 (if n < 10 then 48 + n else 97 + (n - 10))

/-- The last eight hexadecimal digits of a number. -/
def hex8 (n : Nat) : Bytes := (List.range 8).map fun i => hexDigit (n / 16 ^ (7 - i) % 16)

/-- Two digits, or blanks where there is no byte; then a blank. -/
def hexCell : Option Byte → Bytes
  | some b => [hexDigit (b.toNat / 16), hexDigit (b.toNat % 16), 32]
  | none => [32, 32, 32]

/-- A byte as it is shown: itself if it is a printable ASCII character, a dot otherwise. -/
def shown (b : Byte) : Byte := if 32 ≤ b.toNat ∧ b.toNat ≤ 126 then b else 46

/-- A line: where its first byte is; two columns of eight bytes; the bytes as text, between bars. -/
def dumpLine (offset : Nat) (bytes : Bytes) : Bytes :=
  hex8 offset ++ [32, 32] ++ ((List.range' 0 8).flatMap fun i => hexCell bytes[i]?) ++ [32] ++
    ((List.range' 8 8).flatMap fun i => hexCell bytes[i]?) ++ [32] ++ [124] ++ bytes.map shown ++ [124, 10]

/-- The lines, of sixteen bytes each but for the last. -/
def dumpLines (offset : Nat) (bytes : Bytes) : Bytes :=
  if _h : bytes = [] then [] else dumpLine offset (bytes.take 16) ++ dumpLines (offset + 16) (bytes.drop 16)
termination_by bytes.length
decreasing_by
  have := List.length_pos_iff.mpr _h
  simp only [List.length_drop]
  omega

/-- The number that decimal digits stand for. -/
def decimalValue (digits : Bytes) : Nat := digits.foldl (fun v d => 10 * v + (d.toNat - 48)) 0

/-- The digits of a number: no others, and no zero too many in front. -/
def IsDecimal (digits : Bytes) (n : Nat) : Prop :=
  digits ≠ [] ∧ (∀ d ∈ digits, 48 ≤ d.toNat ∧ d.toNat ≤ 57) ∧ (digits.head? = some 48 → digits = [48]) ∧ decimalValue digits = n

end Gevulot.Spec
