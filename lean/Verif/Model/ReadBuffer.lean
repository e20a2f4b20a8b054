import Verif.Model.Go

/-!
# pkg/pg/read_buffer.go

`ReadBuffer` is a slice whose pointer-receiver methods advance it. A method is modelled as a function from the buffer
to its result and the new buffer.
-/

namespace Gevulot

/-- A `ReadBuffer` method (or a piece of code made of them): result and buffer afterwards. -/
def Dec (α : Type) := Bytes → Res α × Bytes

namespace Dec

/-- `v, err := b.ReadX(); if err != nil { return nil, err }; ...` -/
def bind {α β : Type} (x : Dec α) (f : α → Dec β) : Dec β := fun b =>
  match x b with
  | (.ok a, b') => f a b'
  | (.err e, b') => (.err e, b')
  | (.panic p, b') => (.panic p, b')

instance : Monad Dec where
  pure a := fun b => (.ok a, b)
  bind := Dec.bind

/-- Code that does not touch the buffer. -/
def lift {α : Type} (r : Res α) : Dec α := fun b => (r, b)

/-- Runs a decoder on the body of a frame and drops the rest of the buffer, as every `Parse*` function does. -/
def run {α : Type} (d : Dec α) (b : Bytes) : Res α := (d b).1

end Dec

/-- `bytes.IndexByte`: index of the first occurrence, or -1. -/
def indexByte (b : Bytes) (c : Byte) : Int :=
  match b.findIdx? (· == c) with
  | some i => (i : Int)
  | none => -1

/-- `binary.BigEndian.Uint32` (Go standard library): reads the first 4 bytes, panics if there are fewer. -/
def beUint32 : Bytes → Res (BitVec 32)
  | b0 :: b1 :: b2 :: b3 :: _ =>
    .ok (b3.setWidth 32 ||| b2.setWidth 32 <<< 8 ||| b1.setWidth 32 <<< 16 ||| b0.setWidth 32 <<< 24)
  | _ => .panic .index

/-- `binary.BigEndian.Uint16` (Go standard library). -/
def beUint16 : Bytes → Res (BitVec 16)
  | b0 :: b1 :: _ => .ok (b1.setWidth 16 ||| b0.setWidth 16 <<< 8)
  | _ => .panic .index

namespace ReadBuffer

/-- `ReadBuffer.Len`, pkg/pg/read_buffer.go:28-30. -/
def len (b : Bytes) : Int := b.length

/-- `ReadBuffer.ReadBytes`, pkg/pg/read_buffer.go:34-45. A negative `n` passes the length check (line 35) and makes the
slice expression of line 39 panic. -/
def readBytes (n : Int) : Dec Bytes := fun b =>
  if len b < n then (.err .eof, b)
  else if n < 0 then (.panic .sliceBounds, b)
  else (.ok (b.take n.toNat), b.drop n.toNat)

/-- `ReadBuffer.ReadByte`, pkg/pg/read_buffer.go:49-57. -/
def readByte : Dec Byte := do
  let value ← readBytes 1
  match value with
  | c :: _ => pure c
  | [] => Dec.lift (.panic .index)

/-- `ReadBuffer.ReadInt32`, pkg/pg/read_buffer.go:61-69. The conversion `int32(uint32)` keeps the bits. -/
def readInt32 : Dec (BitVec 32) := do
  let intBytes ← readBytes 4
  Dec.lift (beUint32 intBytes)

/-- `ReadBuffer.ReadInt16`, pkg/pg/read_buffer.go:73-81. -/
def readInt16 : Dec (BitVec 16) := do
  let intBytes ← readBytes 2
  Dec.lift (beUint16 intBytes)

/-- `ReadBuffer.ReadString`, pkg/pg/read_buffer.go:85-102. The string is returned as its bytes. -/
def readString : Dec Bytes := fun b =>
  let nullIndex := indexByte b 0
  if nullIndex < 0 then (.err .noTerminator, b)
  else
    match readBytes (nullIndex + 1) b with
    | (.ok stringBytes, b') => (.ok (stringBytes.take nullIndex.toNat), b')
    | (.err e, b') => (.err e, b')
    | (.panic p, b') => (.panic p, b')

/-- The `for i := range arr` loops of `ReadInt32Array`/`ReadInt16Array`, pkg/pg/read_buffer.go:115-117 and 133-135,
from index `i` on with `n` indices left: element `i` is decoded from `arrBytes[w*i:]`. -/
def decodeArray {α : Type} (w : Nat) (dec : Bytes → Res α) (arrBytes : Bytes) : (i n : Nat) → Res (List α)
  | _, 0 => .ok []
  | i, n + 1 => do
    let x ← dec (arrBytes.drop (w * i))
    let xs ← decodeArray w dec arrBytes (i + 1) n
    pure (x :: xs)

/-- `ReadBuffer.ReadInt32Array`, pkg/pg/read_buffer.go:106-120. `k * 4` is computed in Go's 64-bit `int`. -/
def readInt32Array (k : Int) : Dec (List (BitVec 32)) := do
  let arrBytes ← readBytes (wrap64 (k * 4))
  let n ← Dec.lift (goMake 4 k)
  Dec.lift (decodeArray 4 beUint32 arrBytes 0 n)

/-- `ReadBuffer.ReadInt16Array`, pkg/pg/read_buffer.go:124-138. -/
def readInt16Array (k : Int) : Dec (List (BitVec 16)) := do
  let arrBytes ← readBytes (wrap64 (k * 2))
  let n ← Dec.lift (goMake 2 k)
  Dec.lift (decodeArray 2 beUint16 arrBytes 0 n)

end ReadBuffer
end Gevulot
