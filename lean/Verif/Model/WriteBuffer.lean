import Verif.Model.Go

/-!
# pkg/pg/write_buffer.go

`WriteBuffer` methods append to the slice behind the receiver; each is modelled as a function returning the new slice.
-/

namespace Gevulot

/-- `binary.BigEndian.PutUint32` into a fresh 4-byte slice (Go standard library: `b[0] = byte(v >> 24)`, ...). -/
def putUint32 (v : BitVec 32) : Bytes :=
  [(v >>> 24).setWidth 8, (v >>> 16).setWidth 8, (v >>> 8).setWidth 8, v.setWidth 8]

/-- `binary.BigEndian.PutUint16` into a fresh 2-byte slice. -/
def putUint16 (v : BitVec 16) : Bytes :=
  [(v >>> 8).setWidth 8, v.setWidth 8]

namespace WriteBuffer

/-- `WriteBuffer.Len`, pkg/pg/write_buffer.go:23-25. -/
def len (b : Bytes) : Nat := b.length

/-- `WriteBuffer.WriteBytes`, pkg/pg/write_buffer.go:28-30. -/
def writeBytes (b : Bytes) (v : Bytes) : Bytes := b ++ v

/-- `WriteBuffer.WriteByte`, pkg/pg/write_buffer.go:33-35. -/
def writeByte (b : Bytes) (c : Byte) : Bytes := b ++ [c]

/-- `WriteBuffer.WriteInt32`, pkg/pg/write_buffer.go:38-42. -/
def writeInt32 (b : Bytes) (num : BitVec 32) : Bytes := writeBytes b (putUint32 num)

/-- `WriteBuffer.WriteInt16`, pkg/pg/write_buffer.go:45-49. -/
def writeInt16 (b : Bytes) (num : BitVec 16) : Bytes := writeBytes b (putUint16 num)

/-- `WriteBuffer.WriteString`, pkg/pg/write_buffer.go:52-54. -/
def writeString (b : Bytes) (str : Bytes) : Bytes := (b ++ str) ++ [0]

/-- Overwrites `len(v)` bytes of `buf` at offset `off`. -/
def writeAt (buf : Bytes) (off : Nat) (v : Bytes) : Bytes := buf.take off ++ v ++ buf.drop (off + v.length)

/-- The `for i := range arr` loops of `WriteInt32Array`/`WriteInt16Array`, pkg/pg/write_buffer.go:60-62 and 71-73, from
index `i` on: element `i` is put into `arrBytes[i*w:i*w+w]`. -/
def fillArray {α : Type} (w : Nat) (put : α → Bytes) : (i : Nat) → List α → Bytes → Bytes
  | _, [], arrBytes => arrBytes
  | i, x :: arr, arrBytes => fillArray w put (i + 1) arr (writeAt arrBytes (i * w) (put x))

/-- `WriteBuffer.WriteInt32Array`, pkg/pg/write_buffer.go:57-65. -/
def writeInt32Array (b : Bytes) (arr : List (BitVec 32)) : Bytes :=
  writeBytes b (fillArray 4 putUint32 0 arr (List.replicate (arr.length * 4) 0))

/-- `WriteBuffer.WriteInt16Array`, pkg/pg/write_buffer.go:68-76. -/
def writeInt16Array (b : Bytes) (arr : List (BitVec 16)) : Bytes :=
  writeBytes b (fillArray 2 putUint16 0 arr (List.replicate (arr.length * 2) 0))

end WriteBuffer
end Gevulot
