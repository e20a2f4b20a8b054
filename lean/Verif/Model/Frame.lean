import Verif.Model.ReadBuffer
import Verif.Model.WriteBuffer

/-!
# pkg/pg/frame.go, standard_frame.go, startup_frame.go and the `io.Reader` they read from
-/

namespace Gevulot

/-- A network connection seen as an `io.Reader`: the segments it will deliver, one per `Read` call (a segment longer
than the caller's slice is delivered over several calls; an empty segment is a `Read` returning `(0, nil)`), then the
error every further `Read` returns (`io.EOF` on an orderly close). A `Read` that blocks forever is not represented
here; the session model handles waiting. -/
structure Reader where
  chunks : List Bytes
  final : Err
  deriving DecidableEq, Repr

namespace Reader

/-- All the bytes still to be read. -/
def bytes (r : Reader) : Bytes := r.chunks.flatten

end Reader

/-- `bytes.Buffer.ReadFrom(io.LimitReader(r, n))` (Go standard library), which is what `io.CopyN` into a `bytes.Buffer`
runs: reads until the limit is reached or the reader fails; `io.EOF` is not reported. Result: bytes read, error, and
segments left. The read sizes that depend on the capacity of the destination are not modelled: a read cut short by
the capacity is the same as a segment boundary at that point. -/
def readFromLimited (final : Err) : (chunks : List Bytes) → (n : Nat) → Bytes × Option Err × List Bytes
  | chunks, 0 => ([], none, chunks)
  | [], _ + 1 => ([], if final = .eof then none else some final, [])
  | c :: cs, n + 1 =>
    if c.length ≤ n + 1 then
      let (bs, e, cs') := readFromLimited final cs (n + 1 - c.length)
      (c ++ bs, e, cs')
    else (c.take (n + 1), none, c.drop (n + 1) :: cs)

/-- `io.CopyN(buffer, r, n)` (Go standard library): `nil` error if exactly `n` bytes were copied, `io.EOF` if fewer were
copied and the reader reported no error. `n ≤ 0` copies nothing; `0 < n` is compared with the number of bytes
written, so a negative `n` gives no error either (`written < n` is false). Result: error, bytes appended to the
buffer, the reader afterwards. -/
def copyN (r : Reader) (n : Int) : Option Err × Bytes × Reader :=
  let (bs, e, cs) := readFromLimited r.final r.chunks n.toNat
  let r' : Reader := { r with chunks := cs }
  if (bs.length : Int) = n then (none, bs, r')
  else if (bs.length : Int) < n ∧ e = none then (some .eof, bs, r')
  else (e, bs, r')

/-- The two implementations of the `Frame` interface, pkg/pg/frame.go:6-15. Both are byte slices. -/
inductive Frame where
  /-- `StandardFrame`, pkg/pg/standard_frame.go:11 -/
  | standard (b : Bytes)
  /-- `StartupFrame`, pkg/pg/startup_frame.go:11 -/
  | startup (b : Bytes)
  deriving DecidableEq, Repr

namespace Frame

/-- `MessageType`, pkg/pg/standard_frame.go:17-19 and startup_frame.go:17-19. -/
def messageType : Frame → Res Byte
  | .standard [] => .panic .index
  | .standard (c :: _) => .ok c
  | .startup _ => .ok 0

/-- `MessageBody`, pkg/pg/standard_frame.go:22-24 (`f[5:]`) and startup_frame.go:22-24 (`f[4:]`). -/
def messageBody : Frame → Res Bytes
  | .standard b => if b.length < 5 then .panic .sliceBounds else .ok (b.drop 5)
  | .startup b => if b.length < 4 then .panic .sliceBounds else .ok (b.drop 4)

/-- `Bytes`, pkg/pg/standard_frame.go:27-29 and startup_frame.go:27-29. -/
def bytes : Frame → Bytes
  | .standard b => b
  | .startup b => b

end Frame

/-- `NewStandardFrame`, pkg/pg/standard_frame.go:32-40; `int32(len(messageBody) + 4)` wraps. -/
def newStandardFrame (messageType : Byte) (messageBody : Bytes) : Frame :=
  let buffer : Bytes := []
  let buffer := WriteBuffer.writeByte buffer messageType
  let buffer := WriteBuffer.writeInt32 buffer (BitVec.ofNat 32 (messageBody.length + 4))
  let buffer := WriteBuffer.writeBytes buffer messageBody
  .standard buffer

/-- `NewStartupFrame`, pkg/pg/startup_frame.go:32-40. -/
def newStartupFrame (messageBody : Bytes) : Frame :=
  let buffer : Bytes := []
  let buffer := WriteBuffer.writeInt32 buffer (BitVec.ofNat 32 (messageBody.length + 4))
  let buffer := WriteBuffer.writeBytes buffer messageBody
  .startup buffer

/-- The header decoding of `ReadStandardFrame`, pkg/pg/standard_frame.go:57-71: skip a byte, read the length. -/
def standardHeaderLength (header : Bytes) : Res (BitVec 32) :=
  Dec.run (do
    let _ ← ReadBuffer.readByte
    ReadBuffer.readInt32) header

/-- `ReadStandardFrame`, pkg/pg/standard_frame.go:43-82. `frameLength-4` is computed in `int32` and wraps. -/
def readStandardFrame (r : Reader) : Res Frame × Reader :=
  match copyN r 5 with
  | (some err, _, r) => (.err err, r)
  | (none, buffer, r) =>
    match standardHeaderLength buffer with
    | .err err => (.err err, r)
    | .panic p => (.panic p, r)
    | .ok frameLength =>
      match copyN r (frameLength - 4).toInt with
      | (some err, _, r) => (.err err, r)
      | (none, rest, r) => (.ok (.standard (buffer ++ rest)), r)

/-- `ReadStartupFrame`, pkg/pg/startup_frame.go:43-76. -/
def readStartupFrame (r : Reader) : Res Frame × Reader :=
  match copyN r 4 with
  | (some err, _, r) => (.err err, r)
  | (none, buffer, r) =>
    match Dec.run ReadBuffer.readInt32 buffer with
    | .err err => (.err err, r)
    | .panic p => (.panic p, r)
    | .ok frameLength =>
      match copyN r (frameLength - 4).toInt with
      | (some err, _, r) => (.err err, r)
      | (none, rest, r) => (.ok (.startup (buffer ++ rest)), r)

end Gevulot
