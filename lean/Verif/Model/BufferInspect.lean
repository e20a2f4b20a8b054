import Verif.Model.ReadBuffer

/-!
# `Inspect` of pkg/pg/read_buffer.go and write_buffer.go

Both are `fmt.Sprintf("buffer length: %d\n%s", b.Len(), hex.Dump(*b))`. `hex.Dump` is modelled as it is written in Go's
encoding/hex: a `dumper` that is written to byte by byte and then closed. Its writer is a `bytes.Buffer`, which returns no errors;
`buf` is scratch space, of which every byte is set before it is written out, and is replaced by what is put into it; `n`, a `uint`,
does not overflow.
-/

namespace Gevulot.BufferInspect

/-- `hextable`, of encoding/hex. -/
def hextable (n : Nat) : Byte := (ascii "0123456789abcdef").getD n 0

/-- `hex.Encode`: `dst[j] = hextable[v>>4]; dst[j+1] = hextable[v&0x0f]`. -/
def encode (src : Bytes) : Bytes :=
  src.flatMap fun (v : Byte) => [hextable (v >>> 4).toNat, hextable (v &&& 0x0f).toNat]

/-- `toChar`. -/
def toChar (b : Byte) : Byte := if b.toNat < 32 ∨ b.toNat > 126 then BitVec.ofNat 8 '.'.toNat else b

/-- The `dumper`, with what it has written. -/
structure Dumper where
  out : Bytes
  rightChars : List Byte
  used : Nat
  n : Nat

/-- `Dumper(&buf)`: `rightChars` has 18 bytes. -/
def newDumper : Dumper := { out := [], rightChars := List.replicate 18 0, used := 0, n := 0 }

/-- `h.w.Write(p)` -/
def Dumper.write (h : Dumper) (p : Bytes) : Dumper := { h with out := h.out ++ p }

/-- One turn of the loop of `dumper.Write`. -/
def Dumper.writeByte (h : Dumper) (c : Byte) : Dumper :=
  let h :=
    if h.used = 0 then
      h.write (encode [BitVec.ofNat 8 (h.n >>> 24), BitVec.ofNat 8 (h.n >>> 16), BitVec.ofNat 8 (h.n >>> 8), BitVec.ofNat 8 h.n] ++
        ascii "  ")
    else h
  let h :=
    if h.used = 7 then h.write (encode [c] ++ ascii "  ")
    else if h.used = 15 then h.write (encode [c] ++ ascii "  |")
    else h.write (encode [c] ++ ascii " ")
  let h := { h with rightChars := h.rightChars.set h.used (toChar c), used := h.used + 1, n := h.n + 1 }
  if h.used = 16 then
    let h := { h with rightChars := (h.rightChars.set 16 (BitVec.ofNat 8 '|'.toNat)).set 17 (BitVec.ofNat 8 '\n'.toNat) }
    let h := h.write h.rightChars
    { h with used := 0 }
  else h

/-- The loop of `dumper.Close`, with `k` turns left: blanks in place of the bytes that the last line does not have. -/
def Dumper.pad : (k : Nat) → Dumper → Dumper
  | 0, h => h
  | k + 1, h =>
    let h :=
      if h.used = 7 then h.write (ascii "    ")
      else if h.used = 15 then h.write (ascii "    |")
      else h.write (ascii "   ")
    Dumper.pad k { h with used := h.used + 1 }

/-- `dumper.Close`. -/
def Dumper.close (h : Dumper) : Dumper :=
  if h.used = 0 then h
  else
    let nBytes := h.used
    let h := Dumper.pad (16 - h.used) h
    let h := { h with
      rightChars := (h.rightChars.set nBytes (BitVec.ofNat 8 '|'.toNat)).set (nBytes + 1) (BitVec.ofNat 8 '\n'.toNat) }
    h.write (h.rightChars.take (nBytes + 2))

/-- `hex.Dump`. -/
def dump (data : Bytes) : Bytes := (data.foldl Dumper.writeByte newDumper).close.out

/-- `%d` of an integer that is not negative: digits from the last to the first. -/
def decimal (n : Nat) : Bytes :=
  if n < 10 then [BitVec.ofNat 8 (48 + n)] else decimal (n / 10) ++ [BitVec.ofNat 8 (48 + n % 10)]

/-- `ReadBuffer.Inspect`, pkg/pg/read_buffer.go:141-143, and `WriteBuffer.Inspect`, pkg/pg/write_buffer.go:79-81. -/
def inspect (b : Bytes) : Bytes := ascii "buffer length: " ++ decimal b.length ++ ascii "\n" ++ dump b

end Gevulot.BufferInspect
