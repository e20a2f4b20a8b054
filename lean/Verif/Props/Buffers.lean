import Verif.Proofs.Buffers

/-!
# C01–C05: read and write buffers
-/

namespace Gevulot

/-! ## C01 Integers are written big-endian two's complement -/

/-- C01. `WriteInt32` appends the 4 big-endian base-256 digits of the two's complement of its argument. -/
theorem C01_writeInt32 (b : Bytes) (v : BitVec 32) :
    WriteBuffer.writeInt32 b v = b ++ Spec.int32 v.toInt ∧
    (Spec.int32 v.toInt).length = 4 ∧
    (Spec.value (Spec.int32 v.toInt) : Int) = v.toInt % 4294967296 := by
  refine ⟨?_, ?_, ?_⟩
  · rw [← putUint32_eq_int32]; rfl
  · rw [Spec.int32, Spec.be_length]
  · rw [Spec.int32, Spec.value_be]; omega

/-- C01. `WriteInt16` appends the 2 big-endian base-256 digits of the two's complement of its argument. -/
theorem C01_writeInt16 (b : Bytes) (v : BitVec 16) :
    WriteBuffer.writeInt16 b v = b ++ Spec.int16 v.toInt ∧
    (Spec.int16 v.toInt).length = 2 ∧
    (Spec.value (Spec.int16 v.toInt) : Int) = v.toInt % 65536 := by
  refine ⟨?_, ?_, ?_⟩
  · rw [← putUint16_eq_int16]; rfl
  · rw [Spec.int16, Spec.be_length]
  · rw [Spec.int16, Spec.value_be]; omega

/-- C01, arrays: the encodings of the elements one after the other. -/
theorem C01_writeIntArrays (b : Bytes) (xs : List (BitVec 32)) (ys : List (BitVec 16)) :
    WriteBuffer.writeInt32Array b xs = b ++ xs.flatMap (fun v => Spec.int32 v.toInt) ∧
    WriteBuffer.writeInt16Array b ys = b ++ ys.flatMap (fun v => Spec.int16 v.toInt) := by
  constructor
  · rw [WriteBuffer.writeInt32Array_eq]
    have : putUint32 = fun v => Spec.int32 v.toInt := funext putUint32_eq_int32
    rw [this]
  · rw [WriteBuffer.writeInt16Array_eq]
    have : putUint16 = fun v => Spec.int16 v.toInt := funext putUint16_eq_int16
    rw [this]

example : WriteBuffer.writeInt32 [7] (BitVec.ofInt 32 (-2)) = [7, 0xff, 0xff, 0xff, 0xfe] := by decide
example : Spec.int16 1000 = [3, 232] := by decide

/-! ## C02 Integers and integer arrays round-trip -/

/-- C02. -/
theorem C02_int32_roundtrip (v : BitVec 32) (rest : Bytes) :
    ReadBuffer.readInt32 (WriteBuffer.writeInt32 [] v ++ rest) = (.ok v, rest) := by
  have : WriteBuffer.writeInt32 [] v = putUint32 v := rfl
  rw [this]; exact ReadBuffer.readInt32_append v rest

/-- C02. -/
theorem C02_int16_roundtrip (v : BitVec 16) (rest : Bytes) :
    ReadBuffer.readInt16 (WriteBuffer.writeInt16 [] v ++ rest) = (.ok v, rest) := by
  have : WriteBuffer.writeInt16 [] v = putUint16 v := rfl
  rw [this]; exact ReadBuffer.readInt16_append v rest

/-- C02. Arrays; the hypothesis is Go's limit on the size of a slice. -/
theorem C02_int32Array_roundtrip (arr : List (BitVec 32)) (rest : Bytes) (h : (arr.length : Int) * 4 ≤ maxAlloc) :
    ReadBuffer.readInt32Array arr.length (WriteBuffer.writeInt32Array [] arr ++ rest) = (.ok arr, rest) := by
  rw [WriteBuffer.writeInt32Array_eq]
  exact (ReadBuffer.readInt32Array_spec arr.length h _).2 arr rest rfl rfl

/-- C02. -/
theorem C02_int16Array_roundtrip (arr : List (BitVec 16)) (rest : Bytes) (h : (arr.length : Int) * 2 ≤ maxAlloc) :
    ReadBuffer.readInt16Array arr.length (WriteBuffer.writeInt16Array [] arr ++ rest) = (.ok arr, rest) := by
  rw [WriteBuffer.writeInt16Array_eq]
  exact (ReadBuffer.readInt16Array_spec arr.length h _).2 arr rest rfl rfl

example : (([1, 2, 3] : List (BitVec 32)).length : Int) * 4 ≤ maxAlloc := by decide
example : ReadBuffer.readInt16Array 2 [255, 254, 0, 5, 9] = (.ok [0xfffe, 5], [9]) := by decide

/-! ## C03 NUL-terminated strings -/

/-- C03. `ReadString` succeeds exactly on a buffer that has a zero byte; it returns what is before the first one and
leaves what is after it. -/
theorem C03_readString_iff (b s r : Bytes) :
    ReadBuffer.readString b = (.ok s, r) ↔ Spec.NulFree s ∧ b = Spec.cstr s ++ r := by
  rw [ReadBuffer.readString_ok_iff]; simp [Spec.cstr]

/-- C03. Without a zero byte it fails and does not advance. -/
theorem C03_readString_fails_iff (b : Bytes) :
    (∀ s r, ReadBuffer.readString b ≠ (.ok s, r)) ↔ Spec.NulFree b := by
  constructor
  · intro h hb
    obtain ⟨s, r, h1, rfl⟩ := ReadBuffer.split_nul hb
    exact h s r (ReadBuffer.readString_append s r h1)
  · intro hb s r h
    rw [ReadBuffer.readString_none hb] at h
    simp at h

/-- C03. Round-trip of a string without zero bytes. -/
theorem C03_string_roundtrip (s rest : Bytes) (h : Spec.NulFree s) :
    ReadBuffer.readString (WriteBuffer.writeString [] s ++ rest) = (.ok s, rest) := by
  have : WriteBuffer.writeString [] s ++ rest = s ++ 0 :: rest := by simp [WriteBuffer.writeString]
  rw [this]; exact ReadBuffer.readString_append s rest h

/-- C03. A string with a zero byte comes back cut at its first zero byte. -/
theorem C03_string_cut (s t rest : Bytes) (h : Spec.NulFree s) :
    ReadBuffer.readString (WriteBuffer.writeString [] (s ++ 0 :: t) ++ rest) = (.ok s, t ++ 0 :: rest) := by
  have : WriteBuffer.writeString [] (s ++ 0 :: t) ++ rest = s ++ 0 :: (t ++ 0 :: rest) := by
    simp [WriteBuffer.writeString]
  rw [this]; exact ReadBuffer.readString_append s _ h

example : Spec.NulFree [104, 105] := by decide
example : ReadBuffer.readString (WriteBuffer.writeString [] [104, 0, 105] ++ [1]) = (.ok [104], [105, 0, 1]) := by
  decide

/-! ## C04 Reads consume exactly what they return, failed reads consume nothing -/

/-- A buffer method whose results are encoded by `enc`: success removes exactly the encoding of the result from the
front of the buffer, an error leaves the buffer as it was. -/
def ConsumesExactly {α : Type} (d : Dec α) (enc : α → Bytes) : Prop :=
  ∀ b : Bytes,
    (∀ a r, d b = (.ok a, r) → b = enc a ++ r) ∧
    (∀ e r, d b = (.err e, r) → r = b)

/-- C04, `ReadBytes(n)` for every Go int `n`. -/
theorem C04_readBytes (n : Int) : ConsumesExactly (ReadBuffer.readBytes n) (fun v => v) := by
  intro b
  exact ⟨fun a r h => (ReadBuffer.readBytes_ok_iff.mp h).2, fun e r h => (ReadBuffer.readBytes_err_iff.mp h).2.1⟩

/-- C04, `ReadByte`. -/
theorem C04_readByte : ConsumesExactly ReadBuffer.readByte (fun c => [c]) := by
  intro b
  refine ⟨fun a r h => by simpa using ReadBuffer.readByte_ok_iff.mp h, fun e r h => ?_⟩
  cases b with
  | nil => rw [ReadBuffer.readByte_nil] at h; simp at h; simp [h.2]
  | cons c t => rw [ReadBuffer.readByte_cons] at h; simp at h

/-- C04, `ReadInt32`. -/
theorem C04_readInt32 : ConsumesExactly ReadBuffer.readInt32 (fun v => Spec.int32 v.toInt) := by
  intro b
  refine ⟨fun a r h => by simp only [← putUint32_eq_int32]; exact ReadBuffer.readInt32_ok_iff.mp h, fun e r h => ?_⟩
  rcases Nat.lt_or_ge b.length 4 with hb | hb
  · rw [ReadBuffer.readInt32_short hb] at h; simp at h; exact h.2.symm
  · obtain ⟨v, t, rfl⟩ := ReadBuffer.exists_putUint32 hb
    rw [ReadBuffer.readInt32_append] at h; simp at h

/-- C04, `ReadInt16`. -/
theorem C04_readInt16 : ConsumesExactly ReadBuffer.readInt16 (fun v => Spec.int16 v.toInt) := by
  intro b
  refine ⟨fun a r h => by simp only [← putUint16_eq_int16]; exact ReadBuffer.readInt16_ok_iff.mp h, fun e r h => ?_⟩
  rcases Nat.lt_or_ge b.length 2 with hb | hb
  · rw [ReadBuffer.readInt16_short hb] at h; simp at h; exact h.2.symm
  · obtain ⟨v, t, rfl⟩ := ReadBuffer.exists_putUint16 hb
    rw [ReadBuffer.readInt16_append] at h; simp at h

/-- C04, `ReadString`. -/
theorem C04_readString : ConsumesExactly ReadBuffer.readString Spec.cstr := by
  intro b
  refine ⟨fun a r h => ((C03_readString_iff b a r).mp h).2, fun e r h => ?_⟩
  by_cases hb : (0 : Byte) ∈ b
  · obtain ⟨s, t, h1, rfl⟩ := ReadBuffer.split_nul hb
    rw [ReadBuffer.readString_append s t h1] at h; simp at h
  · rw [ReadBuffer.readString_none hb] at h; simp at h; exact h.2.symm

/-- C04, `ReadInt32Array(k)` for every Go int `k`, overflowing ones included. -/
theorem C04_readInt32Array (k : Int) :
    ConsumesExactly (ReadBuffer.readInt32Array k) (fun arr => arr.flatMap (fun v => Spec.int32 v.toInt)) := by
  have hf : (fun v : BitVec 32 => Spec.int32 v.toInt) = putUint32 := (funext putUint32_eq_int32).symm
  rw [hf]
  intro b
  constructor
  · intro arr r h
    by_cases hk : k < 0 ∨ maxAlloc < k * 4
    · exact absurd (congrArg Prod.fst h) (ReadBuffer.readInt32Array_bad hk b arr)
    · obtain ⟨n, rfl⟩ : ∃ n : Nat, k = n := ⟨k.toNat, by omega⟩
      have hs := ReadBuffer.readInt32Array_spec n (by omega) b
      rcases Nat.lt_or_ge b.length (4 * n) with hb | hb
      · rw [hs.1 hb] at h; simp at h
      · obtain ⟨arr', h1, h2⟩ := ReadBuffer.exists_flatMap32 n (b := b.take (4 * n)) (by simp [hb])
        have h3 : b = arr'.flatMap putUint32 ++ b.drop (4 * n) := by rw [← h2]; simp
        rw [hs.2 arr' _ h1 h3] at h
        simp only [Prod.mk.injEq, Res.ok.injEq] at h
        rw [← h.1, ← h.2]; exact h3
  · intro e r h
    unfold ReadBuffer.readInt32Array at h
    rcases h1 : ReadBuffer.readBytes (wrap64 (k * 4)) b with ⟨o, b'⟩
    cases o with
    | ok v =>
      rw [Dec.bind_of_ok h1, Dec.bind_apply, Dec.lift_apply] at h
      rcases h2 : goMake 4 k with n | e' | p
      · rw [h2] at h
        simp only [Dec.lift_apply, Prod.mk.injEq] at h
        exact absurd h.1 (ReadBuffer.decodeArray_not_err 4 beUint32 ReadBuffer.beUint32_not_err _ _ _ _)
      · unfold goMake at h2; split at h2 <;> simp at h2
      · rw [h2] at h; simp at h
    | err e' =>
      rw [Dec.bind_of_err h1] at h
      simp only [Prod.mk.injEq] at h
      rw [← h.2]; exact (ReadBuffer.readBytes_err_iff.mp h1).2.1
    | panic p => rw [Dec.bind_of_panic h1] at h; simp at h

/-- C04, `ReadInt16Array(k)` for every Go int `k`. -/
theorem C04_readInt16Array (k : Int) :
    ConsumesExactly (ReadBuffer.readInt16Array k) (fun arr => arr.flatMap (fun v => Spec.int16 v.toInt)) := by
  have hf : (fun v : BitVec 16 => Spec.int16 v.toInt) = putUint16 := (funext putUint16_eq_int16).symm
  rw [hf]
  intro b
  constructor
  · intro arr r h
    by_cases hk : k < 0 ∨ maxAlloc < k * 2
    · exact absurd (congrArg Prod.fst h) (ReadBuffer.readInt16Array_bad hk b arr)
    · obtain ⟨n, rfl⟩ : ∃ n : Nat, k = n := ⟨k.toNat, by omega⟩
      have hs := ReadBuffer.readInt16Array_spec n (by omega) b
      rcases Nat.lt_or_ge b.length (2 * n) with hb | hb
      · rw [hs.1 hb] at h; simp at h
      · obtain ⟨arr', h1, h2⟩ := ReadBuffer.exists_flatMap16 n (b := b.take (2 * n)) (by simp [hb])
        have h3 : b = arr'.flatMap putUint16 ++ b.drop (2 * n) := by rw [← h2]; simp
        rw [hs.2 arr' _ h1 h3] at h
        simp only [Prod.mk.injEq, Res.ok.injEq] at h
        rw [← h.1, ← h.2]; exact h3
  · intro e r h
    unfold ReadBuffer.readInt16Array at h
    rcases h1 : ReadBuffer.readBytes (wrap64 (k * 2)) b with ⟨o, b'⟩
    cases o with
    | ok v =>
      rw [Dec.bind_of_ok h1, Dec.bind_apply, Dec.lift_apply] at h
      rcases h2 : goMake 2 k with n | e' | p
      · rw [h2] at h
        simp only [Dec.lift_apply, Prod.mk.injEq] at h
        exact absurd h.1 (ReadBuffer.decodeArray_not_err 2 beUint16 ReadBuffer.beUint16_not_err _ _ _ _)
      · unfold goMake at h2; split at h2 <;> simp at h2
      · rw [h2] at h; simp at h
    | err e' =>
      rw [Dec.bind_of_err h1] at h
      simp only [Prod.mk.injEq] at h
      rw [← h.2]; exact (ReadBuffer.readBytes_err_iff.mp h1).2.1
    | panic p => rw [Dec.bind_of_panic h1] at h; simp at h

example : ReadBuffer.readInt32 [0, 0, 1, 0, 9] = (.ok 256, [9]) := by decide
example : ReadBuffer.readInt32 [0, 0, 1] = (.err .eof, [0, 0, 1]) := by decide
example : ReadBuffer.readString [104, 105] = (.err .noTerminator, [104, 105]) := by decide

/-! ## C05 Exact success / EOF / panic conditions -/

/-- C05, `ReadBytes`. -/
theorem C05_readBytes (n : Int) (b : Bytes) :
    ((∃ v, (ReadBuffer.readBytes n b).1 = .ok v) ↔ 0 ≤ n ∧ n ≤ b.length) ∧
    ((ReadBuffer.readBytes n b).1 = .err .eof ↔ (b.length : Int) < n) ∧
    ((∃ p, (ReadBuffer.readBytes n b).1 = .panic p) ↔ n < 0) := by
  unfold ReadBuffer.readBytes ReadBuffer.len
  split
  · simp; omega
  · split <;> simp <;> omega

/-- C05, `ReadByte`, `ReadInt16`, `ReadInt32`: EOF iff fewer than 1/2/4 bytes are left, and never a panic (nor another
error). -/
theorem C05_fixed_size (b : Bytes) :
    ((ReadBuffer.readByte b).1 = .err .eof ↔ b.length < 1) ∧
    ((∃ v, (ReadBuffer.readByte b).1 = .ok v) ↔ 1 ≤ b.length) ∧
    ((ReadBuffer.readInt16 b).1 = .err .eof ↔ b.length < 2) ∧
    ((∃ v, (ReadBuffer.readInt16 b).1 = .ok v) ↔ 2 ≤ b.length) ∧
    ((ReadBuffer.readInt32 b).1 = .err .eof ↔ b.length < 4) ∧
    ((∃ v, (ReadBuffer.readInt32 b).1 = .ok v) ↔ 4 ≤ b.length) := by
  refine ⟨?_, ?_, ?_, ?_, ?_, ?_⟩
  · cases b <;> simp [ReadBuffer.readByte_nil, ReadBuffer.readByte_cons]
  · cases b <;> simp [ReadBuffer.readByte_nil, ReadBuffer.readByte_cons]
  · rcases Nat.lt_or_ge b.length 2 with hb | hb
    · simp [ReadBuffer.readInt16_short hb, hb]
    · obtain ⟨v, t, rfl⟩ := ReadBuffer.exists_putUint16 hb
      simp [ReadBuffer.readInt16_append]
  · rcases Nat.lt_or_ge b.length 2 with hb | hb
    · simp [ReadBuffer.readInt16_short hb]; omega
    · obtain ⟨v, t, rfl⟩ := ReadBuffer.exists_putUint16 hb
      simp [ReadBuffer.readInt16_append]
  · rcases Nat.lt_or_ge b.length 4 with hb | hb
    · simp [ReadBuffer.readInt32_short hb, hb]
    · obtain ⟨v, t, rfl⟩ := ReadBuffer.exists_putUint32 hb
      simp [ReadBuffer.readInt32_append]
  · rcases Nat.lt_or_ge b.length 4 with hb | hb
    · simp [ReadBuffer.readInt32_short hb]; omega
    · obtain ⟨v, t, rfl⟩ := ReadBuffer.exists_putUint32 hb
      simp [ReadBuffer.readInt32_append]

/-- C05, `ReadInt32Array(k)` when `4k` does not overflow Go's `int`, on any buffer Go can hold. -/
theorem C05_readInt32Array (k : Int) (b : Bytes) (hb : (b.length : Int) ≤ maxAlloc)
    (h0 : -9223372036854775808 ≤ k * 4) (h1 : k * 4 < 9223372036854775808) :
    ((∃ v, (ReadBuffer.readInt32Array k b).1 = .ok v) ↔ 0 ≤ k ∧ k * 4 ≤ b.length) ∧
    ((ReadBuffer.readInt32Array k b).1 = .err .eof ↔ (b.length : Int) < k * 4) ∧
    ((∃ p, (ReadBuffer.readInt32Array k b).1 = .panic p) ↔ k < 0) := by
  by_cases hk : k < 0
  · have : ReadBuffer.readInt32Array k b = (.panic .sliceBounds, b) := by
      unfold ReadBuffer.readInt32Array
      rw [Dec.bind_of_panic]
      rw [ReadBuffer.wrap64_of_small h0 h1]
      exact ReadBuffer.readBytes_neg (by omega) b
    rw [this]; simp; omega
  · by_cases hs : (b.length : Int) < k * 4
    · have : ReadBuffer.readInt32Array k b = (.err .eof, b) := by
        unfold ReadBuffer.readInt32Array
        rw [Dec.bind_of_err]
        rw [ReadBuffer.wrap64_of_small h0 h1]
        exact ReadBuffer.readBytes_short hs
      rw [this]; simp; omega
    · obtain ⟨n, rfl⟩ : ∃ n : Nat, k = n := ⟨k.toNat, by omega⟩
      have hsp := ReadBuffer.readInt32Array_spec n (by omega) b
      obtain ⟨arr, h2, h3⟩ := ReadBuffer.exists_flatMap32 n (b := b.take (4 * n)) (by simp; omega)
      have h4 : b = arr.flatMap putUint32 ++ b.drop (4 * n) := by rw [← h3]; simp
      rw [hsp.2 arr _ h2 h4]
      simp; omega

/-- C05, `ReadInt16Array(k)` when `2k` does not overflow Go's `int`. -/
theorem C05_readInt16Array (k : Int) (b : Bytes) (hb : (b.length : Int) ≤ maxAlloc)
    (h0 : -9223372036854775808 ≤ k * 2) (h1 : k * 2 < 9223372036854775808) :
    ((∃ v, (ReadBuffer.readInt16Array k b).1 = .ok v) ↔ 0 ≤ k ∧ k * 2 ≤ b.length) ∧
    ((ReadBuffer.readInt16Array k b).1 = .err .eof ↔ (b.length : Int) < k * 2) ∧
    ((∃ p, (ReadBuffer.readInt16Array k b).1 = .panic p) ↔ k < 0) := by
  by_cases hk : k < 0
  · have : ReadBuffer.readInt16Array k b = (.panic .sliceBounds, b) := by
      unfold ReadBuffer.readInt16Array
      rw [Dec.bind_of_panic]
      rw [ReadBuffer.wrap64_of_small h0 h1]
      exact ReadBuffer.readBytes_neg (by omega) b
    rw [this]; simp; omega
  · by_cases hs : (b.length : Int) < k * 2
    · have : ReadBuffer.readInt16Array k b = (.err .eof, b) := by
        unfold ReadBuffer.readInt16Array
        rw [Dec.bind_of_err]
        rw [ReadBuffer.wrap64_of_small h0 h1]
        exact ReadBuffer.readBytes_short hs
      rw [this]; simp; omega
    · obtain ⟨n, rfl⟩ : ∃ n : Nat, k = n := ⟨k.toNat, by omega⟩
      have hsp := ReadBuffer.readInt16Array_spec n (by omega) b
      obtain ⟨arr, h2, h3⟩ := ReadBuffer.exists_flatMap16 n (b := b.take (2 * n)) (by simp; omega)
      have h4 : b = arr.flatMap putUint16 ++ b.drop (2 * n) := by rw [← h3]; simp
      rw [hsp.2 arr _ h2 h4]
      simp; omega

theorem wrap64_eq {n w : Int} (h0 : -9223372036854775808 ≤ w) (h1 : w < 9223372036854775808) (h : (n - w) % 18446744073709551616 = 0) : wrap64 n = w := by
  unfold wrap64
  rw [BitVec.toInt_ofInt, Int.bmod_def]
  split <;> omega

/-- C05, `ReadInt32Array(k)` for every Go int `k`: `w` is what `4k` comes to in 64 bits. There is an array only if `k` is not negative and
the buffer has `4k` bytes, however `4k` overflows. -/
theorem C05_readInt32Array_any (k w : Int) (b : Bytes) (hb : (b.length : Int) ≤ maxAlloc)
    (h0 : -9223372036854775808 ≤ w) (h1 : w < 9223372036854775808) (hw : (k * 4 - w) % 18446744073709551616 = 0) :
    ((∃ v, (ReadBuffer.readInt32Array k b).1 = .ok v) ↔ 0 ≤ k ∧ k * 4 ≤ b.length) ∧
    ((ReadBuffer.readInt32Array k b).1 = .err .eof ↔ (b.length : Int) < w) ∧
    ((∃ p, (ReadBuffer.readInt32Array k b).1 = .panic p) ↔ w ≤ b.length ∧ ¬ (0 ≤ k ∧ k * 4 ≤ b.length)) := by
  have hm : maxAlloc = 281474976710656 := rfl
  by_cases hsmall : -9223372036854775808 ≤ k * 4 ∧ k * 4 < 9223372036854775808
  · obtain ⟨g1, g2, g3⟩ := C05_readInt32Array k b hb hsmall.1 hsmall.2
    rw [g1, g2, g3]
    omega
  · have hbad : ∀ v, (ReadBuffer.readInt32Array k b).1 ≠ .ok v := ReadBuffer.readInt32Array_bad (by omega) b
    have hno : ¬ (0 ≤ k ∧ k * 4 ≤ b.length) := by omega
    have hok : ¬ ∃ v, (ReadBuffer.readInt32Array k b).1 = .ok v := fun ⟨v, hv⟩ => hbad v hv
    have hr : (∃ v, (ReadBuffer.readBytes w b).1 = .ok v) ∨ (ReadBuffer.readBytes w b).1 = .err .eof ∨ ∃ p, (ReadBuffer.readBytes w b).1 = .panic p := by
      obtain ⟨e1, e2, e3⟩ := C05_readBytes w b
      rw [e1, e2, e3]; omega
    obtain ⟨e1, e2, e3⟩ := C05_readBytes w b
    have key : ((ReadBuffer.readInt32Array k b).1 = .err .eof ∧ (b.length : Int) < w) ∨ ((∃ p, (ReadBuffer.readInt32Array k b).1 = .panic p) ∧ w ≤ b.length) := by
      unfold ReadBuffer.readInt32Array
      rw [wrap64_eq h0 h1 hw]
      rcases hx : ReadBuffer.readBytes w b with ⟨x, b'⟩
      rw [hx] at e1 e2 e3
      cases x with
      | ok v =>
        have := e1.mp ⟨v, rfl⟩
        refine .inr ⟨?_, this.2⟩
        rw [Dec.bind_of_ok hx]
        have hg : goMake 4 k = .panic .makeLen := if_pos (by omega)
        rw [hg, Dec.bind_of_panic (Dec.lift_apply _ _)]
        exact ⟨.makeLen, rfl⟩
      | err e =>
        refine .inl ⟨?_, ?_⟩
        · rw [Dec.bind_of_err hx]
          rcases hr with ⟨v, hv⟩ | hv | ⟨p, hv⟩ <;> rw [hx] at hv <;> simp at hv
          simp [hv]
        · rcases hr with ⟨v, hv⟩ | hv | ⟨p, hv⟩ <;> rw [hx] at hv <;> simp at hv
          exact e2.mp (by simp [hv])
      | panic p =>
        have := e3.mp ⟨p, rfl⟩
        refine .inr ⟨?_, by omega⟩
        rw [Dec.bind_of_panic hx]
        exact ⟨p, rfl⟩
    rcases key with ⟨g1, g2⟩ | ⟨⟨p, g1⟩, g2⟩
    · rw [g1]
      simp
      omega
    · rw [g1]
      simp
      omega

/-- C05, `ReadInt16Array(k)` for every Go int `k`. -/
theorem C05_readInt16Array_any (k w : Int) (b : Bytes) (hb : (b.length : Int) ≤ maxAlloc)
    (h0 : -9223372036854775808 ≤ w) (h1 : w < 9223372036854775808) (hw : (k * 2 - w) % 18446744073709551616 = 0) :
    ((∃ v, (ReadBuffer.readInt16Array k b).1 = .ok v) ↔ 0 ≤ k ∧ k * 2 ≤ b.length) ∧
    ((ReadBuffer.readInt16Array k b).1 = .err .eof ↔ (b.length : Int) < w) ∧
    ((∃ p, (ReadBuffer.readInt16Array k b).1 = .panic p) ↔ w ≤ b.length ∧ ¬ (0 ≤ k ∧ k * 2 ≤ b.length)) := by
  have hm : maxAlloc = 281474976710656 := rfl
  by_cases hsmall : -9223372036854775808 ≤ k * 2 ∧ k * 2 < 9223372036854775808
  · obtain ⟨g1, g2, g3⟩ := C05_readInt16Array k b hb hsmall.1 hsmall.2
    rw [g1, g2, g3]
    omega
  · have hbad : ∀ v, (ReadBuffer.readInt16Array k b).1 ≠ .ok v := ReadBuffer.readInt16Array_bad (by omega) b
    have hno : ¬ (0 ≤ k ∧ k * 2 ≤ b.length) := by omega
    have hok : ¬ ∃ v, (ReadBuffer.readInt16Array k b).1 = .ok v := fun ⟨v, hv⟩ => hbad v hv
    have hr : (∃ v, (ReadBuffer.readBytes w b).1 = .ok v) ∨ (ReadBuffer.readBytes w b).1 = .err .eof ∨ ∃ p, (ReadBuffer.readBytes w b).1 = .panic p := by
      obtain ⟨e1, e2, e3⟩ := C05_readBytes w b
      rw [e1, e2, e3]; omega
    obtain ⟨e1, e2, e3⟩ := C05_readBytes w b
    have key : ((ReadBuffer.readInt16Array k b).1 = .err .eof ∧ (b.length : Int) < w) ∨ ((∃ p, (ReadBuffer.readInt16Array k b).1 = .panic p) ∧ w ≤ b.length) := by
      unfold ReadBuffer.readInt16Array
      rw [wrap64_eq h0 h1 hw]
      rcases hx : ReadBuffer.readBytes w b with ⟨x, b'⟩
      rw [hx] at e1 e2 e3
      cases x with
      | ok v =>
        have := e1.mp ⟨v, rfl⟩
        refine .inr ⟨?_, this.2⟩
        rw [Dec.bind_of_ok hx]
        have hg : goMake 2 k = .panic .makeLen := if_pos (by omega)
        rw [hg, Dec.bind_of_panic (Dec.lift_apply _ _)]
        exact ⟨.makeLen, rfl⟩
      | err e =>
        refine .inl ⟨?_, ?_⟩
        · rw [Dec.bind_of_err hx]
          rcases hr with ⟨v, hv⟩ | hv | ⟨p, hv⟩ <;> rw [hx] at hv <;> simp at hv
          simp [hv]
        · rcases hr with ⟨v, hv⟩ | hv | ⟨p, hv⟩ <;> rw [hx] at hv <;> simp at hv
          exact e2.mp (by simp [hv])
      | panic p =>
        have := e3.mp ⟨p, rfl⟩
        refine .inr ⟨?_, by omega⟩
        rw [Dec.bind_of_panic hx]
        exact ⟨p, rfl⟩
    rcases key with ⟨g1, g2⟩ | ⟨⟨p, g1⟩, g2⟩
    · rw [g1]
      simp
      omega
    · rw [g1]
      simp
      omega

/-- C05, the overflowing rest: a `k` whose `4k` (`2k`) does not fit a Go slice never yields an array, whatever the
wrapped size is. -/
theorem C05_overflow_never_ok (k : Int) (b : Bytes) :
    (maxAlloc < k * 4 → ∀ v, (ReadBuffer.readInt32Array k b).1 ≠ .ok v) ∧
    (maxAlloc < k * 2 → ∀ v, (ReadBuffer.readInt16Array k b).1 ≠ .ok v) :=
  ⟨fun h v => ReadBuffer.readInt32Array_bad (.inr h) b v, fun h v => ReadBuffer.readInt16Array_bad (.inr h) b v⟩

example : (([1, 2, 3, 4, 5] : Bytes).length : Int) ≤ maxAlloc ∧ (-9223372036854775808 : Int) ≤ 1 * 4 ∧
    (1 : Int) * 4 < 9223372036854775808 := by decide
example : (([1, 2] : Bytes).length : Int) ≤ maxAlloc ∧ ((4611686018427387904 : Int) * 4 - 0) % 18446744073709551616 = 0 ∧
    ((-4611686018427387904 : Int) * 4 - 0) % 18446744073709551616 = 0 := by decide
/-- The overflow is real: `ReadInt32Array(1<<62)` asks for 0 bytes, gets them, and panics in `make`. -/
example : (ReadBuffer.readInt32Array 4611686018427387904 [1, 2]).1 = .panic .makeLen := by decide
example : (ReadBuffer.readBytes (-1) [1, 2]).1 = .panic .sliceBounds := by decide

end Gevulot
