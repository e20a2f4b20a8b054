import Verif.Model.ReadBuffer
import Verif.Model.WriteBuffer
import Verif.Spec.Wire

/-! Lemmas about the buffer model. -/

namespace Gevulot

@[simp] theorem Dec.pure_apply {α : Type} (a : α) (b : Bytes) : (pure a : Dec α) b = (.ok a, b) := rfl

theorem Dec.bind_apply {α β : Type} (x : Dec α) (f : α → Dec β) (b : Bytes) :
    (x >>= f) b = match x b with
      | (.ok a, b') => f a b'
      | (.err e, b') => (.err e, b')
      | (.panic p, b') => (.panic p, b') := rfl

@[simp] theorem Dec.lift_apply {α : Type} (r : Res α) (b : Bytes) : Dec.lift r b = (r, b) := rfl

theorem Dec.bind_of_ok {α β : Type} {x : Dec α} {f : α → Dec β} {b b' : Bytes} {a : α}
    (h : x b = (.ok a, b')) : (x >>= f) b = f a b' := by
  rw [Dec.bind_apply, h]

theorem Dec.bind_of_err {α β : Type} {x : Dec α} {f : α → Dec β} {b b' : Bytes} {e : Err}
    (h : x b = (.err e, b')) : (x >>= f) b = (.err e, b') := by
  rw [Dec.bind_apply, h]

theorem Dec.bind_of_panic {α β : Type} {x : Dec α} {f : α → Dec β} {b b' : Bytes} {e : Panic}
    (h : x b = (.panic e, b')) : (x >>= f) b = (.panic e, b') := by
  rw [Dec.bind_apply, h]

theorem Dec.bind_ok_iff {α β : Type} {x : Dec α} {f : α → Dec β} {b r : Bytes} {c : β} :
    (x >>= f) b = (.ok c, r) ↔ ∃ a b', x b = (.ok a, b') ∧ f a b' = (.ok c, r) := by
  rw [Dec.bind_apply]
  rcases h : x b with ⟨o, b'⟩
  cases o <;> simp [and_assoc]

/-! ### Integers -/

theorem beUint32_put (v : BitVec 32) (rest : Bytes) : beUint32 (putUint32 v ++ rest) = .ok v := by
  simp only [putUint32, List.cons_append, beUint32, Res.ok.injEq]
  ext i hi
  simp only [BitVec.getElem_or, BitVec.getElem_setWidth, BitVec.getElem_shiftLeft, BitVec.getLsbD_setWidth,
    BitVec.getLsbD_ushiftRight]
  rw [← BitVec.getLsbD_eq_getElem]
  grind

theorem put_beUint32 (a b c d : Byte) :
    putUint32 (d.setWidth 32 ||| c.setWidth 32 <<< 8 ||| b.setWidth 32 <<< 16 ||| a.setWidth 32 <<< 24)
      = [a, b, c, d] := by
  simp only [putUint32, List.cons.injEq, and_true]
  refine ⟨?_, ?_, ?_, ?_⟩ <;> ext i hi <;> simp <;> grind

theorem beUint16_put (v : BitVec 16) (rest : Bytes) : beUint16 (putUint16 v ++ rest) = .ok v := by
  simp only [putUint16, List.cons_append, beUint16, Res.ok.injEq]
  ext i hi
  simp only [BitVec.getElem_or, BitVec.getElem_setWidth, BitVec.getElem_shiftLeft, BitVec.getLsbD_setWidth,
    BitVec.getLsbD_ushiftRight]
  rw [← BitVec.getLsbD_eq_getElem]
  grind

theorem put_beUint16 (a b : Byte) : putUint16 (b.setWidth 16 ||| a.setWidth 16 <<< 8) = [a, b] := by
  simp only [putUint16, List.cons.injEq, and_true]
  refine ⟨?_, ?_⟩ <;> ext i hi <;> simp <;> grind

@[simp] theorem putUint32_length (v : BitVec 32) : (putUint32 v).length = 4 := rfl
@[simp] theorem putUint16_length (v : BitVec 16) : (putUint16 v).length = 2 := rfl

theorem beUint32_ok_iff {b : Bytes} {v : BitVec 32} :
    beUint32 b = .ok v ↔ ∃ rest, b = putUint32 v ++ rest := by
  constructor
  · intro h
    match b, h with
    | b0 :: b1 :: b2 :: b3 :: rest, h =>
      simp only [beUint32, Res.ok.injEq] at h
      refine ⟨rest, ?_⟩
      rw [← h, put_beUint32]; rfl
  · rintro ⟨rest, rfl⟩; exact beUint32_put v rest

theorem beUint32_total {b : Bytes} (h : 4 ≤ b.length) : ∃ v, beUint32 b = .ok v := by
  match b, h with
  | b0 :: b1 :: b2 :: b3 :: rest, _ => exact ⟨_, rfl⟩

theorem beUint16_ok_iff {b : Bytes} {v : BitVec 16} :
    beUint16 b = .ok v ↔ ∃ rest, b = putUint16 v ++ rest := by
  constructor
  · intro h
    match b, h with
    | b0 :: b1 :: rest, h =>
      simp only [beUint16, Res.ok.injEq] at h
      refine ⟨rest, ?_⟩
      rw [← h, put_beUint16]; rfl
  · rintro ⟨rest, rfl⟩; exact beUint16_put v rest

theorem beUint16_total {b : Bytes} (h : 2 ≤ b.length) : ∃ v, beUint16 b = .ok v := by
  match b, h with
  | b0 :: b1 :: rest, _ => exact ⟨_, rfl⟩

/-- The bytes the code writes for a 32-bit word are its base-256 digits. -/
theorem putUint32_eq_be (v : BitVec 32) : putUint32 v = Spec.be 4 v.toNat := by
  simp only [putUint32, Spec.be, List.nil_append, List.cons_append, List.cons.injEq, and_true]
  refine ⟨?_, ?_, ?_, ?_⟩ <;> apply BitVec.eq_of_toNat_eq <;>
    simp [Nat.shiftRight_eq_div_pow, Nat.div_div_eq_div_mul]

theorem putUint16_eq_be (v : BitVec 16) : putUint16 v = Spec.be 2 v.toNat := by
  simp only [putUint16, Spec.be, List.nil_append, List.cons_append, List.cons.injEq, and_true]
  refine ⟨?_, ?_⟩ <;> apply BitVec.eq_of_toNat_eq <;> simp [Nat.shiftRight_eq_div_pow]

theorem toInt_emod32 (v : BitVec 32) : (v.toInt % 4294967296).toNat = v.toNat := by
  have := v.isLt
  rw [BitVec.toInt_eq_toNat_cond]
  split <;> omega

theorem toInt_emod16 (v : BitVec 16) : (v.toInt % 65536).toNat = v.toNat := by
  have := v.isLt
  rw [BitVec.toInt_eq_toNat_cond]
  split <;> omega

theorem putUint32_eq_int32 (v : BitVec 32) : putUint32 v = Spec.int32 v.toInt := by
  rw [putUint32_eq_be, Spec.int32, toInt_emod32]

theorem putUint16_eq_int16 (v : BitVec 16) : putUint16 v = Spec.int16 v.toInt := by
  rw [putUint16_eq_be, Spec.int16, toInt_emod16]

theorem putUint32_inj {a b : BitVec 32} (h : putUint32 a = putUint32 b) : a = b := by
  have h1 := beUint32_put a []
  rw [h, beUint32_put] at h1
  injection h1 with h1; exact h1.symm

theorem putUint16_inj {a b : BitVec 16} (h : putUint16 a = putUint16 b) : a = b := by
  have h1 := beUint16_put a []
  rw [h, beUint16_put] at h1
  injection h1 with h1; exact h1.symm

/-! ### The specification's digits -/

namespace Spec

theorem be_length (k n : Nat) : (be k n).length = k := by
  induction k generalizing n with
  | zero => rfl
  | succ k ih => simp [be, ih]

theorem value_append_single (bs : Bytes) (c : Byte) : value (bs ++ [c]) = value bs * 256 + c.toNat := by
  simp [value]

theorem value_be (k n : Nat) : value (be k n) = n % 256 ^ k := by
  induction k generalizing n with
  | zero => simp [be, value, Nat.mod_one]
  | succ k ih =>
    rw [be, value_append_single, ih]
    simp only [BitVec.toNat_ofNat]
    have h : n % 256 ^ (k + 1) = n % (256 * 256 ^ k) := by rw [Nat.pow_succ, Nat.mul_comm]
    rw [h, Nat.mod_mul]
    omega

end Spec

/-! ### ReadBytes -/

namespace ReadBuffer

theorem readBytes_neg {n : Int} (h : n < 0) (b : Bytes) : readBytes n b = (.panic .sliceBounds, b) := by
  have : ¬ (b.length : Int) < n := by omega
  simp [readBytes, len, this, h]

theorem readBytes_short {n : Int} {b : Bytes} (h : (b.length : Int) < n) : readBytes n b = (.err .eof, b) := by
  simp [readBytes, len, h]

theorem readBytes_fit {n : Nat} {b : Bytes} (h : n ≤ b.length) :
    readBytes n b = (.ok (b.take n), b.drop n) := by
  have h1 : ¬ (b.length : Int) < (n : Int) := by omega
  have h2 : ¬ (n : Int) < 0 := by omega
  simp only [readBytes, len, h1, h2, if_false, Int.toNat_natCast]

theorem readBytes_append (v rest : Bytes) : readBytes v.length (v ++ rest) = (.ok v, rest) := by
  rw [readBytes_fit (by simp)]; simp

theorem readBytes_ok_iff {n : Int} {b v r : Bytes} :
    readBytes n b = (.ok v, r) ↔ (v.length : Int) = n ∧ b = v ++ r := by
  constructor
  · intro h
    by_cases hn : n < 0
    · simp [readBytes_neg hn] at h
    obtain ⟨m, rfl⟩ : ∃ m : Nat, n = m := ⟨n.toNat, by omega⟩
    rcases Nat.lt_or_ge b.length m with hb | hb
    · rw [readBytes_short (by omega)] at h; simp at h
    · rw [readBytes_fit hb] at h
      simp only [Prod.mk.injEq, Res.ok.injEq] at h
      obtain ⟨rfl, rfl⟩ := h
      simp [hb]
  · rintro ⟨rfl, rfl⟩; exact readBytes_append v r

theorem readBytes_err_iff {n : Int} {b r : Bytes} {e : Err} :
    readBytes n b = (.err e, r) ↔ e = .eof ∧ r = b ∧ (b.length : Int) < n := by
  unfold readBytes len
  split
  · simp only [Prod.mk.injEq, Res.err.injEq]; grind
  · split <;> simp <;> omega

theorem readBytes_panic_iff {n : Int} {b r : Bytes} {p : Panic} :
    readBytes n b = (.panic p, r) ↔ p = .sliceBounds ∧ r = b ∧ n < 0 := by
  unfold readBytes len
  split
  · simp; omega
  · split
    · simp only [Prod.mk.injEq, Res.panic.injEq]; grind
    · simp; omega

/-! ### ReadByte -/

theorem readByte_cons (c : Byte) (r : Bytes) : readByte (c :: r) = (.ok c, r) := by
  have h : readBytes 1 (c :: r) = (.ok [c], r) := readBytes_append [c] r
  unfold readByte
  rw [Dec.bind_of_ok h]
  rfl

theorem readByte_nil : readByte [] = (.err .eof, []) := by
  have h : readBytes 1 [] = (.err .eof, []) := rfl
  unfold readByte
  rw [Dec.bind_of_err h]

theorem readByte_ok_iff {b r : Bytes} {c : Byte} : readByte b = (.ok c, r) ↔ b = c :: r := by
  cases b with
  | nil => simp [readByte_nil]
  | cons d t => simp [readByte_cons]

/-! ### ReadInt32 / ReadInt16 -/

theorem readInt32_append (v : BitVec 32) (r : Bytes) : readInt32 (putUint32 v ++ r) = (.ok v, r) := by
  have h : readBytes 4 (putUint32 v ++ r) = (.ok (putUint32 v), r) := readBytes_append (putUint32 v) r
  unfold readInt32
  rw [Dec.bind_of_ok h, Dec.lift_apply]
  have := beUint32_put v []
  rw [List.append_nil] at this
  rw [this]

theorem readInt32_short {b : Bytes} (h : b.length < 4) : readInt32 b = (.err .eof, b) := by
  unfold readInt32
  rw [Dec.bind_of_err (readBytes_short (by omega))]

theorem exists_putUint32 {b : Bytes} (h : 4 ≤ b.length) : ∃ v r, b = putUint32 v ++ r := by
  obtain ⟨v, hv⟩ := beUint32_total h
  obtain ⟨r, hr⟩ := beUint32_ok_iff.mp hv
  exact ⟨v, r, hr⟩

theorem readInt32_ok_iff {b r : Bytes} {v : BitVec 32} :
    readInt32 b = (.ok v, r) ↔ b = putUint32 v ++ r := by
  constructor
  · intro h
    rcases Nat.lt_or_ge b.length 4 with hb | hb
    · simp [readInt32_short hb] at h
    · obtain ⟨w, t, rfl⟩ := exists_putUint32 hb
      rw [readInt32_append] at h
      simp only [Prod.mk.injEq, Res.ok.injEq] at h
      rw [h.1, h.2]
  · rintro rfl; exact readInt32_append v r

theorem readInt16_append (v : BitVec 16) (r : Bytes) : readInt16 (putUint16 v ++ r) = (.ok v, r) := by
  have h : readBytes 2 (putUint16 v ++ r) = (.ok (putUint16 v), r) := readBytes_append (putUint16 v) r
  unfold readInt16
  rw [Dec.bind_of_ok h, Dec.lift_apply]
  have := beUint16_put v []
  rw [List.append_nil] at this
  rw [this]

theorem readInt16_short {b : Bytes} (h : b.length < 2) : readInt16 b = (.err .eof, b) := by
  unfold readInt16
  rw [Dec.bind_of_err (readBytes_short (by omega))]

theorem exists_putUint16 {b : Bytes} (h : 2 ≤ b.length) : ∃ v r, b = putUint16 v ++ r := by
  obtain ⟨v, hv⟩ := beUint16_total h
  obtain ⟨r, hr⟩ := beUint16_ok_iff.mp hv
  exact ⟨v, r, hr⟩

theorem readInt16_ok_iff {b r : Bytes} {v : BitVec 16} :
    readInt16 b = (.ok v, r) ↔ b = putUint16 v ++ r := by
  constructor
  · intro h
    rcases Nat.lt_or_ge b.length 2 with hb | hb
    · simp [readInt16_short hb] at h
    · obtain ⟨w, t, rfl⟩ := exists_putUint16 hb
      rw [readInt16_append] at h
      simp only [Prod.mk.injEq, Res.ok.injEq] at h
      rw [h.1, h.2]
  · rintro rfl; exact readInt16_append v r

/-! ### ReadString -/

theorem findIdx?_nul_append (s r : Bytes) (hs : (0 : Byte) ∉ s) :
    (s ++ 0 :: r).findIdx? (· == 0) = some s.length := by
  induction s with
  | nil => simp [List.findIdx?_cons]
  | cons c s ih =>
    have hc : (c == 0) = false := by
      simp only [List.mem_cons, not_or] at hs
      simpa using fun h => hs.1 h.symm
    have := ih (fun h => hs (List.mem_cons_of_mem _ h))
    rw [List.cons_append, List.findIdx?_cons]
    simp only [hc, this, Bool.false_eq_true, if_false, Option.map_some, List.length_cons]

theorem split_nul {b : Bytes} (h : (0 : Byte) ∈ b) : ∃ s r, (0 : Byte) ∉ s ∧ b = s ++ 0 :: r := by
  induction b with
  | nil => simp at h
  | cons c b ih =>
    by_cases hc : c = 0
    · exact ⟨[], b, by simp, by simp [hc]⟩
    · have : (0 : Byte) ∈ b := by
        rcases List.mem_cons.mp h with h | h
        · exact absurd h.symm hc
        · exact h
      obtain ⟨s, r, h1, h2⟩ := ih this
      refine ⟨c :: s, r, ?_, by simp [h2]⟩
      simp only [List.mem_cons, not_or]
      exact ⟨fun h => hc h.symm, h1⟩

theorem readString_append (s r : Bytes) (hs : (0 : Byte) ∉ s) : readString (s ++ 0 :: r) = (.ok s, r) := by
  have h1 : indexByte (s ++ 0 :: r) 0 = (s.length : Int) := by
    rw [indexByte, findIdx?_nul_append s r hs]
  have h2 : readBytes ((s.length : Int) + 1) (s ++ 0 :: r) = (.ok (s ++ [0]), r) := by
    have := readBytes_append (s ++ [0]) r
    simpa using this
  have h3 : ¬ (s.length : Int) < 0 := by omega
  unfold readString
  simp only [h1, h2, h3, if_false, Int.toNat_natCast]
  simp

theorem readString_none {b : Bytes} (h : (0 : Byte) ∉ b) : readString b = (.err .noTerminator, b) := by
  have h1 : indexByte b 0 = -1 := by
    rw [indexByte]
    have : b.findIdx? (· == 0) = none := by
      rw [List.findIdx?_eq_none_iff]
      intro x hx
      rw [beq_eq_false_iff_ne]
      rintro rfl; exact h hx
    rw [this]
  unfold readString
  simp only [h1]
  rfl

theorem readString_ok_iff {b s r : Bytes} :
    readString b = (.ok s, r) ↔ Spec.NulFree s ∧ b = s ++ 0 :: r := by
  constructor
  · intro h
    by_cases hb : (0 : Byte) ∈ b
    · obtain ⟨s', r', h1, rfl⟩ := split_nul hb
      rw [readString_append s' r' h1] at h
      simp only [Prod.mk.injEq, Res.ok.injEq] at h
      rw [← h.1, ← h.2]
      exact ⟨h1, rfl⟩
    · simp [readString_none hb] at h
  · rintro ⟨h, rfl⟩; exact readString_append s r h

/-! ### Arrays -/

theorem decodeArray_flatMap {α : Type} (w : Nat) (dec : Bytes → Res α) (put : α → Bytes)
    (hw : ∀ x, (put x).length = w) (hd : ∀ x r, dec (put x ++ r) = .ok x) (arr : List α) :
    ∀ (pre : Bytes) (i : Nat), pre.length = w * i →
      decodeArray w dec (pre ++ arr.flatMap put) i arr.length = .ok arr := by
  induction arr with
  | nil => intros; rfl
  | cons x arr ih =>
    intro pre i hp
    have h1 : (pre ++ (x :: arr).flatMap put).drop (w * i) = put x ++ arr.flatMap put := by
      rw [List.drop_left' hp, List.flatMap_cons]
    have h2 := ih (pre ++ put x) (i + 1) (by rw [List.length_append, hp, hw, Nat.mul_succ])
    rw [List.append_assoc, ← List.flatMap_cons] at h2
    rw [List.length_cons, decodeArray, h1, hd, Res.bind_ok, h2]
    rfl

theorem decodeArray_put32 (arr : List (BitVec 32)) :
    decodeArray 4 beUint32 (arr.flatMap putUint32) 0 arr.length = .ok arr :=
  decodeArray_flatMap 4 beUint32 putUint32 putUint32_length beUint32_put arr [] 0 rfl

theorem decodeArray_put16 (arr : List (BitVec 16)) :
    decodeArray 2 beUint16 (arr.flatMap putUint16) 0 arr.length = .ok arr :=
  decodeArray_flatMap 2 beUint16 putUint16 putUint16_length beUint16_put arr [] 0 rfl

theorem decodeArray_not_err {α : Type} (w : Nat) (dec : Bytes → Res α) (hd : ∀ b e, dec b ≠ .err e) (bs : Bytes) (n : Nat) :
    ∀ i e, decodeArray w dec bs i n ≠ .err e := by
  induction n with
  | zero => intro i e h; simp [decodeArray] at h
  | succ n ih =>
    intro i e h
    rw [decodeArray] at h
    cases hx : dec (bs.drop (w * i)) with
    | ok x =>
      rw [hx, Res.bind_ok] at h
      cases hy : decodeArray w dec bs (i + 1) n with
      | ok y => rw [hy] at h; simp at h
      | err e' => exact ih _ _ hy
      | panic p => rw [hy] at h; simp at h
    | err e' => exact hd _ _ hx
    | panic p => rw [hx] at h; simp at h

theorem beUint32_not_err (b : Bytes) (e : Err) : beUint32 b ≠ .err e := by
  unfold beUint32; split <;> simp

theorem beUint16_not_err (b : Bytes) (e : Err) : beUint16 b ≠ .err e := by
  unfold beUint16; split <;> simp

end ReadBuffer

namespace WriteBuffer

theorem fillArray_spec {α : Type} (w : Nat) (put : α → Bytes) (hw : ∀ x, (put x).length = w) (arr : List α) :
    ∀ (pre post : Bytes) (i : Nat), pre.length = i * w → post.length = arr.length * w →
      fillArray w put i arr (pre ++ post) = pre ++ arr.flatMap put := by
  induction arr with
  | nil =>
    intro pre post i _ h2
    simp at h2; subst h2; simp [fillArray]
  | cons x arr ih =>
    intro pre post i h1 h2
    have h3 : writeAt (pre ++ post) (i * w) (put x) = (pre ++ put x) ++ post.drop w := by
      unfold writeAt
      rw [List.take_left' h1, hw, ← h1, List.drop_append]
      simp
    rw [fillArray, h3, ih (pre ++ put x) (post.drop w) (i + 1)
      (by rw [List.length_append, h1, hw, Nat.succ_mul])
      (by rw [List.length_drop, h2, List.length_cons, Nat.succ_mul]; omega)]
    simp

theorem writeInt32Array_eq (b : Bytes) (arr : List (BitVec 32)) :
    writeInt32Array b arr = b ++ arr.flatMap putUint32 := by
  have := fillArray_spec 4 putUint32 putUint32_length arr [] (List.replicate (arr.length * 4) 0) 0 (by simp) (by simp)
  simp only [List.nil_append] at this
  rw [writeInt32Array, writeBytes, this]

theorem writeInt16Array_eq (b : Bytes) (arr : List (BitVec 16)) :
    writeInt16Array b arr = b ++ arr.flatMap putUint16 := by
  have := fillArray_spec 2 putUint16 putUint16_length arr [] (List.replicate (arr.length * 2) 0) 0 (by simp) (by simp)
  simp only [List.nil_append] at this
  rw [writeInt16Array, writeBytes, this]

end WriteBuffer

namespace ReadBuffer

theorem flatMap_put32_length (arr : List (BitVec 32)) : (arr.flatMap putUint32).length = 4 * arr.length := by
  induction arr with
  | nil => rfl
  | cons x arr ih => simp [ih]; omega

theorem flatMap_put16_length (arr : List (BitVec 16)) : (arr.flatMap putUint16).length = 2 * arr.length := by
  induction arr with
  | nil => rfl
  | cons x arr ih => simp [ih]; omega

theorem exists_flatMap32 (k : Nat) {b : Bytes} (h : b.length = 4 * k) :
    ∃ arr : List (BitVec 32), arr.length = k ∧ b = arr.flatMap putUint32 := by
  induction k generalizing b with
  | zero => exact ⟨[], rfl, by simpa using h⟩
  | succ k ih =>
    obtain ⟨v, r, rfl⟩ := exists_putUint32 (b := b) (by omega)
    obtain ⟨arr, h1, h2⟩ := ih (b := r) (by simp at h; omega)
    exact ⟨v :: arr, by simp [h1], by simp [h2]⟩

theorem exists_flatMap16 (k : Nat) {b : Bytes} (h : b.length = 2 * k) :
    ∃ arr : List (BitVec 16), arr.length = k ∧ b = arr.flatMap putUint16 := by
  induction k generalizing b with
  | zero => exact ⟨[], rfl, by simpa using h⟩
  | succ k ih =>
    obtain ⟨v, r, rfl⟩ := exists_putUint16 (b := b) (by omega)
    obtain ⟨arr, h1, h2⟩ := ih (b := r) (by simp at h; omega)
    exact ⟨v :: arr, by simp [h1], by simp [h2]⟩

theorem wrap64_of_small {n : Int} (h0 : -9223372036854775808 ≤ n) (h1 : n < 9223372036854775808) : wrap64 n = n := by
  unfold wrap64
  rw [BitVec.toInt_ofInt]
  rw [Int.bmod_eq_of_le] <;> omega

/-- Complete description of `ReadInt32Array`. -/
theorem readInt32Array_spec (k : Nat) (hk : (k : Int) * 4 ≤ maxAlloc) (b : Bytes) :
    (b.length < 4 * k → readInt32Array k b = (.err .eof, b)) ∧
    (∀ (arr : List (BitVec 32)) (r : Bytes), arr.length = k → b = arr.flatMap putUint32 ++ r →
      readInt32Array k b = (.ok arr, r)) := by
  unfold maxAlloc at hk
  have hw : wrap64 ((k : Int) * 4) = ((4 * k : Nat) : Int) := by
    rw [wrap64_of_small] <;> omega
  constructor
  · intro h
    unfold readInt32Array
    rw [Dec.bind_of_err]
    rw [hw]
    exact readBytes_short (by omega)
  · intro arr r h1 h2
    subst h2
    have hl := flatMap_put32_length arr
    unfold readInt32Array
    have h3 : readBytes (wrap64 ((k : Int) * 4)) (arr.flatMap putUint32 ++ r)
        = (.ok (arr.flatMap putUint32), r) := by
      rw [hw, ← h1, ← hl]; exact readBytes_append _ _
    rw [Dec.bind_of_ok h3]
    have h4 : goMake 4 (k : Int) = .ok k := by
      unfold goMake maxAlloc
      rw [if_neg (by omega)]
      simp
    rw [Dec.bind_apply, Dec.lift_apply, h4, ← h1]
    simp only [Dec.lift_apply, decodeArray_put32]

/-- Complete description of `ReadInt16Array`. -/
theorem readInt16Array_spec (k : Nat) (hk : (k : Int) * 2 ≤ maxAlloc) (b : Bytes) :
    (b.length < 2 * k → readInt16Array k b = (.err .eof, b)) ∧
    (∀ (arr : List (BitVec 16)) (r : Bytes), arr.length = k → b = arr.flatMap putUint16 ++ r →
      readInt16Array k b = (.ok arr, r)) := by
  unfold maxAlloc at hk
  have hw : wrap64 ((k : Int) * 2) = ((2 * k : Nat) : Int) := by
    rw [wrap64_of_small] <;> omega
  constructor
  · intro h
    unfold readInt16Array
    rw [Dec.bind_of_err]
    rw [hw]
    exact readBytes_short (by omega)
  · intro arr r h1 h2
    subst h2
    have hl := flatMap_put16_length arr
    unfold readInt16Array
    have h3 : readBytes (wrap64 ((k : Int) * 2)) (arr.flatMap putUint16 ++ r)
        = (.ok (arr.flatMap putUint16), r) := by
      rw [hw, ← h1, ← hl]; exact readBytes_append _ _
    rw [Dec.bind_of_ok h3]
    have h4 : goMake 2 (k : Int) = .ok k := by
      unfold goMake maxAlloc
      rw [if_neg (by omega)]
      simp
    rw [Dec.bind_apply, Dec.lift_apply, h4, ← h1]
    simp only [Dec.lift_apply, decodeArray_put16]

/-- A negative or over-large count makes `ReadInt32Array` fail, by EOF or by a panic, never return a value. -/
theorem readInt32Array_bad {k : Int} (hk : k < 0 ∨ maxAlloc < k * 4) (b : Bytes) (arr : List (BitVec 32)) :
    (readInt32Array k b).1 ≠ .ok arr := by
  intro h
  unfold readInt32Array at h
  rw [Dec.bind_apply] at h
  rcases h1 : readBytes (wrap64 (k * 4)) b with ⟨o, b'⟩
  rw [h1] at h
  cases o with
  | ok v =>
    have : goMake 4 k = .panic .makeLen := by simp [goMake, hk]
    rw [this] at h
    simp [Dec.bind_apply] at h
  | err e => simp at h
  | panic p => simp at h

theorem readInt16Array_bad {k : Int} (hk : k < 0 ∨ maxAlloc < k * 2) (b : Bytes) (arr : List (BitVec 16)) :
    (readInt16Array k b).1 ≠ .ok arr := by
  intro h
  unfold readInt16Array at h
  rw [Dec.bind_apply] at h
  rcases h1 : readBytes (wrap64 (k * 2)) b with ⟨o, b'⟩
  rw [h1] at h
  cases o with
  | ok v =>
    have : goMake 2 k = .panic .makeLen := by simp [goMake, hk]
    rw [this] at h
    simp [Dec.bind_apply] at h
  | err e => simp at h
  | panic p => simp at h

end ReadBuffer
end Gevulot
