import Verif.Model.BufferInspect
import Verif.Spec.BufferInspect

/-!
# C104 What `Inspect` shows
-/

namespace Gevulot.BufferInspect

theorem hextable_eq : ∀ n < 16, hextable n = Spec.hexDigit n := by decide

theorem encode_one (c : Byte) : encode [c] = [Spec.hexDigit (c.toNat / 16), Spec.hexDigit (c.toNat % 16)] := by
  have h1 : (c >>> 4).toNat = c.toNat / 16 := by simp [BitVec.toNat_ushiftRight, Nat.shiftRight_eq_div_pow]
  have h2 : (c &&& 0x0f).toNat = c.toNat % 16 := by
    rw [BitVec.toNat_and]
    exact Nat.and_two_pow_sub_one_eq_mod c.toNat 4
  have := c.isLt
  simp only [encode, List.flatMap_cons, List.flatMap_nil, List.append_nil, h1, h2]
  rw [hextable_eq _ (by omega), hextable_eq _ (by omega)]

theorem encode_cons (c : Byte) (l : Bytes) : encode (c :: l) = encode [c] ++ encode l := by simp [encode]

theorem toChar_eq (b : Byte) : toChar b = Spec.shown b := by
  unfold toChar Spec.shown
  by_cases h : b.toNat < 32 ∨ b.toNat > 126
  · rw [if_pos h, if_neg (by omega)]; rfl
  · rw [if_neg h, if_pos (by omega)]

theorem offset_eq (n : Nat) :
    encode [BitVec.ofNat 8 (n >>> 24), BitVec.ofNat 8 (n >>> 16), BitVec.ofNat 8 (n >>> 8), BitVec.ofNat 8 n] = Spec.hex8 n := by
  simp only [encode_cons _ (_ :: _), encode_one, Spec.hex8, BitVec.toNat_ofNat, Nat.shiftRight_eq_div_pow]
  simp only [List.range, List.range.loop, List.map_cons, List.map_nil, List.cons_append, List.nil_append, List.cons.injEq, and_true]
  refine ⟨?_, ?_, ?_, ?_, ?_, ?_, ?_, ?_⟩ <;> congr 1 <;> omega

/-- A full line. -/
theorem full_line (b0 b1 b2 b3 b4 b5 b6 b7 b8 b9 b10 b11 b12 b13 b14 b15 : Byte) (out rc : Bytes) (n : Nat) (hrc : rc.length = 18) :
    [b0, b1, b2, b3, b4, b5, b6, b7, b8, b9, b10, b11, b12, b13, b14, b15].foldl Dumper.writeByte ⟨out, rc, 0, n⟩ =
      ⟨out ++ Spec.dumpLine n [b0, b1, b2, b3, b4, b5, b6, b7, b8, b9, b10, b11, b12, b13, b14, b15],
        [b0, b1, b2, b3, b4, b5, b6, b7, b8, b9, b10, b11, b12, b13, b14, b15].map Spec.shown ++ [124, 10], 0, n + 16⟩ := by
  match rc, hrc with
  | [r0, r1, r2, r3, r4, r5, r6, r7, r8, r9, r10, r11, r12, r13, r14, r15, r16, r17], _ =>
    simp [Dumper.writeByte, Dumper.write, offset_eq, encode_one, toChar_eq, Spec.dumpLine, Spec.hexCell, List.range', ascii]

set_option maxHeartbeats 1000000 in
/-- The last line, if it is not full. -/
theorem last_line (xs out rc : Bytes) (n : Nat) (hrc : rc.length = 18) (h : xs.length < 16) (h0 : xs ≠ []) :
    (xs.foldl Dumper.writeByte ⟨out, rc, 0, n⟩).close.out = out ++ Spec.dumpLine n xs := by
  match rc, hrc with
  | [r0, r1, r2, r3, r4, r5, r6, r7, r8, r9, r10, r11, r12, r13, r14, r15, r16, r17], _ =>
    match xs, h, h0 with
    | [b0], _, _ =>
      simp [Dumper.writeByte, Dumper.write, Dumper.close, Dumper.pad, offset_eq, encode_one, toChar_eq, Spec.dumpLine, Spec.hexCell, List.range', ascii]
    | [b0, b1], _, _ =>
      simp [Dumper.writeByte, Dumper.write, Dumper.close, Dumper.pad, offset_eq, encode_one, toChar_eq, Spec.dumpLine, Spec.hexCell, List.range', ascii]
    | [b0, b1, b2], _, _ =>
      simp [Dumper.writeByte, Dumper.write, Dumper.close, Dumper.pad, offset_eq, encode_one, toChar_eq, Spec.dumpLine, Spec.hexCell, List.range', ascii]
    | [b0, b1, b2, b3], _, _ =>
      simp [Dumper.writeByte, Dumper.write, Dumper.close, Dumper.pad, offset_eq, encode_one, toChar_eq, Spec.dumpLine, Spec.hexCell, List.range', ascii]
    | [b0, b1, b2, b3, b4], _, _ =>
      simp [Dumper.writeByte, Dumper.write, Dumper.close, Dumper.pad, offset_eq, encode_one, toChar_eq, Spec.dumpLine, Spec.hexCell, List.range', ascii]
    | [b0, b1, b2, b3, b4, b5], _, _ =>
      simp [Dumper.writeByte, Dumper.write, Dumper.close, Dumper.pad, offset_eq, encode_one, toChar_eq, Spec.dumpLine, Spec.hexCell, List.range', ascii]
    | [b0, b1, b2, b3, b4, b5, b6], _, _ =>
      simp [Dumper.writeByte, Dumper.write, Dumper.close, Dumper.pad, offset_eq, encode_one, toChar_eq, Spec.dumpLine, Spec.hexCell, List.range', ascii]
    | [b0, b1, b2, b3, b4, b5, b6, b7], _, _ =>
      simp [Dumper.writeByte, Dumper.write, Dumper.close, Dumper.pad, offset_eq, encode_one, toChar_eq, Spec.dumpLine, Spec.hexCell, List.range', ascii]
    | [b0, b1, b2, b3, b4, b5, b6, b7, b8], _, _ =>
      simp [Dumper.writeByte, Dumper.write, Dumper.close, Dumper.pad, offset_eq, encode_one, toChar_eq, Spec.dumpLine, Spec.hexCell, List.range', ascii]
    | [b0, b1, b2, b3, b4, b5, b6, b7, b8, b9], _, _ =>
      simp [Dumper.writeByte, Dumper.write, Dumper.close, Dumper.pad, offset_eq, encode_one, toChar_eq, Spec.dumpLine, Spec.hexCell, List.range', ascii]
    | [b0, b1, b2, b3, b4, b5, b6, b7, b8, b9, b10], _, _ =>
      simp [Dumper.writeByte, Dumper.write, Dumper.close, Dumper.pad, offset_eq, encode_one, toChar_eq, Spec.dumpLine, Spec.hexCell, List.range', ascii]
    | [b0, b1, b2, b3, b4, b5, b6, b7, b8, b9, b10, b11], _, _ =>
      simp [Dumper.writeByte, Dumper.write, Dumper.close, Dumper.pad, offset_eq, encode_one, toChar_eq, Spec.dumpLine, Spec.hexCell, List.range', ascii]
    | [b0, b1, b2, b3, b4, b5, b6, b7, b8, b9, b10, b11, b12], _, _ =>
      simp [Dumper.writeByte, Dumper.write, Dumper.close, Dumper.pad, offset_eq, encode_one, toChar_eq, Spec.dumpLine, Spec.hexCell, List.range', ascii]
    | [b0, b1, b2, b3, b4, b5, b6, b7, b8, b9, b10, b11, b12, b13], _, _ =>
      simp [Dumper.writeByte, Dumper.write, Dumper.close, Dumper.pad, offset_eq, encode_one, toChar_eq, Spec.dumpLine, Spec.hexCell, List.range', ascii]
    | [b0, b1, b2, b3, b4, b5, b6, b7, b8, b9, b10, b11, b12, b13, b14], _, _ =>
      simp [Dumper.writeByte, Dumper.write, Dumper.close, Dumper.pad, offset_eq, encode_one, toChar_eq, Spec.dumpLine, Spec.hexCell, List.range', ascii]
    | _ :: _ :: _ :: _ :: _ :: _ :: _ :: _ :: _ :: _ :: _ :: _ :: _ :: _ :: _ :: _ :: _, h, _ => exact absurd h (by simp only [List.length_cons]; omega)

theorem dumpLines_nil (n : Nat) : Spec.dumpLines n [] = [] := by rw [Spec.dumpLines]; simp

theorem dumpLines_ne {n : Nat} {b : Bytes} (h : b ≠ []) :
    Spec.dumpLines n b = Spec.dumpLine n (b.take 16) ++ Spec.dumpLines (n + 16) (b.drop 16) := by
  rw [Spec.dumpLines]; simp [h]

theorem dump_from (k : Nat) (data out rc : Bytes) (n : Nat) (hrc : rc.length = 18) (hk : data.length ≤ k) :
    (data.foldl Dumper.writeByte ⟨out, rc, 0, n⟩).close.out = out ++ Spec.dumpLines n data := by
  induction k generalizing data out rc n with
  | zero =>
    have : data = [] := List.length_eq_zero_iff.mp (by omega)
    subst this
    simp [Dumper.close, dumpLines_nil]
  | succ k ih =>
    by_cases h0 : data = []
    · subst h0
      simp [Dumper.close, dumpLines_nil]
    · rw [dumpLines_ne h0]
      by_cases h : data.length < 16
      · rw [List.take_of_length_le (by omega), List.drop_of_length_le (by omega), dumpLines_nil, List.append_nil]
        exact last_line data out rc n hrc h h0
      · have hd : data = data.take 16 ++ data.drop 16 := (List.take_append_drop 16 data).symm
        have ht : (data.take 16).length = 16 := by rw [List.length_take]; omega
        rw [hd, List.foldl_append, ← hd]
        generalize data.take 16 = line at ht
        match line, ht with
        | [b0, b1, b2, b3, b4, b5, b6, b7, b8, b9, b10, b11, b12, b13, b14, b15], _ =>
          rw [full_line _ _ _ _ _ _ _ _ _ _ _ _ _ _ _ _ _ _ _ hrc]
          rw [ih (data.drop 16) _ _ (n + 16) (by simp) (by rw [List.length_drop]; omega), List.append_assoc]

theorem toNat_digit {d : Nat} (h : d < 10) : (BitVec.ofNat 8 (48 + d)).toNat = 48 + d := by
  rw [BitVec.toNat_ofNat]; omega

theorem decimalValue_append (l : Bytes) (d : Byte) : Spec.decimalValue (l ++ [d]) = 10 * Spec.decimalValue l + (d.toNat - 48) := by
  simp [Spec.decimalValue]

theorem decimal_spec (n : Nat) : Spec.IsDecimal (decimal n) n ∧ ((decimal n).head? = some 48 → n = 0) := by
  induction n using Nat.strongRecOn with
  | ind n ih =>
    rw [decimal]
    by_cases h : n < 10
    · rw [if_pos h]
      have hd := toNat_digit h
      refine ⟨⟨by simp, ?_, by simp, ?_⟩, ?_⟩
      · intro d hd'
        rw [List.mem_singleton.mp hd', hd]
        omega
      · simp only [Spec.decimalValue, List.foldl_cons, List.foldl_nil, hd]
        omega
      · intro h1
        simp only [List.head?_cons, Option.some.injEq] at h1
        rw [h1] at hd
        have : (48 : Byte).toNat = 48 := rfl
        omega
    · rw [if_neg h]
      obtain ⟨⟨h1, h2, h3, h4⟩, h5⟩ := ih (n / 10) (by omega)
      have hd := toNat_digit (Nat.mod_lt n (by decide : 0 < 10))
      have hh : (decimal (n / 10) ++ [BitVec.ofNat 8 (48 + n % 10)]).head? = (decimal (n / 10)).head? := by
        rw [List.head?_append]
        cases hc : (decimal (n / 10)) with
        | nil => exact absurd hc h1
        | cons a b => rfl
      have hne : (decimal (n / 10)).head? ≠ some 48 := fun hx => by
        have := h5 hx
        omega
      refine ⟨⟨by simp, ?_, fun hx => absurd (hh ▸ hx) hne, ?_⟩, fun hx => absurd (hh ▸ hx) hne⟩
      · intro d hd'
        rcases List.mem_append.mp hd' with hd' | hd'
        · exact h2 d hd'
        · rw [List.mem_singleton.mp hd', hd]
          omega
      · rw [decimalValue_append, h4, hd]
        omega

/-- C104: what `Inspect` returns: the number of bytes, and the bytes, in lines of sixteen, in hexadecimal digits and as text. -/
theorem C104 (b : Bytes) : ∃ digits, Spec.IsDecimal digits b.length ∧
    inspect b = ascii "buffer length: " ++ digits ++ ascii "\n" ++ Spec.dumpLines 0 b := by
  refine ⟨decimal b.length, (decimal_spec _).1, ?_⟩
  unfold inspect dump
  rw [newDumper, dump_from b.length b [] _ 0 (by simp) (Nat.le_refl _), List.nil_append]

/-! ## Nothing is lost -/

theorem hexDigit_inj : ∀ a < 16, ∀ b < 16, Spec.hexDigit a = Spec.hexDigit b → a = b := by decide

theorem hexCell_inj {a b : Option Byte} (h : a.isSome = b.isSome) (hc : Spec.hexCell a = Spec.hexCell b) : a = b := by
  cases a <;> cases b <;> simp at h
  · rfl
  · rename_i x y
    simp only [Spec.hexCell, List.cons.injEq, and_true] at hc
    have := x.isLt
    have := y.isLt
    have h1 := hexDigit_inj _ (by omega) _ (by omega) hc.1
    have h2 := hexDigit_inj _ (by omega) _ (by omega) hc.2
    congr 1
    apply BitVec.eq_of_toNat_eq
    omega

theorem hexCell_length (a : Option Byte) : (Spec.hexCell a).length = 3 := by cases a <;> rfl

theorem cells_inj {l : List Nat} {x y : Bytes} (h : x.length = y.length)
    (hc : (l.flatMap fun i => Spec.hexCell x[i]?) = l.flatMap fun i => Spec.hexCell y[i]?) : ∀ i ∈ l, x[i]? = y[i]? := by
  induction l with
  | nil => intro i hi; cases hi
  | cons j l ih =>
    simp only [List.flatMap_cons] at hc
    obtain ⟨h1, h2⟩ := List.append_inj hc (by rw [hexCell_length, hexCell_length])
    intro i hi
    rcases List.mem_cons.mp hi with rfl | hi
    · exact hexCell_inj (by
        have : (x[i]? = none) ↔ (y[i]? = none) := by rw [List.getElem?_eq_none_iff, List.getElem?_eq_none_iff, h]
        cases hx : x[i]? <;> cases hy : y[i]? <;> simp [hx, hy] at this ⊢) h1
    · exact ih h2 i hi

theorem cells_length (l : List Nat) (x : Bytes) : (l.flatMap fun i => Spec.hexCell x[i]?).length = 3 * l.length := by
  induction l with
  | nil => rfl
  | cons j l ih => simp only [List.flatMap_cons, List.length_append, hexCell_length, ih, List.length_cons]; omega

theorem hex8_length (n : Nat) : (Spec.hex8 n).length = 8 := by simp [Spec.hex8]

theorem dumpLine_length (n : Nat) (x : Bytes) : (Spec.dumpLine n x).length = 63 + x.length := by
  simp only [Spec.dumpLine, List.length_append, hex8_length, cells_length, List.length_range', List.length_map, List.length_cons,
    List.length_nil]
  omega

theorem dumpLine_inj {n : Nat} {x y : Bytes} (h : x.length = y.length) (hx : x.length ≤ 16) (hl : Spec.dumpLine n x = Spec.dumpLine n y) :
    x = y := by
  simp only [Spec.dumpLine, List.append_assoc] at hl
  have h1 := List.append_cancel_left (List.append_cancel_left hl)
  obtain ⟨h2, h3⟩ := List.append_inj h1 (by rw [cells_length, cells_length])
  obtain ⟨h4, -⟩ := List.append_inj (List.append_cancel_left h3) (by rw [cells_length, cells_length])
  have a := cells_inj h h2
  have b := cells_inj h h4
  apply List.ext_getElem?
  intro i
  by_cases hi : i < 8
  · exact a i (by simp; omega)
  · by_cases hi' : i < 16
    · exact b i (by simp; omega)
    · rw [List.getElem?_eq_none (by omega), List.getElem?_eq_none (by omega)]

theorem dumpLines_inj (k : Nat) {n : Nat} {x y : Bytes} (h : x.length = y.length) (hk : x.length ≤ k)
    (hl : Spec.dumpLines n x = Spec.dumpLines n y) : x = y := by
  induction k generalizing n x y with
  | zero =>
    rw [List.length_eq_zero_iff.mp (show x.length = 0 by omega), List.length_eq_zero_iff.mp (show y.length = 0 by omega)]
  | succ k ih =>
    by_cases hx : x = []
    · subst hx
      exact (List.length_eq_zero_iff.mp h.symm).symm
    · have hy : y ≠ [] := fun e => hx (List.length_eq_zero_iff.mp (by rw [h, e]; rfl))
      have hx' := List.length_pos_iff.mpr hx
      rw [dumpLines_ne hx, dumpLines_ne hy] at hl
      have ht : (x.take 16).length = (y.take 16).length := by rw [List.length_take, List.length_take, h]
      obtain ⟨h1, h2⟩ := List.append_inj hl (by rw [dumpLine_length, dumpLine_length, ht])
      have e1 := dumpLine_inj ht (by rw [List.length_take]; omega) h1
      have e2 := ih (by rw [List.length_drop, List.length_drop, h]) (by rw [List.length_drop]; omega) h2
      rw [← List.take_append_drop 16 x, ← List.take_append_drop 16 y, e1, e2]

/-- C104_inj: different buffers look different. -/
theorem C104_inj (x y : Bytes) (h : inspect x = inspect y) : x = y := by
  obtain ⟨dx, ⟨-, hx, -, vx⟩, ex⟩ := C104 x
  obtain ⟨dy, ⟨-, hy, -, vy⟩, ey⟩ := C104 y
  rw [ex, ey] at h
  simp only [List.append_assoc] at h
  have h1 := List.append_cancel_left h
  have nl : ∀ d : Bytes, (∀ c ∈ d, 48 ≤ c.toNat ∧ c.toNat ≤ 57) → (10 : Byte) ∉ d := fun d hd hc => by
    have := (hd _ hc).1
    simp at this
  have key : ∀ (d e r s : Bytes), (10 : Byte) ∉ d → (10 : Byte) ∉ e → d ++ (ascii "\n" ++ r) = e ++ (ascii "\n" ++ s) → d = e ∧ r = s := by
    intro d
    induction d with
    | nil =>
      intro e r s _ he heq
      cases e with
      | nil => exact ⟨rfl, List.append_cancel_left heq⟩
      | cons c e => simp [ascii] at heq he; exact absurd heq.1 he.1
    | cons c d ih =>
      intro e r s hd he heq
      cases e with
      | nil => simp [ascii] at heq hd; exact absurd heq.1.symm hd.1
      | cons c' e =>
        simp only [List.cons_append, List.cons.injEq] at heq
        simp only [List.mem_cons, not_or] at hd he
        obtain ⟨h1, h2⟩ := ih e r s hd.2 he.2 heq.2
        exact ⟨by rw [heq.1, h1], h2⟩
  obtain ⟨h2, h3⟩ := key dx dy _ _ (nl dx hx) (nl dy hy) h1
  exact dumpLines_inj x.length (by rw [← vx, ← vy, h2]) (Nat.le_refl _) h3

/-- Twenty bytes. -/
def sample : Bytes := ascii "SELECT 1 FROM t;" ++ [0, 10, 127, 255]

example : sample.length = 20 := by decide

set_option maxRecDepth 100000 in
/-- What it looks like. -/
example : inspect sample = ascii ("buffer length: 20\n" ++
    "00000000  53 45 4c 45 43 54 20 31  20 46 52 4f 4d 20 74 3b  |SELECT 1 FROM t;|\n" ++
    "00000010  00 0a 7f ff                                       |....|\n") := by decide +kernel

end Gevulot.BufferInspect
