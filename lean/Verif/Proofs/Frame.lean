import Verif.Model.Conn
import Verif.Proofs.Buffers

/-! Lemmas about frames: reading from a segmented stream is a function of the concatenated bytes. -/

namespace Gevulot

theorem readFromLimited_spec (final : Err) (chunks : List Bytes) (n : Nat) :
    (readFromLimited final chunks n).1 = chunks.flatten.take n ∧
    (readFromLimited final chunks n).2.1
      = (if n ≤ chunks.flatten.length then none else if final = .eof then none else some final) ∧
    (readFromLimited final chunks n).2.2.flatten = chunks.flatten.drop n := by
  fun_induction readFromLimited final chunks n with
  | case1 chunks => simp
  | case2 n => simp
  | case3 c cs n h bs e cs' hr ih =>
    rw [hr] at ih
    obtain ⟨h1, h2, h3⟩ := ih
    simp only at h1 h2 h3 ⊢
    subst h1 h2
    refine ⟨?_, ?_, ?_⟩
    · rw [List.flatten_cons, List.take_append, List.take_of_length_le h]
    · rw [List.flatten_cons, List.length_append]
      have : (n + 1 - c.length ≤ cs.flatten.length) ↔ (n + 1 ≤ c.length + cs.flatten.length) := by omega
      simp only [this]
    · rw [h3, List.flatten_cons, List.drop_append, List.drop_of_length_le h, List.nil_append]
  | case4 c cs n h =>
    refine ⟨?_, ?_, ?_⟩
    · rw [List.flatten_cons, List.take_append_of_le_length (by omega)]
    · rw [List.flatten_cons, List.length_append, if_pos (by omega)]
    · rw [List.flatten_cons, List.flatten_cons, List.drop_append_of_le_length (by omega)]

/-- `copyN` on the concatenated bytes. -/
theorem copyN_spec (r : Reader) (n : Int) :
    (copyN r n).1 = (if n ≤ r.bytes.length then none else some r.final) ∧
    (copyN r n).2.1 = r.bytes.take n.toNat ∧
    (copyN r n).2.2.bytes = r.bytes.drop n.toNat ∧
    (copyN r n).2.2.final = r.final := by
  obtain ⟨h1, h2, h3⟩ := readFromLimited_spec r.final r.chunks n.toNat
  unfold copyN Reader.bytes
  rcases hx : readFromLimited r.final r.chunks n.toNat with ⟨bs, e, cs⟩
  rw [hx] at h1 h2 h3
  simp only at h1 h2 h3 ⊢
  have hl : bs.length = min n.toNat r.chunks.flatten.length := by rw [h1, List.length_take]
  by_cases hn : n ≤ r.chunks.flatten.length
  · rw [if_pos hn]
    rw [if_pos (by omega)] at h2
    subst h2
    by_cases hn0 : n < 0
    · rw [if_neg (by omega), if_neg (by omega)]
      exact ⟨rfl, h1, h3, rfl⟩
    · rw [if_pos (by omega)]
      exact ⟨rfl, h1, h3, rfl⟩
  · rw [if_neg hn]
    rw [if_neg (by omega)] at h2
    rw [if_neg (by omega)]
    by_cases hf : r.final = .eof
    · rw [if_pos hf] at h2
      subst h2
      rw [if_pos ⟨by omega, rfl⟩]
      exact ⟨by rw [hf], h1, h3, rfl⟩
    · rw [if_neg hf] at h2
      subst h2
      rw [if_neg (by simp)]
      exact ⟨rfl, h1, h3, rfl⟩

/-- `readStandardFrame` as a function of the bytes and the final error. -/
def flatStandard (s : Bytes) (final : Err) : Res Frame × Bytes :=
  if s.length < 5 then (.err final, [])
  else
    match beUint32 (s.drop 1) with
    | .ok len =>
      let n := (len - 4).toInt
      if n ≤ (s.drop 5).length then (.ok (.standard (s.take 5 ++ (s.drop 5).take n.toNat)), (s.drop 5).drop n.toNat)
      else (.err final, [])
    | .err e => (.err e, s.drop 5)
    | .panic p => (.panic p, s.drop 5)

/-- `readStartupFrame` as a function of the bytes and the final error. -/
def flatStartup (s : Bytes) (final : Err) : Res Frame × Bytes :=
  if s.length < 4 then (.err final, [])
  else
    match beUint32 s with
    | .ok len =>
      let n := (len - 4).toInt
      if n ≤ (s.drop 4).length then (.ok (.startup (s.take 4 ++ (s.drop 4).take n.toNat)), (s.drop 4).drop n.toNat)
      else (.err final, [])
    | .err e => (.err e, s.drop 4)
    | .panic p => (.panic p, s.drop 4)

theorem standardHeaderLength_cons (t : Byte) (v : BitVec 32) (r : Bytes) :
    standardHeaderLength (t :: (putUint32 v ++ r)) = .ok v := by
  unfold standardHeaderLength Dec.run
  rw [Dec.bind_of_ok (ReadBuffer.readByte_cons _ _), ReadBuffer.readInt32_append]

theorem readStandardFrame_flat (r : Reader) :
    (readStandardFrame r).1 = (flatStandard r.bytes r.final).1 ∧
    (readStandardFrame r).2.bytes = (flatStandard r.bytes r.final).2 ∧
    (readStandardFrame r).2.final = r.final := by
  obtain ⟨h1, h2, h3, h4⟩ := copyN_spec r 5
  unfold readStandardFrame flatStandard
  rcases hx : copyN r 5 with ⟨e, buf, r1⟩
  rw [hx] at h1 h2 h3 h4
  simp only at h1 h2 h3 h4
  by_cases hl : r.bytes.length < 5
  · rw [if_neg (by omega)] at h1
    subst h1
    simp only [hl, if_true]
    refine ⟨trivial, ?_, h4⟩
    rw [h3]; apply List.drop_of_length_le; simp; omega
  · rw [if_pos (by omega)] at h1
    subst h1
    simp only [hl, if_false]
    obtain ⟨t, s, hs⟩ : ∃ t s, r.bytes = t :: s := by
      cases h : r.bytes with
      | nil => rw [h] at hl; simp at hl
      | cons t s => exact ⟨t, s, rfl⟩
    obtain ⟨v, rest, hv⟩ := ReadBuffer.exists_putUint32 (b := s) (by rw [hs] at hl; simp at hl; omega)
    subst hv
    have hbuf : buf = t :: (putUint32 v ++ []) := by
      rw [h2, hs]; rfl
    have hr1 : r1.bytes = rest := by rw [h3, hs]; rfl
    rw [hbuf, standardHeaderLength_cons, hs]
    simp only [List.drop_succ_cons, List.drop_zero, beUint32_put]
    have hd5 : (putUint32 v ++ rest).drop 4 = rest := rfl
    rw [hd5]
    obtain ⟨g1, g2, g3, g4⟩ := copyN_spec r1 (v - 4).toInt
    rcases hy : copyN r1 (v - 4).toInt with ⟨e, buf2, r2⟩
    rw [hy] at g1 g2 g3 g4
    simp only at g1 g2 g3 g4
    rw [hr1] at g1 g2 g3
    by_cases hn : (v - 4).toInt ≤ rest.length
    · rw [if_pos hn] at g1
      subst g1
      simp only [hn, if_true]
      refine ⟨?_, g3, g4.trans h4⟩
      rw [g2]
      have : (t :: (putUint32 v ++ rest)).take 5 = t :: (putUint32 v ++ []) := rfl
      rw [this]
    · rw [if_neg hn] at g1
      subst g1
      simp only [hn, if_false]
      refine ⟨by rw [h4], ?_, g4.trans h4⟩
      rw [g3]; apply List.drop_of_length_le; omega

theorem readStartupFrame_flat (r : Reader) :
    (readStartupFrame r).1 = (flatStartup r.bytes r.final).1 ∧
    (readStartupFrame r).2.bytes = (flatStartup r.bytes r.final).2 ∧
    (readStartupFrame r).2.final = r.final := by
  obtain ⟨h1, h2, h3, h4⟩ := copyN_spec r 4
  unfold readStartupFrame flatStartup
  rcases hx : copyN r 4 with ⟨e, buf, r1⟩
  rw [hx] at h1 h2 h3 h4
  simp only at h1 h2 h3 h4
  by_cases hl : r.bytes.length < 4
  · rw [if_neg (by omega)] at h1
    subst h1
    simp only [hl, if_true]
    refine ⟨trivial, ?_, h4⟩
    rw [h3]; apply List.drop_of_length_le; simp; omega
  · rw [if_pos (by omega)] at h1
    subst h1
    simp only [hl, if_false]
    obtain ⟨v, rest, hs⟩ := ReadBuffer.exists_putUint32 (b := r.bytes) (by omega)
    have hbuf : buf = putUint32 v ++ [] := by
      rw [h2, hs]; rfl
    have hr1 : r1.bytes = rest := by rw [h3, hs]; rfl
    have hdec : Dec.run ReadBuffer.readInt32 (putUint32 v ++ []) = .ok v := by
      unfold Dec.run; rw [ReadBuffer.readInt32_append]
    rw [hbuf, hdec, hs]
    simp only [beUint32_put]
    have hd5 : (putUint32 v ++ rest).drop 4 = rest := rfl
    rw [hd5]
    obtain ⟨g1, g2, g3, g4⟩ := copyN_spec r1 (v - 4).toInt
    rcases hy : copyN r1 (v - 4).toInt with ⟨e, buf2, r2⟩
    rw [hy] at g1 g2 g3 g4
    simp only at g1 g2 g3 g4
    rw [hr1] at g1 g2 g3
    by_cases hn : (v - 4).toInt ≤ rest.length
    · rw [if_pos hn] at g1
      subst g1
      simp only [hn, if_true]
      refine ⟨?_, g3, g4.trans h4⟩
      rw [g2]
      have : (putUint32 v ++ rest).take 4 = putUint32 v ++ [] := rfl
      rw [this]
    · rw [if_neg hn] at g1
      subst g1
      simp only [hn, if_false]
      refine ⟨by rw [h4], ?_, g4.trans h4⟩
      rw [g3]; apply List.drop_of_length_le; omega

/-! ### Well-formed frames -/

theorem int32_ofNat (n : Nat) : putUint32 (BitVec.ofNat 32 n) = Spec.int32 n := by
  rw [putUint32_eq_be, Spec.int32]
  congr 1

theorem int16_ofNat (n : Nat) : putUint16 (BitVec.ofNat 16 n) = Spec.int16 n := by
  rw [putUint16_eq_be, Spec.int16]
  congr 1

theorem newStandardFrame_eq (t : Byte) (body : Bytes) :
    newStandardFrame t body = .standard (Spec.standardFrame t body) := by
  have := int32_ofNat (body.length + 4)
  simp only [Int.natCast_add, Int.cast_ofNat_Int] at this
  unfold newStandardFrame Spec.standardFrame WriteBuffer.writeInt32 WriteBuffer.writeBytes WriteBuffer.writeByte
  rw [this]
  simp

theorem newStartupFrame_eq (body : Bytes) :
    newStartupFrame body = .startup (Spec.startupFrame body) := by
  have := int32_ofNat (body.length + 4)
  simp only [Int.natCast_add, Int.cast_ofNat_Int] at this
  unfold newStartupFrame Spec.startupFrame WriteBuffer.writeInt32 WriteBuffer.writeBytes
  rw [this]
  simp

theorem standardFrame_put (t : Byte) (body : Bytes) :
    Spec.standardFrame t body = t :: (putUint32 (BitVec.ofNat 32 (body.length + 4)) ++ body) := by
  rw [int32_ofNat]; rfl

theorem startupFrame_put (body : Bytes) :
    Spec.startupFrame body = putUint32 (BitVec.ofNat 32 (body.length + 4)) ++ body := by
  rw [int32_ofNat]; rfl

theorem bodyLen_toInt {n : Nat} (h : n < 2147483648) : (BitVec.ofNat 32 (n + 4) - 4).toInt = n := by
  have : BitVec.ofNat 32 (n + 4) - 4 = BitVec.ofNat 32 n := by
    apply BitVec.eq_of_toNat_eq
    simp
    omega
  rw [this, BitVec.toInt_eq_toNat_cond, BitVec.toNat_ofNat]
  split <;> omega

theorem flatStandard_frame (t : Byte) (body rest : Bytes) (final : Err) (h : body.length < 2147483648) :
    flatStandard (Spec.standardFrame t body ++ rest) final = (.ok (.standard (Spec.standardFrame t body)), rest) := by
  rw [standardFrame_put]
  generalize hv : BitVec.ofNat 32 (body.length + 4) = v
  have hv' : (v - 4).toInt = body.length := by rw [← hv]; exact bodyLen_toInt h
  unfold flatStandard
  rw [if_neg (by simp)]
  have h1 : ((t :: (putUint32 v ++ body)) ++ rest).drop 1 = putUint32 v ++ (body ++ rest) := by simp
  have h2 : ((t :: (putUint32 v ++ body)) ++ rest).drop 5 = body ++ rest := rfl
  have h3 : ((t :: (putUint32 v ++ body)) ++ rest).take 5 = t :: (putUint32 v ++ []) := rfl
  rw [h1, h2, h3, beUint32_put]
  simp only [hv']
  rw [if_pos (by simp; omega)]
  simp

theorem flatStartup_frame (body rest : Bytes) (final : Err) (h : body.length < 2147483648) :
    flatStartup (Spec.startupFrame body ++ rest) final = (.ok (.startup (Spec.startupFrame body)), rest) := by
  rw [startupFrame_put]
  generalize hv : BitVec.ofNat 32 (body.length + 4) = v
  have hv' : (v - 4).toInt = body.length := by rw [← hv]; exact bodyLen_toInt h
  unfold flatStartup
  rw [if_neg (by simp)]
  have h1 : (putUint32 v ++ body) ++ rest = putUint32 v ++ (body ++ rest) := by simp
  have h2 : ((putUint32 v ++ body) ++ rest).drop 4 = body ++ rest := rfl
  have h3 : ((putUint32 v ++ body) ++ rest).take 4 = putUint32 v ++ [] := rfl
  rw [h2, h3, h1, beUint32_put]
  simp only [hv']
  rw [if_pos (by simp; omega)]
  simp

/-- What a successfully read standard frame looks like: its body has fewer than 2^31 bytes, and the frame is well
formed unless its length field is one of the impossible ones that are taken for 4. -/
theorem flatStandard_ok {s rest : Bytes} {final : Err} {f : Frame} (h : flatStandard s final = (.ok f, rest)) :
    ∃ t len body, f = .standard (t :: (putUint32 len ++ body)) ∧ s = t :: (putUint32 len ++ body) ++ rest ∧
      body.length = (len - 4).toInt.toNat ∧ body.length < 2147483648 := by
  unfold flatStandard at h
  split at h
  · simp at h
  · rename_i hl
    obtain ⟨t, s', rfl⟩ : ∃ t s', s = t :: s' := by
      cases s with
      | nil => simp at hl
      | cons t s => exact ⟨t, s, rfl⟩
    obtain ⟨v, r, rfl⟩ := ReadBuffer.exists_putUint32 (b := s') (by simp at hl; omega)
    have h1 : (t :: (putUint32 v ++ r)).drop 1 = putUint32 v ++ r := rfl
    have h2 : (t :: (putUint32 v ++ r)).drop 5 = r := rfl
    have h3 : (t :: (putUint32 v ++ r)).take 5 = t :: (putUint32 v ++ []) := rfl
    rw [h1, h2, h3, beUint32_put] at h
    simp only at h
    split at h
    · rename_i hn
      simp only [Prod.mk.injEq, Res.ok.injEq] at h
      obtain ⟨rfl, rfl⟩ := h
      refine ⟨t, v, r.take (v - 4).toInt.toNat, by simp, by simp, ?_, ?_⟩
      · rw [List.length_take]; omega
      · rw [List.length_take]
        have := BitVec.toInt_lt (x := v - 4)
        omega
    · simp at h

theorem flatStartup_ok {s rest : Bytes} {final : Err} {f : Frame} (h : flatStartup s final = (.ok f, rest)) :
    ∃ len body, f = .startup (putUint32 len ++ body) ∧ s = putUint32 len ++ body ++ rest ∧
      body.length = (len - 4).toInt.toNat ∧ body.length < 2147483648 := by
  unfold flatStartup at h
  split at h
  · simp at h
  · rename_i hl
    obtain ⟨v, r, rfl⟩ := ReadBuffer.exists_putUint32 (b := s) (by omega)
    have h2 : (putUint32 v ++ r).drop 4 = r := rfl
    have h3 : (putUint32 v ++ r).take 4 = putUint32 v ++ [] := rfl
    rw [h2, h3, beUint32_put] at h
    simp only at h
    split at h
    · rename_i hn
      simp only [Prod.mk.injEq, Res.ok.injEq] at h
      obtain ⟨rfl, rfl⟩ := h
      refine ⟨v, r.take (v - 4).toInt.toNat, by simp, by simp, ?_, ?_⟩
      · rw [List.length_take]; omega
      · rw [List.length_take]
        have := BitVec.toInt_lt (x := v - 4)
        omega
    · simp at h

/-- Reading a frame never panics. -/
theorem flatStandard_no_panic (s : Bytes) (final : Err) (p : Panic) : (flatStandard s final).1 ≠ .panic p := by
  unfold flatStandard
  split
  · simp
  · rename_i h
    obtain ⟨v, hv⟩ := beUint32_total (b := s.drop 1) (by simp; omega)
    rw [hv]; simp only; split <;> simp

theorem flatStartup_no_panic (s : Bytes) (final : Err) (p : Panic) : (flatStartup s final).1 ≠ .panic p := by
  unfold flatStartup
  split
  · simp
  · rename_i h
    obtain ⟨v, hv⟩ := beUint32_total (b := s) (by omega)
    rw [hv]; simp only; split <;> simp

/-- A read that fails reports the connection's final error. -/
theorem flatStandard_err {s rest : Bytes} {final e : Err} (h : flatStandard s final = (.err e, rest)) :
    e = final ∧ rest = [] := by
  unfold flatStandard at h
  split at h
  · simp at h; exact ⟨h.1.symm, h.2⟩
  · rename_i hl
    obtain ⟨v, hv⟩ := beUint32_total (b := s.drop 1) (by simp; omega)
    rw [hv] at h; simp only at h
    split at h
    · simp at h
    · simp at h; exact ⟨h.1.symm, h.2⟩

theorem flatStartup_err {s rest : Bytes} {final e : Err} (h : flatStartup s final = (.err e, rest)) :
    e = final ∧ rest = [] := by
  unfold flatStartup at h
  split at h
  · simp at h; exact ⟨h.1.symm, h.2⟩
  · rename_i hl
    obtain ⟨v, hv⟩ := beUint32_total (b := s) (by omega)
    rw [hv] at h; simp only at h
    split at h
    · simp at h
    · simp at h; exact ⟨h.1.symm, h.2⟩

/-- A proper prefix of a frame is not enough. -/
theorem flatStandard_truncated (t : Byte) (body pre suf : Bytes) (final : Err) (h : body.length < 2147483648)
    (hp : pre ++ suf = Spec.standardFrame t body) (hs : suf ≠ []) :
    flatStandard pre final = (.err final, []) := by
  have hlen : pre.length < 5 + body.length := by
    have := congrArg List.length hp
    rw [standardFrame_put] at this
    have h0 : 0 < suf.length := List.length_pos_iff.mpr hs
    simp at this
    omega
  unfold flatStandard
  split
  · rfl
  · rename_i hl
    have hpre : pre = (Spec.standardFrame t body).take pre.length := by rw [← hp]; simp
    rw [standardFrame_put] at hpre
    generalize hv : BitVec.ofNat 32 (body.length + 4) = v at hpre
    have hv' : (v - 4).toInt = body.length := by rw [← hv]; exact bodyLen_toInt h
    obtain ⟨k, hk⟩ : ∃ k, pre.length = k + 5 := ⟨pre.length - 5, by omega⟩
    have hb : pre = t :: (putUint32 v ++ body.take k) := by
      rw [hpre, hk]; rfl
    have hkb : k < body.length := by omega
    rw [hb]
    have h1 : (t :: (putUint32 v ++ body.take k)).drop 1 = putUint32 v ++ body.take k := rfl
    have h2 : (t :: (putUint32 v ++ body.take k)).drop 5 = body.take k := rfl
    rw [h1, h2, beUint32_put]
    simp only [hv']
    rw [if_neg (by simp; omega)]

theorem flatStartup_truncated (body pre suf : Bytes) (final : Err) (h : body.length < 2147483648)
    (hp : pre ++ suf = Spec.startupFrame body) (hs : suf ≠ []) :
    flatStartup pre final = (.err final, []) := by
  have hlen : pre.length < 4 + body.length := by
    have := congrArg List.length hp
    rw [startupFrame_put] at this
    have h0 : 0 < suf.length := List.length_pos_iff.mpr hs
    simp at this
    omega
  unfold flatStartup
  split
  · rfl
  · rename_i hl
    have hpre : pre = (Spec.startupFrame body).take pre.length := by rw [← hp]; simp
    rw [startupFrame_put] at hpre
    generalize hv : BitVec.ofNat 32 (body.length + 4) = v at hpre
    have hv' : (v - 4).toInt = body.length := by rw [← hv]; exact bodyLen_toInt h
    obtain ⟨k, hk⟩ : ∃ k, pre.length = k + 4 := ⟨pre.length - 4, by omega⟩
    have hb : pre = putUint32 v ++ body.take k := by
      rw [hpre, hk]; rfl
    have hkb : k < body.length := by omega
    rw [hb]
    have h2 : (putUint32 v ++ body.take k).drop 4 = body.take k := rfl
    rw [h2, beUint32_put]
    simp only [hv']
    rw [if_neg (by simp; omega)]

end Gevulot
