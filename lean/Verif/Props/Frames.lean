import Verif.Proofs.Frame

/-!
# C06–C10: frames
-/

namespace Gevulot

/-! ## C06 Frame layout and accessors -/

/-- C06. Layout and accessors of `NewStandardFrame`. -/
theorem C06_standard_frame (t : Byte) (body : Bytes) :
    (newStandardFrame t body).bytes = [t] ++ Spec.int32 (body.length + 4) ++ body ∧
    (newStandardFrame t body).messageType = .ok t ∧
    (newStandardFrame t body).messageBody = .ok body := by
  rw [newStandardFrame_eq]
  refine ⟨by simp [Frame.bytes, Spec.standardFrame], rfl, ?_⟩
  rw [standardFrame_put, Frame.messageBody, if_neg (by simp)]
  rfl

/-- C06. Layout and accessors of `NewStartupFrame`. -/
theorem C06_startup_frame (body : Bytes) :
    (newStartupFrame body).bytes = Spec.int32 (body.length + 4) ++ body ∧
    (newStartupFrame body).messageType = .ok 0 ∧
    (newStartupFrame body).messageBody = .ok body := by
  rw [newStartupFrame_eq]
  refine ⟨rfl, rfl, ?_⟩
  rw [startupFrame_put, Frame.messageBody, if_neg (by simp)]
  rfl

/-- C06. Below 2^31-4 bytes the four length bytes denote `len(body)+4` (as a number, no wrap-around). -/
theorem C06_length_field (t : Byte) (body : Bytes) (h : body.length < 2147483644) :
    Spec.value (((newStandardFrame t body).bytes.drop 1).take 4) = body.length + 4 ∧
    Spec.value ((newStartupFrame body).bytes.take 4) = body.length + 4 := by
  have hv : Spec.value (Spec.int32 (body.length + 4)) = body.length + 4 := by
    rw [Spec.int32, Spec.value_be]; omega
  have hl : (Spec.int32 (body.length + 4)).length = 4 := by rw [Spec.int32, Spec.be_length]
  constructor
  · rw [(C06_standard_frame t body).1]
    simp only [List.cons_append, List.nil_append, List.drop_succ_cons, List.drop_zero]
    rw [List.take_left' hl, hv]
  · rw [(C06_startup_frame body).1, List.take_left' hl, hv]

example : ([1, 2, 3] : Bytes).length < 2147483644 := by decide
example : (newStandardFrame 81 [104, 105, 0]).bytes = [81, 0, 0, 0, 7, 104, 105, 0] := by decide

/-! ## C07 Frames are cut from the stream exactly -/

/-- C07, standard frames. The hypothesis on the length is the exact limit of the 4-byte length field as the code reads
it (bodies below 2 GiB). -/
theorem C07_read_standard (t : Byte) (body rest : Bytes) (r : Reader) (h : body.length < 2147483648)
    (hr : r.bytes = Spec.standardFrame t body ++ rest) :
    (readStandardFrame r).1 = .ok (newStandardFrame t body) ∧
    (readStandardFrame r).2.bytes = rest ∧ (readStandardFrame r).2.final = r.final := by
  obtain ⟨h1, h2, h3⟩ := readStandardFrame_flat r
  rw [hr, flatStandard_frame t body rest r.final h] at h1 h2
  rw [newStandardFrame_eq]
  exact ⟨h1, h2, h3⟩

/-- C07, startup frames. -/
theorem C07_read_startup (body rest : Bytes) (r : Reader) (h : body.length < 2147483648)
    (hr : r.bytes = Spec.startupFrame body ++ rest) :
    (readStartupFrame r).1 = .ok (newStartupFrame body) ∧
    (readStartupFrame r).2.bytes = rest ∧ (readStartupFrame r).2.final = r.final := by
  obtain ⟨h1, h2, h3⟩ := readStartupFrame_flat r
  rw [hr, flatStartup_frame body rest r.final h] at h1 h2
  rw [newStartupFrame_eq]
  exact ⟨h1, h2, h3⟩

/-- Calling `ReadStandardFrame` `n` times. -/
def readFrames : (n : Nat) → Reader → List (Res Frame) × Reader
  | 0, r => ([], r)
  | n + 1, r =>
    let (f, r1) := readStandardFrame r
    let (fs, r2) := readFrames n r1
    (f :: fs, r2)

/-- C07, any sequence of frames is recovered one by one, in order, whatever the segmentation `r` and whatever
follows. -/
theorem C07_read_sequence (frames : List (Byte × Bytes)) (rest : Bytes) (r : Reader)
    (h : ∀ f ∈ frames, f.2.length < 2147483648)
    (hr : r.bytes = frames.flatMap (fun f => Spec.standardFrame f.1 f.2) ++ rest) :
    (readFrames frames.length r).1 = frames.map (fun f => .ok (newStandardFrame f.1 f.2)) ∧
    (readFrames frames.length r).2.bytes = rest := by
  induction frames generalizing r with
  | nil => exact ⟨rfl, by simpa [readFrames] using hr⟩
  | cons f fs ih =>
    rw [List.flatMap_cons, List.append_assoc] at hr
    obtain ⟨h1, h2, _⟩ := C07_read_standard f.1 f.2 _ r (h f (by simp)) hr
    obtain ⟨g1, g2⟩ := ih (readStandardFrame r).2 (fun x hx => h x (by simp [hx])) h2
    simp only [List.length_cons, readFrames, List.map_cons]
    exact ⟨by rw [h1, g1], g2⟩

example : (readStandardFrame ⟨[[81], [], [0, 0], [0, 6, 65], [0, 88, 0, 0, 0, 4]], .eof⟩)
    = (.ok (newStandardFrame 81 [65, 0]), ⟨[[88, 0, 0, 0, 4]], .eof⟩) := by decide

/-! ## C08 Framing does not depend on TCP segmentation -/

/-- C08. Two readers that deliver the same bytes and end with the same error are indistinguishable to the four receiving
functions. -/
theorem C08_segmentation_independent (r1 r2 : Reader) (hb : r1.bytes = r2.bytes) (hf : r1.final = r2.final) :
    ((readStandardFrame r1).1 = (readStandardFrame r2).1 ∧
      (readStandardFrame r1).2.bytes = (readStandardFrame r2).2.bytes) ∧
    ((readStartupFrame r1).1 = (readStartupFrame r2).1 ∧
      (readStartupFrame r1).2.bytes = (readStartupFrame r2).2.bytes) ∧
    ((recvMessage r1).1 = (recvMessage r2).1 ∧ (recvMessage r1).2.bytes = (recvMessage r2).2.bytes) ∧
    ((recvStartupMessage r1).1 = (recvStartupMessage r2).1 ∧
      (recvStartupMessage r1).2.bytes = (recvStartupMessage r2).2.bytes) := by
  obtain ⟨a1, a2, _⟩ := readStandardFrame_flat r1
  obtain ⟨b1, b2, _⟩ := readStandardFrame_flat r2
  obtain ⟨c1, c2, _⟩ := readStartupFrame_flat r1
  obtain ⟨d1, d2, _⟩ := readStartupFrame_flat r2
  rw [hb, hf] at a1 a2 c1 c2
  have s1 : (readStandardFrame r1).1 = (readStandardFrame r2).1 := a1.trans b1.symm
  have s2 : (readStandardFrame r1).2.bytes = (readStandardFrame r2).2.bytes := a2.trans b2.symm
  have u1 : (readStartupFrame r1).1 = (readStartupFrame r2).1 := c1.trans d1.symm
  have u2 : (readStartupFrame r1).2.bytes = (readStartupFrame r2).2.bytes := c2.trans d2.symm
  refine ⟨⟨s1, s2⟩, ⟨u1, u2⟩, ?_, ?_⟩
  · unfold recvMessage
    rcases h1 : readStandardFrame r1 with ⟨o1, t1⟩
    rcases h2 : readStandardFrame r2 with ⟨o2, t2⟩
    rw [h1, h2] at s1 s2
    simp only at s1 s2
    subst s1
    cases o1 <;> exact ⟨rfl, s2⟩
  · unfold recvStartupMessage
    rcases h1 : readStartupFrame r1 with ⟨o1, t1⟩
    rcases h2 : readStartupFrame r2 with ⟨o2, t2⟩
    rw [h1, h2] at u1 u2
    simp only at u1 u2
    subst u1
    cases o1 <;> exact ⟨rfl, u2⟩

example : (⟨[[81, 0], [], [0, 0, 4]], .io 3⟩ : Reader).bytes = (⟨[[81], [0, 0], [0, 4]], .io 3⟩ : Reader).bytes := by
  decide

/-! ## C09 A truncated frame is an error -/

/-- C09, standard frames and messages: `pre` is a frame cut anywhere (`suf` is what is missing). The error is the
connection's: `io.EOF` after an orderly close, its error otherwise. -/
theorem C09_truncated_standard (t : Byte) (body pre suf : Bytes) (r : Reader) (h : body.length < 2147483648)
    (hp : pre ++ suf = Spec.standardFrame t body) (hs : suf ≠ []) (hr : r.bytes = pre) :
    (readStandardFrame r).1 = .err r.final ∧ (recvMessage r).1 = .err r.final := by
  obtain ⟨h1, _, _⟩ := readStandardFrame_flat r
  rw [hr, flatStandard_truncated t body pre suf r.final h hp hs] at h1
  refine ⟨h1, ?_⟩
  unfold recvMessage
  rcases hx : readStandardFrame r with ⟨o, r'⟩
  rw [hx] at h1
  simp only at h1
  subst h1
  rfl

/-- C09, startup frames. -/
theorem C09_truncated_startup (body pre suf : Bytes) (r : Reader) (h : body.length < 2147483648)
    (hp : pre ++ suf = Spec.startupFrame body) (hs : suf ≠ []) (hr : r.bytes = pre) :
    (readStartupFrame r).1 = .err r.final ∧ (recvStartupMessage r).1 = .err r.final := by
  obtain ⟨h1, _, _⟩ := readStartupFrame_flat r
  rw [hr, flatStartup_truncated body pre suf r.final h hp hs] at h1
  refine ⟨h1, ?_⟩
  unfold recvStartupMessage
  rcases hx : readStartupFrame r with ⟨o, r'⟩
  rw [hx] at h1
  simp only at h1
  subst h1
  rfl

example : ([81, 0, 0, 0, 6, 65] : Bytes) ++ [0] = Spec.standardFrame 81 [65, 0] ∧ ([0] : Bytes) ≠ [] := by decide
example : (recvMessage ⟨[[81, 0, 0], [0, 6, 65]], .io 1⟩).1 = .err (.io 1) := by decide

/-! ## C10 Frames with an impossible length field -/

/-- C10 is false: a frame whose length field says 0 is accepted (as a message with an empty body). -/
theorem C10_refuted :
    ∃ (t : Byte) (z : Int) (r : Reader), z < 4 ∧ r.bytes = [t] ++ Spec.int32 z ∧
      ∃ f, (readStandardFrame r).1 = .ok f ∧ (recvMessage r).1 = .ok .terminate :=
  ⟨88, 0, ⟨[[88, 0, 0, 0, 0]], .eof⟩, by decide, by decide, .standard [88, 0, 0, 0, 0], by decide, by decide⟩

theorem int32_put {z : Int} (h0 : -2147483648 ≤ z) (h1 : z < 2147483648) : Spec.int32 z = putUint32 (BitVec.ofInt 32 z) := by
  rw [putUint32_eq_int32, BitVec.toInt_ofInt]
  congr 1
  rw [Int.bmod_eq_of_le] <;> omega

/-- What the code computes from an impossible length: a number that is not positive, or a large one. -/
theorem bodyLength {z : Int} (hz0 : -2147483648 ≤ z) (hz : z < 4) :
    (BitVec.ofInt 32 z - 4).toInt = if -2147483644 ≤ z then z - 4 else z - 4 + 4294967296 := by
  have hsub : BitVec.ofInt 32 z - 4 = BitVec.ofInt 32 (z - 4) := by
    apply BitVec.eq_of_toNat_eq
    rw [BitVec.toNat_sub, BitVec.toNat_ofInt, BitVec.toNat_ofInt]
    simp
    omega
  rw [hsub]
  split
  · rw [BitVec.toInt_ofInt, Int.bmod_eq_of_le] <;> omega
  · have e : BitVec.ofInt 32 (z - 4) = BitVec.ofInt 32 (z - 4 + 4294967296) := by
      apply BitVec.eq_of_toNat_eq
      rw [BitVec.toNat_ofInt, BitVec.toNat_ofInt]
      omega
    rw [e, BitVec.toInt_ofInt, Int.bmod_eq_of_le] <;> omega

/-- C10, what the code does with every impossible length field: any of them down to -2^31+4 is taken for a frame with an
empty body (and the bytes after the header are read as the next frame); the last four wrap around and make the code
wait for 2^31-4 .. 2^31-1 more bytes, which are then taken for the body. Full claim (an error in every case) is refuted above. -/
theorem C10_partial (t : Byte) (z : Int) (rest : Bytes) (r : Reader) (hz0 : -2147483648 ≤ z) (hz : z < 4)
    (hr : r.bytes = [t] ++ Spec.int32 z ++ rest) :
    (-2147483644 ≤ z → (readStandardFrame r).1 = .ok (.standard ([t] ++ Spec.int32 z)) ∧
      (readStandardFrame r).2.bytes = rest) ∧
    (z < -2147483644 → (rest.length : Int) < z - 4 + 4294967296 → (readStandardFrame r).1 = .err r.final) ∧
    (z < -2147483644 → ∀ body more, rest = body ++ more → (body.length : Int) = z - 4 + 4294967296 →
      (readStandardFrame r).1 = .ok (.standard ([t] ++ Spec.int32 z ++ body)) ∧ (readStandardFrame r).2.bytes = more) := by
  obtain ⟨h1, h2, _⟩ := readStandardFrame_flat r
  have hlen := bodyLength hz0 hz
  have hz' := int32_put hz0 (by omega)
  have hs : r.bytes = t :: (putUint32 (BitVec.ofInt 32 z) ++ rest) := by rw [hr, hz']; rfl
  have hd1 : (t :: (putUint32 (BitVec.ofInt 32 z) ++ rest)).drop 1 = putUint32 (BitVec.ofInt 32 z) ++ rest := rfl
  have hd5 : (t :: (putUint32 (BitVec.ofInt 32 z) ++ rest)).drop 5 = rest := rfl
  have ht5 : (t :: (putUint32 (BitVec.ofInt 32 z) ++ rest)).take 5 = [t] ++ putUint32 (BitVec.ofInt 32 z) := rfl
  have hf : flatStandard r.bytes r.final =
      if (BitVec.ofInt 32 z - 4).toInt ≤ rest.length then
        (.ok (.standard ([t] ++ Spec.int32 z ++ rest.take (BitVec.ofInt 32 z - 4).toInt.toNat)), rest.drop (BitVec.ofInt 32 z - 4).toInt.toNat)
      else (.err r.final, []) := by
    rw [hs]; unfold flatStandard
    rw [if_neg (by simp), hd1, hd5, ht5, beUint32_put, hz']
  rw [hf] at h1 h2
  generalize (BitVec.ofInt 32 z - 4).toInt = n at hlen h1 h2
  refine ⟨fun hz1 => ?_, fun hz1 hl => ?_, fun hz1 body more e hl => ?_⟩
  · rw [if_pos hz1] at hlen
    rw [if_pos (by omega), show n.toNat = 0 by omega] at h1 h2
    simpa using And.intro h1 h2
  · rw [if_neg (by omega)] at hlen
    rw [if_neg (by omega)] at h1
    exact h1
  · rw [if_neg (by omega)] at hlen
    have hle : n ≤ rest.length := by rw [e, List.length_append]; omega
    rw [if_pos hle, show n.toNat = body.length by omega, e] at h1 h2
    simpa using And.intro h1 h2

/-- C10, startup frames: the same. -/
theorem C10_startup_partial (z : Int) (rest : Bytes) (r : Reader) (hz0 : -2147483648 ≤ z) (hz : z < 4)
    (hr : r.bytes = Spec.int32 z ++ rest) :
    (-2147483644 ≤ z → (readStartupFrame r).1 = .ok (.startup (Spec.int32 z)) ∧ (readStartupFrame r).2.bytes = rest) ∧
    (z < -2147483644 → (rest.length : Int) < z - 4 + 4294967296 → (readStartupFrame r).1 = .err r.final) ∧
    (z < -2147483644 → ∀ body more, rest = body ++ more → (body.length : Int) = z - 4 + 4294967296 →
      (readStartupFrame r).1 = .ok (.startup (Spec.int32 z ++ body)) ∧ (readStartupFrame r).2.bytes = more) := by
  obtain ⟨h1, h2, _⟩ := readStartupFrame_flat r
  have hlen := bodyLength hz0 hz
  have hz' := int32_put hz0 (by omega)
  have hs : r.bytes = putUint32 (BitVec.ofInt 32 z) ++ rest := by rw [hr, hz']
  have hd4 : (putUint32 (BitVec.ofInt 32 z) ++ rest).drop 4 = rest := rfl
  have ht4 : (putUint32 (BitVec.ofInt 32 z) ++ rest).take 4 = putUint32 (BitVec.ofInt 32 z) := rfl
  have hl4 : (putUint32 (BitVec.ofInt 32 z)).length = 4 := rfl
  have hf : flatStartup r.bytes r.final =
      if (BitVec.ofInt 32 z - 4).toInt ≤ rest.length then
        (.ok (.startup (Spec.int32 z ++ rest.take (BitVec.ofInt 32 z - 4).toInt.toNat)), rest.drop (BitVec.ofInt 32 z - 4).toInt.toNat)
      else (.err r.final, []) := by
    rw [hs]; unfold flatStartup
    rw [if_neg (by simp [hl4]), hd4, ht4, beUint32_put, hz']
  rw [hf] at h1 h2
  generalize (BitVec.ofInt 32 z - 4).toInt = n at hlen h1 h2
  refine ⟨fun hz1 => ?_, fun hz1 hl => ?_, fun hz1 body more e hl => ?_⟩
  · rw [if_pos hz1] at hlen
    rw [if_pos (by omega), show n.toNat = 0 by omega] at h1 h2
    simpa using And.intro h1 h2
  · rw [if_neg (by omega)] at hlen
    rw [if_neg (by omega)] at h1
    exact h1
  · rw [if_neg (by omega)] at hlen
    have hle : n ≤ rest.length := by rw [e, List.length_append]; omega
    rw [if_pos hle, show n.toNat = body.length by omega, e] at h1 h2
    simpa using And.intro h1 h2

example : (-2147483648 : Int) ≤ 3 ∧ (3 : Int) < 4 ∧
    (⟨[[81, 0, 0, 0, 3, 9, 9]], .eof⟩ : Reader).bytes = [81] ++ Spec.int32 3 ++ [9, 9] ∧
    (⟨[[0, 0, 0, 3, 9, 9]], .eof⟩ : Reader).bytes = Spec.int32 3 ++ [9, 9] := by decide

end Gevulot
