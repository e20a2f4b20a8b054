import Verif.Proofs.Frame
import Verif.Spec.Messages

/-! Lemmas about parsers and serialisers. -/

namespace Gevulot

/-! ### Serialisation -/

theorem int32_toInt (v : BitVec 32) : Spec.int32 v.toInt = putUint32 v := (putUint32_eq_int32 v).symm
theorem int16_toInt (v : BitVec 16) : Spec.int16 v.toInt = putUint16 v := (putUint16_eq_int16 v).symm

theorem foldl_append_eq {α : Type} (f : Bytes → α → Bytes) (g : α → Bytes) (h : ∀ b a, f b a = b ++ g a)
    (l : List α) (b : Bytes) : l.foldl f b = b ++ l.flatMap g := by
  induction l generalizing b with
  | nil => simp
  | cons a l ih => rw [List.foldl_cons, h, ih, List.flatMap_cons, List.append_assoc]

theorem writeMessageFields_eq (fields : List MessageField) :
    writeMessageFields fields = fields.flatMap Spec.messageField ++ [0] := by
  unfold writeMessageFields
  simp only
  rw [foldl_append_eq _ Spec.messageField]
  · simp [WriteBuffer.writeByte]
  · intro b a; simp [WriteBuffer.writeByte, WriteBuffer.writeString, Spec.messageField, Spec.cstr]

theorem writeDataRow_eq (values : List (Option Bytes)) :
    writeDataRow values = Spec.int16 values.length ++ values.flatMap Spec.rowValue := by
  unfold writeDataRow
  simp only
  rw [foldl_append_eq _ Spec.rowValue]
  · rw [← int16_ofNat]; rfl
  · intro b a
    cases a with
    | none =>
      simp only [Spec.rowValue, WriteBuffer.writeInt32, WriteBuffer.writeBytes]
      rw [putUint32_eq_int32]; rfl
    | some v =>
      simp only [Spec.rowValue, WriteBuffer.writeInt32, WriteBuffer.writeBytes]
      rw [int32_ofNat, List.append_assoc]

theorem writeFieldDescriptor_eq (b : Bytes) (f : FieldDescriptor) :
    writeFieldDescriptor b f = b ++ Spec.rowField f := by
  simp [writeFieldDescriptor, Spec.rowField, Spec.cstr, WriteBuffer.writeInt32, WriteBuffer.writeInt16,
    WriteBuffer.writeString, WriteBuffer.writeBytes, int32_toInt, int16_toInt]

theorem writeRowDescription_eq (fields : List FieldDescriptor) :
    writeRowDescription fields = Spec.int16 fields.length ++ fields.flatMap Spec.rowField := by
  unfold writeRowDescription
  simp only
  rw [foldl_append_eq _ Spec.rowField _ fields]
  · rw [← int16_ofNat]; rfl
  · exact writeFieldDescriptor_eq

theorem writeNegotiate_eq (v : BitVec 32) (options : List Bytes) :
    writeNegotiate v options = Spec.int32 v.toInt ++ Spec.int32 options.length ++ options.flatMap Spec.cstr := by
  unfold writeNegotiate
  simp only
  rw [foldl_append_eq _ Spec.cstr]
  · rw [← int32_ofNat, int32_toInt]; rfl
  · intro b a; simp [WriteBuffer.writeString, Spec.cstr]

theorem startupFold (ps : List StartupParameter) (b : Bytes) (h : Bool) :
    ps.foldl (fun (x : Bytes × Bool) param =>
      (WriteBuffer.writeString (WriteBuffer.writeString x.1 param.name) param.value, true)) (b, h)
      = (b ++ ps.flatMap Spec.startupParameter, h || !ps.isEmpty) := by
  induction ps generalizing b h with
  | nil => simp
  | cons p ps ih =>
    rw [List.foldl_cons, ih]
    simp [WriteBuffer.writeString, Spec.startupParameter, Spec.cstr]

theorem writeStartup_eq (m : StartupMessage) : writeStartup m = Spec.body (.startup m) := by
  unfold writeStartup
  simp only
  have := startupFold m.parameters (WriteBuffer.writeInt32 [] m.protocolVersion) false
  rw [this]
  simp only [Spec.body, int32_toInt, WriteBuffer.writeInt32, WriteBuffer.writeBytes, WriteBuffer.writeByte]
  cases m.parameters <;> simp

/-- What `SendMessage` writes is the specification's encoding, for every message. -/
theorem sendMessage_eq_wire (m : Msg) : sendMessage m = Spec.wire m := by
  unfold sendMessage
  cases m <;>
    simp [Msg.frame, newStandardFrame_eq, newStartupFrame_eq, Frame.bytes, Spec.wire, Spec.kind, Spec.body,
      writeMessageFields_eq, writeDataRow_eq, writeRowDescription_eq, writeNegotiate_eq, writeStartup_eq,
      Spec.Kind.typeByte, WriteBuffer.writeInt32, WriteBuffer.writeBytes, WriteBuffer.writeString,
      authenticationRequestMessageType, backendKeyDataMessageType, commandCompleteMessageType, dataRowMessageType,
      emptyQueryResponseMessageType, errorResponseMessageType, noticeResponseMessageType,
      negotiateProtocolVersionMessageType, parameterStatusMessageType, passwordMessageType, queryMessageType,
      readyForQueryMessageType, rowDescriptionMessageType, terminateMessageType, int32_toInt, Spec.cstr]
  all_goals first | rfl | skip

/-! ### Parsing: exact grammars -/

/-- `d` accepts exactly the encodings `enc a` of the values with `wf a`, each followed by anything. -/
def Dec.Exact {α : Type} (d : Dec α) (enc : α → Bytes) (wf : α → Prop) : Prop :=
  ∀ b a r, d b = (.ok a, r) ↔ wf a ∧ b = enc a ++ r

namespace Dec.Exact

theorem readByte : Dec.Exact ReadBuffer.readByte (fun c => [c]) (fun _ => True) := by
  intro b a r; rw [ReadBuffer.readByte_ok_iff]; simp

theorem readInt32 : Dec.Exact ReadBuffer.readInt32 putUint32 (fun _ => True) := by
  intro b a r; rw [ReadBuffer.readInt32_ok_iff]; simp

theorem readInt16 : Dec.Exact ReadBuffer.readInt16 putUint16 (fun _ => True) := by
  intro b a r; rw [ReadBuffer.readInt16_ok_iff]; simp

theorem readString : Dec.Exact ReadBuffer.readString Spec.cstr Spec.NulFree := by
  intro b a r; rw [ReadBuffer.readString_ok_iff]; simp [Spec.cstr]

/-- Repetition. -/
theorem times {α : Type} {d : Dec α} {enc : α → Bytes} {wf : α → Prop} (h : Dec.Exact d enc wf) (n : Nat) :
    Dec.Exact (Dec.times d n) (fun l => l.flatMap enc) (fun l => l.length = n ∧ ∀ a ∈ l, wf a) := by
  induction n with
  | zero =>
    intro b l r
    simp only [Dec.times, Dec.pure_apply, Prod.mk.injEq, Res.ok.injEq, List.length_eq_zero_iff]
    constructor
    · rintro ⟨rfl, rfl⟩; simp
    · rintro ⟨⟨rfl, _⟩, h⟩; simp at h; exact ⟨rfl, h⟩
  | succ n ih =>
    intro b l r
    rw [Dec.times, Dec.bind_ok_iff]
    constructor
    · rintro ⟨a, b1, h1, h2⟩
      obtain ⟨hw, rfl⟩ := (h _ _ _).mp h1
      obtain ⟨l', b2, h3, h4⟩ := Dec.bind_ok_iff.mp h2
      obtain ⟨⟨hl, hw'⟩, rfl⟩ := (ih _ _ _).mp h3
      simp only [Dec.pure_apply, Prod.mk.injEq, Res.ok.injEq] at h4
      obtain ⟨rfl, rfl⟩ := h4
      refine ⟨⟨by simp [hl], ?_⟩, by simp⟩
      intro x hx
      rcases List.mem_cons.mp hx with rfl | hx
      · exact hw
      · exact hw' x hx
    · rintro ⟨⟨hl, hw⟩, rfl⟩
      obtain ⟨a, l', rfl⟩ : ∃ a l', l = a :: l' := by
        cases l with
        | nil => simp at hl
        | cons a l' => exact ⟨a, l', rfl⟩
      refine ⟨a, l'.flatMap enc ++ r, (h _ _ _).mpr ⟨hw a (by simp), by simp⟩, ?_⟩
      refine Dec.bind_ok_iff.mpr ⟨l', r, (ih _ _ _).mpr ⟨⟨by simpa using hl, fun x hx => hw x (by simp [hx])⟩, rfl⟩, rfl⟩

end Dec.Exact

theorem toInt_ofNat32 {n : Nat} (h : n < 2147483648) : (BitVec.ofNat 32 n).toInt = n := by
  rw [BitVec.toInt_eq_toNat_cond, BitVec.toNat_ofNat]; split <;> omega

theorem toInt_ofNat16 {n : Nat} (h : n < 32768) : (BitVec.ofNat 16 n).toInt = n := by
  rw [BitVec.toInt_eq_toNat_cond, BitVec.toNat_ofNat]; split <;> omega

theorem eq_of_toInt32 {v w : BitVec 32} (h : v.toInt = w.toInt) : v = w := BitVec.eq_of_toInt_eq h

theorem dataRowValue_exact :
    Dec.Exact dataRowValue Spec.rowValue (fun o => ∀ v, o = some v → v.length < 2147483648) := by
  intro b a r
  unfold dataRowValue
  rw [Dec.bind_ok_iff]
  constructor
  · rintro ⟨size, b1, h1, h2⟩
    obtain rfl := ReadBuffer.readInt32_ok_iff.mp h1
    split at h2
    · rename_i hs
      simp only [Dec.pure_apply, Prod.mk.injEq, Res.ok.injEq] at h2
      obtain ⟨rfl, rfl⟩ := h2
      refine ⟨by simp, ?_⟩
      rw [Spec.rowValue, ← hs, int32_toInt]
    · obtain ⟨v, b2, h3, h4⟩ := Dec.bind_ok_iff.mp h2
      simp only [Dec.pure_apply, Prod.mk.injEq, Res.ok.injEq] at h4
      obtain ⟨rfl, rfl⟩ := h4
      obtain ⟨hl, rfl⟩ := ReadBuffer.readBytes_ok_iff.mp h3
      have := BitVec.toInt_lt (x := size)
      refine ⟨?_, ?_⟩
      · intro w hw; cases hw; omega
      · rw [Spec.rowValue, hl, int32_toInt, List.append_assoc]
  · rintro ⟨hw, rfl⟩
    cases a with
    | none =>
      refine ⟨BitVec.ofInt 32 (-1), r, ReadBuffer.readInt32_ok_iff.mpr ?_, ?_⟩
      · rw [Spec.rowValue, ← int32_toInt]; rfl
      · rw [if_pos (by decide)]; rfl
    | some v =>
      have hl := hw v rfl
      refine ⟨BitVec.ofNat 32 v.length, v ++ r, ReadBuffer.readInt32_ok_iff.mpr ?_, ?_⟩
      · rw [Spec.rowValue, ← int32_ofNat, List.append_assoc]
      · rw [toInt_ofNat32 hl, if_neg (by omega), Dec.bind_of_ok (ReadBuffer.readBytes_append v r)]; rfl

theorem goMake_small {k : Int} {v : Int} (h0 : 0 ≤ v) (h1 : v * k ≤ maxAlloc) : goMake k v = .ok v.toNat := by
  unfold goMake; rw [if_neg (by omega)]

theorem goMake_neg {k : Int} {v : Int} (h0 : v < 0) : goMake k v = .panic .makeLen := by
  unfold goMake; rw [if_pos (by omega)]

/-- A counted list: an `int16` count, `make`, and the elements. -/
theorem counted16_exact {α : Type} {d : Dec α} {enc : α → Bytes} {wf : α → Prop} (h : Dec.Exact d enc wf)
    (k : Int) (hk : 0 ≤ k ∧ k ≤ 24) :
    Dec.Exact (do
      let c ← ReadBuffer.readInt16
      let n ← Dec.lift (goMake k c.toInt)
      Dec.times d n)
      (fun l => Spec.int16 l.length ++ l.flatMap enc) (fun l => l.length < 32768 ∧ ∀ a ∈ l, wf a) := by
  intro b l r
  rw [Dec.bind_ok_iff]
  have hbound : ∀ v : Int, 0 ≤ v → v < 32768 → v * k ≤ maxAlloc := by
    intro v h0 h1
    have : v * k ≤ 32768 * 24 := Int.mul_le_mul (by omega) hk.2 hk.1 (by omega)
    unfold maxAlloc; omega
  constructor
  · rintro ⟨c, b1, h1, h2⟩
    obtain rfl := ReadBuffer.readInt16_ok_iff.mp h1
    by_cases hc : c.toInt < 0
    · rw [goMake_neg hc] at h2
      rw [Dec.bind_apply] at h2
      simp at h2
    · have := BitVec.toInt_lt (x := c)
      rw [goMake_small (by omega) (hbound _ (by omega) (by omega)), Dec.bind_of_ok (Dec.lift_apply _ _)] at h2
      obtain ⟨⟨hl, hw⟩, rfl⟩ := (h.times _ _ _ _).mp h2
      refine ⟨⟨by omega, hw⟩, ?_⟩
      have : (l.length : Int) = c.toInt := by omega
      simp only [this, int16_toInt, List.append_assoc]
  · rintro ⟨⟨hl, hw⟩, rfl⟩
    refine ⟨BitVec.ofNat 16 l.length, l.flatMap enc ++ r, ReadBuffer.readInt16_ok_iff.mpr ?_, ?_⟩
    · simp only [← int16_ofNat, List.append_assoc]
    · rw [toInt_ofNat16 hl, goMake_small (by omega) (hbound _ (by omega) (by omega)),
        Dec.bind_of_ok (Dec.lift_apply _ _)]
      exact (h.times _ _ _ _).mpr ⟨⟨by simp, hw⟩, rfl⟩

theorem dataRowBody_exact :
    Dec.Exact dataRowBody (fun l => Spec.int16 l.length ++ l.flatMap Spec.rowValue)
      (fun l => l.length < 32768 ∧ ∀ o ∈ l, ∀ v, o = some v → v.length < 2147483648) :=
  counted16_exact dataRowValue_exact 24 (by decide)

theorem fieldDescriptor_exact :
    Dec.Exact fieldDescriptor Spec.rowField (fun f => Spec.NulFree f.name) := by
  intro b a r
  unfold fieldDescriptor
  simp only [Dec.bind_ok_iff, Dec.pure_apply, Prod.mk.injEq, Res.ok.injEq, ReadBuffer.readInt32_ok_iff,
    ReadBuffer.readInt16_ok_iff, ReadBuffer.readString_ok_iff]
  constructor
  · rintro ⟨name, _, ⟨hn, rfl⟩, v1, _, rfl, v2, _, rfl, v3, _, rfl, v4, _, rfl, v5, _, rfl, v6, _, rfl, rfl, rfl⟩
    refine ⟨hn, ?_⟩
    simp [Spec.rowField, Spec.cstr, int32_toInt, int16_toInt]
  · rintro ⟨hn, rfl⟩
    refine ⟨a.name, _, ⟨hn, ?_⟩, a.tableOID, _, rfl, a.columnIndex, _, rfl, a.dataTypeOID, _, rfl, a.dataTypeSize, _,
      rfl, a.dataTypeModifier, _, rfl, a.format, _, rfl, rfl, rfl⟩
    simp [Spec.rowField, Spec.cstr, int32_toInt, int16_toInt]

theorem rowDescriptionBody_exact :
    Dec.Exact rowDescriptionBody (fun l => Spec.int16 l.length ++ l.flatMap Spec.rowField)
      (fun l => l.length < 32768 ∧ ∀ f ∈ l, Spec.NulFree f.name) :=
  counted16_exact fieldDescriptor_exact 8 (by decide)

theorem messageFieldsLoop_ok_iff (fuel : Nat) (b : Bytes) (l : List MessageField) (r : Bytes) :
    messageFieldsLoop fuel b = (.ok l, r) ↔
      l.length < fuel ∧ (∀ f ∈ l, f.type ≠ 0 ∧ Spec.NulFree f.value) ∧
        b = (l.flatMap Spec.messageField ++ [0]) ++ r := by
  induction fuel generalizing b l r with
  | zero => simp [messageFieldsLoop]
  | succ fuel ih =>
    rw [messageFieldsLoop, Dec.bind_ok_iff]
    constructor
    · rintro ⟨t, b1, h1, h2⟩
      obtain rfl := ReadBuffer.readByte_ok_iff.mp h1
      split at h2
      · rename_i ht
        simp only [Dec.pure_apply, Prod.mk.injEq, Res.ok.injEq] at h2
        obtain ⟨rfl, rfl⟩ := h2
        rw [ht]
        exact ⟨by simp, by simp, rfl⟩
      · rename_i ht
        obtain ⟨v, b2, h3, h4⟩ := Dec.bind_ok_iff.mp h2
        obtain ⟨fs, b3, h5, h6⟩ := Dec.bind_ok_iff.mp h4
        simp only [Dec.pure_apply, Prod.mk.injEq, Res.ok.injEq] at h6
        obtain ⟨rfl, rfl⟩ := h6
        obtain ⟨hv, rfl⟩ := ReadBuffer.readString_ok_iff.mp h3
        obtain ⟨hl, hw, rfl⟩ := (ih _ _ _).mp h5
        refine ⟨by simp; omega, ?_, ?_⟩
        · intro f hf
          rcases List.mem_cons.mp hf with rfl | hf
          · exact ⟨ht, hv⟩
          · exact hw f hf
        · simp [Spec.messageField, Spec.cstr]
    · rintro ⟨hl, hw, rfl⟩
      cases l with
      | nil => exact ⟨0, r, ReadBuffer.readByte_ok_iff.mpr rfl, by rw [if_pos rfl]; rfl⟩
      | cons f fs =>
        obtain ⟨ht, hv⟩ := hw f (by simp)
        refine ⟨f.type, Spec.cstr f.value ++ ((fs.flatMap Spec.messageField ++ [0]) ++ r),
          ReadBuffer.readByte_ok_iff.mpr ?_, ?_⟩
        · simp [Spec.messageField]
        · rw [if_neg ht]
          refine Dec.bind_ok_iff.mpr ⟨f.value, (fs.flatMap Spec.messageField ++ [0]) ++ r,
            ReadBuffer.readString_ok_iff.mpr ⟨hv, by simp [Spec.cstr]⟩, ?_⟩
          refine Dec.bind_ok_iff.mpr ⟨fs, r, (ih _ _ _).mpr ⟨?_, fun x hx => hw x (by simp [hx]), rfl⟩, rfl⟩
          simp at hl; omega

theorem flatMap_length_ge {α : Type} (g : α → Bytes) (h : ∀ a, 1 ≤ (g a).length) (l : List α) :
    l.length ≤ (l.flatMap g).length := by
  induction l with
  | nil => simp
  | cons a l ih => have := h a; simp at ih ⊢; omega

theorem messageFields_exact :
    Dec.Exact messageFields (fun l => l.flatMap Spec.messageField ++ [0])
      (fun l => ∀ f ∈ l, f.type ≠ 0 ∧ Spec.NulFree f.value) := by
  intro b l r
  unfold messageFields
  rw [messageFieldsLoop_ok_iff]
  constructor
  · rintro ⟨_, h⟩; exact h
  · rintro ⟨hw, hb⟩
    refine ⟨?_, hw, hb⟩
    have := flatMap_length_ge Spec.messageField (by intro a; simp [Spec.messageField]) l
    rw [hb]; simp; simp at this; omega

theorem startupLoop_ok_iff (fuel : Nat) (b : Bytes) (l : List StartupParameter) (r : Bytes) :
    startupParametersLoop fuel b = (.ok l, r) ↔
      l.length < fuel ∧ (∀ p ∈ l, p.name ≠ [] ∧ Spec.NulFree p.name ∧ Spec.NulFree p.value) ∧
        b = (l.flatMap Spec.startupParameter ++ [0]) ++ r := by
  induction fuel generalizing b l r with
  | zero => simp [startupParametersLoop]
  | succ fuel ih =>
    rw [startupParametersLoop, Dec.bind_ok_iff]
    constructor
    · rintro ⟨k, b1, h1, h2⟩
      obtain ⟨hk, rfl⟩ := ReadBuffer.readString_ok_iff.mp h1
      split at h2
      · rename_i ht
        simp only [Dec.pure_apply, Prod.mk.injEq, Res.ok.injEq] at h2
        obtain ⟨rfl, rfl⟩ := h2
        rw [ht]
        exact ⟨by simp, by simp, rfl⟩
      · rename_i ht
        obtain ⟨v, b2, h3, h4⟩ := Dec.bind_ok_iff.mp h2
        obtain ⟨fs, b3, h5, h6⟩ := Dec.bind_ok_iff.mp h4
        simp only [Dec.pure_apply, Prod.mk.injEq, Res.ok.injEq] at h6
        obtain ⟨rfl, rfl⟩ := h6
        obtain ⟨hv, rfl⟩ := ReadBuffer.readString_ok_iff.mp h3
        obtain ⟨hl, hw, rfl⟩ := (ih _ _ _).mp h5
        refine ⟨by simp; omega, ?_, ?_⟩
        · intro f hf
          rcases List.mem_cons.mp hf with rfl | hf
          · exact ⟨ht, hk, hv⟩
          · exact hw f hf
        · simp [Spec.startupParameter, Spec.cstr]
    · rintro ⟨hl, hw, rfl⟩
      cases l with
      | nil =>
        refine ⟨[], r, ReadBuffer.readString_ok_iff.mpr ⟨by simp [Spec.NulFree], rfl⟩, by rw [if_pos rfl]; rfl⟩
      | cons f fs =>
        obtain ⟨ht, hk, hv⟩ := hw f (by simp)
        refine ⟨f.name, Spec.cstr f.value ++ ((fs.flatMap Spec.startupParameter ++ [0]) ++ r),
          ReadBuffer.readString_ok_iff.mpr ⟨hk, ?_⟩, ?_⟩
        · simp [Spec.startupParameter, Spec.cstr]
        · rw [if_neg ht]
          refine Dec.bind_ok_iff.mpr ⟨f.value, (fs.flatMap Spec.startupParameter ++ [0]) ++ r,
            ReadBuffer.readString_ok_iff.mpr ⟨hv, by simp [Spec.cstr]⟩, ?_⟩
          refine Dec.bind_ok_iff.mpr ⟨fs, r, (ih _ _ _).mpr ⟨?_, fun x hx => hw x (by simp [hx]), rfl⟩, rfl⟩
          simp at hl; omega

/-- The exact grammar of startup messages: the version alone, or the version, parameters, a zero byte and anything. -/
theorem startupMessageBody_ok_iff (b : Bytes) (m : StartupMessage) (r : Bytes) :
    startupMessageBody b = (.ok m, r) ↔
      (∀ p ∈ m.parameters, p.name ≠ [] ∧ Spec.NulFree p.name ∧ Spec.NulFree p.value) ∧
      ((m.parameters = [] ∧ r = [] ∧ b = putUint32 m.protocolVersion) ∨
        b = putUint32 m.protocolVersion ++ (m.parameters.flatMap Spec.startupParameter ++ [0]) ++ r) := by
  unfold startupMessageBody
  rw [Dec.bind_ok_iff]
  constructor
  · rintro ⟨v, b1, h1, h2⟩
    obtain rfl := ReadBuffer.readInt32_ok_iff.mp h1
    obtain ⟨ps, b2, h3, h4⟩ := Dec.bind_ok_iff.mp h2
    simp only [Dec.pure_apply, Prod.mk.injEq, Res.ok.injEq] at h4
    obtain ⟨rfl, rfl⟩ := h4
    unfold startupParameters at h3
    split at h3
    · obtain ⟨_, hw, rfl⟩ := (startupLoop_ok_iff _ _ _ _).mp h3
      exact ⟨hw, .inr (by simp)⟩
    · rename_i hb
      simp only [Prod.mk.injEq, Res.ok.injEq] at h3
      obtain ⟨rfl, rfl⟩ := h3
      have : b1 = [] := by
        unfold ReadBuffer.len at hb
        apply List.eq_nil_of_length_eq_zero; omega
      subst this
      exact ⟨by simp, .inl ⟨rfl, rfl, by simp⟩⟩
  · rintro ⟨hw, h | h⟩
    · obtain ⟨h1, rfl, rfl⟩ := h
      refine ⟨m.protocolVersion, [], ReadBuffer.readInt32_ok_iff.mpr (by simp), ?_⟩
      refine Dec.bind_ok_iff.mpr ⟨[], [], by simp [startupParameters, ReadBuffer.len], ?_⟩
      simp only [Dec.pure_apply, ← h1]
    · refine ⟨m.protocolVersion, (m.parameters.flatMap Spec.startupParameter ++ [0]) ++ r,
        ReadBuffer.readInt32_ok_iff.mpr (by rw [h, List.append_assoc]), ?_⟩
      refine Dec.bind_ok_iff.mpr ⟨m.parameters, r, ?_, rfl⟩
      unfold startupParameters
      rw [if_pos (by simp [ReadBuffer.len]; omega)]
      refine (startupLoop_ok_iff _ _ _ _).mpr ⟨?_, hw, rfl⟩
      have := flatMap_length_ge Spec.startupParameter (by intro a; simp [Spec.startupParameter, Spec.cstr]; omega)
        m.parameters
      simp at this ⊢
      omega

/-! ### Typed parsers -/

theorem Res.bind_eq_ok {α β : Type} {x : Res α} {f : α → Res β} {c : β} :
    (x >>= f) = .ok c ↔ ∃ a, x = .ok a ∧ f a = .ok c := by
  cases x <;> simp

theorem Dec.run_ok {α : Type} {d : Dec α} {b : Bytes} {a : α} : d.run b = .ok a ↔ ∃ r, d b = (.ok a, r) := by
  unfold Dec.run
  rcases h : d b with ⟨o, r⟩
  simp

theorem parseTyped_ok_iff {α : Type} {t : Byte} {f : Frame} {d : Dec α} {a : α} :
    parseTyped t f d = .ok a ↔ f.messageType = .ok t ∧ ∃ b r, f.messageBody = .ok b ∧ d b = (.ok a, r) := by
  unfold parseTyped
  rw [Res.bind_eq_ok]
  constructor
  · rintro ⟨mt, h1, h2⟩
    split at h2
    · simp at h2
    · rename_i h
      obtain ⟨b, h3, h4⟩ := Res.bind_eq_ok.mp h2
      obtain ⟨r, hr⟩ := Dec.run_ok.mp h4
      have : mt = t := Decidable.not_not.mp h
      exact ⟨this ▸ h1, b, r, h3, hr⟩
  · rintro ⟨h1, b, r, h2, h3⟩
    refine ⟨t, h1, ?_⟩
    rw [if_neg (by simp)]
    exact Res.bind_eq_ok.mpr ⟨b, h2, Dec.run_ok.mpr ⟨r, h3⟩⟩

theorem parseTyped_wrong_type {α : Type} {t mt : Byte} {f : Frame} {d : Dec α} (h : f.messageType = .ok mt)
    (hne : mt ≠ t) : parseTyped t f d = .err .malformed := by
  unfold parseTyped
  rw [h, Res.bind_ok, if_pos hne]

theorem Salt.copyFrom_cons (a b c d : Byte) : Salt.copyFrom [a, b, c, d] = ⟨a, b, c, d⟩ := rfl

theorem readRest_ok_iff {b v r : Bytes} : readRest b = (.ok v, r) ↔ v = b ∧ r = [] := by
  unfold readRest
  rw [ReadBuffer.readBytes_ok_iff]
  unfold ReadBuffer.len
  constructor
  · rintro ⟨h, rfl⟩
    have : r = [] := by
      simp at h
      apply List.eq_nil_of_length_eq_zero; omega
    subst this; simp
  · rintro ⟨rfl, rfl⟩; simp

/-- The status code each kind of request carries. -/
def AuthKind.code : AuthKind → BitVec 32
  | .ok => 0 | .kerberosV5 => 2 | .cleartextPassword => 3 | .md5Password => 5 | .scmCredential => 6 | .gss => 7
  | .gssContinue => 8 | .sspi => 9

theorem authStatusMap_some {s : BitVec 32} {k : AuthKind} : authStatusMap s = some k ↔ s = k.code := by
  constructor
  · unfold authStatusMap
    repeat' split
    all_goals first
      | (intro h; injection h with h; subst h; assumption)
      | simp
  · rintro rfl; cases k <;> rfl

theorem authFields_ok_iff (k : AuthKind) (b : Bytes) (m : Msg) (r : Bytes) :
    authFields k b = (.ok m, r) ↔
      Spec.kind m = some .authenticationRequest ∧ putUint32 k.code ++ b = Spec.body m ++ r ∧
        (Spec.takesAll m = true → r = []) := by
  have code_ne : ∀ (v w : BitVec 32) (x y : Bytes), v ≠ w → putUint32 v ++ x ≠ putUint32 w ++ y := by
    intro v w x y hne h
    have h1 := beUint32_put v x
    rw [h, beUint32_put] at h1
    injection h1 with h1; exact hne h1.symm
  have int32_lit : ∀ v : BitVec 32, Spec.int32 v.toInt = putUint32 v := int32_toInt
  have e0 : Spec.int32 0 = putUint32 0 := int32_lit 0
  have e2 : Spec.int32 2 = putUint32 2 := int32_lit 2
  have e3 : Spec.int32 3 = putUint32 3 := int32_lit 3
  have e5 : Spec.int32 5 = putUint32 5 := int32_lit 5
  have e6 : Spec.int32 6 = putUint32 6 := int32_lit 6
  have e7 : Spec.int32 7 = putUint32 7 := int32_lit 7
  have e8 : Spec.int32 8 = putUint32 8 := int32_lit 8
  have e9 : Spec.int32 9 = putUint32 9 := int32_lit 9
  have simple : ∀ (k : AuthKind) (m0 : Msg), authFields k = pure m0 → Spec.kind m0 = some .authenticationRequest →
      Spec.body m0 = putUint32 k.code → Spec.takesAll m0 = false →
      (∀ m, Spec.kind m = some .authenticationRequest →
        (m = m0 ∨ ∃ v x, Spec.body m = putUint32 v ++ x ∧ v ≠ k.code)) →
      (authFields k b = (.ok m, r) ↔
        Spec.kind m = some .authenticationRequest ∧ putUint32 k.code ++ b = Spec.body m ++ r ∧
          (Spec.takesAll m = true → r = [])) := by
    intro k m0 h1 h2 h3 h4 h5
    rw [h1]
    simp only [Dec.pure_apply, Prod.mk.injEq, Res.ok.injEq]
    constructor
    · rintro ⟨rfl, rfl⟩
      exact ⟨h2, by rw [h3], by rw [h4]; simp⟩
    · rintro ⟨g1, g2, g3⟩
      rcases h5 m g1 with rfl | ⟨v, x, hv, hne⟩
      · rw [h3] at g2
        exact ⟨rfl, List.append_cancel_left g2⟩
      · rw [hv, List.append_assoc] at g2
        exact absurd g2.symm (code_ne _ _ _ _ hne)
  have hbody : ∀ m, Spec.kind m = some .authenticationRequest → ∃ k' x, Spec.body m = putUint32 (AuthKind.code k') ++ x ∧
      (k' = .ok → m = .authOk) ∧ (k' = .kerberosV5 → m = .authKerberosV5) ∧
      (k' = .cleartextPassword → m = .authCleartextPassword) ∧
      (k' = .md5Password → ∃ s, m = .authMD5Password s) ∧ (k' = .scmCredential → m = .authSCMCredential) ∧
      (k' = .gss → m = .authGSS) ∧ (k' = .gssContinue → ∃ d, m = .authGSSContinue d) ∧
      (k' = .sspi → m = .authSSPI) := by
    intro m hm
    cases m <;> simp only [Spec.kind, reduceCtorEq, Option.some.injEq] at hm
    case authOk => exact ⟨.ok, [], by simp [Spec.body, e0, AuthKind.code], by simp⟩
    case authKerberosV5 => exact ⟨.kerberosV5, [], by simp [Spec.body, e2, AuthKind.code], by simp⟩
    case authCleartextPassword => exact ⟨.cleartextPassword, [], by simp [Spec.body, e3, AuthKind.code], by simp⟩
    case authMD5Password s =>
      exact ⟨.md5Password, [s.b0, s.b1, s.b2, s.b3], by simp [Spec.body, e5, AuthKind.code], by simp⟩
    case authSCMCredential => exact ⟨.scmCredential, [], by simp [Spec.body, e6, AuthKind.code], by simp⟩
    case authGSS => exact ⟨.gss, [], by simp [Spec.body, e7, AuthKind.code], by simp⟩
    case authGSSContinue d => exact ⟨.gssContinue, d, by simp [Spec.body, e8, AuthKind.code], by simp⟩
    case authSSPI => exact ⟨.sspi, [], by simp [Spec.body, e9, AuthKind.code], by simp⟩
  have code_inj : ∀ a b : AuthKind, a ≠ b → a.code ≠ b.code := by
    intro a b; cases a <;> cases b <;> decide
  cases k
  case md5Password =>
    unfold authFields
    rw [Dec.bind_ok_iff]
    constructor
    · rintro ⟨salt, b1, h1, h2⟩
      simp only [Dec.pure_apply, Prod.mk.injEq, Res.ok.injEq] at h2
      obtain ⟨rfl, rfl⟩ := h2
      obtain ⟨hl, rfl⟩ := ReadBuffer.readBytes_ok_iff.mp h1
      match salt, hl with
      | [s0, s1, s2, s3], _ =>
        refine ⟨rfl, ?_, by simp [Spec.takesAll]⟩
        simp only [Spec.body, e5, Salt.copyFrom_cons, List.append_assoc]; rfl
    · rintro ⟨g1, g2, _⟩
      obtain ⟨k', x, hx, _, _, _, h4, _⟩ := hbody m g1
      by_cases hk : k' = .md5Password
      · obtain ⟨s, rfl⟩ := h4 hk
        simp only [Spec.body, e5, List.append_assoc] at g2
        have g3 : b = [s.b0, s.b1, s.b2, s.b3] ++ r := List.append_cancel_left g2
        exact ⟨[s.b0, s.b1, s.b2, s.b3], r, ReadBuffer.readBytes_ok_iff.mpr ⟨rfl, g3⟩, rfl⟩
      · rw [hx, List.append_assoc] at g2
        exact absurd g2.symm (code_ne _ _ _ _ (code_inj _ _ hk))
  case gssContinue =>
    unfold authFields
    rw [Dec.bind_ok_iff]
    constructor
    · rintro ⟨d, b1, h1, h2⟩
      simp only [Dec.pure_apply, Prod.mk.injEq, Res.ok.injEq] at h2
      obtain ⟨rfl, rfl⟩ := h2
      obtain ⟨rfl, rfl⟩ := readRest_ok_iff.mp h1
      refine ⟨rfl, ?_, by simp⟩
      simp [Spec.body, e8, AuthKind.code]
    · rintro ⟨g1, g2, g4⟩
      obtain ⟨k', x, hx, _, _, _, _, _, _, h7, _⟩ := hbody m g1
      by_cases hk : k' = .gssContinue
      · obtain ⟨d, rfl⟩ := h7 hk
        have : r = [] := g4 rfl
        subst this
        simp only [Spec.body, e8, List.append_nil] at g2
        have g3 : b = d := List.append_cancel_left g2
        exact ⟨d, [], readRest_ok_iff.mpr ⟨g3.symm, rfl⟩, rfl⟩
      · rw [hx, List.append_assoc] at g2
        exact absurd g2.symm (code_ne _ _ _ _ (code_inj _ _ hk))
  case ok =>
    refine simple _ .authOk rfl rfl e0 rfl fun m hm => ?_
    obtain ⟨k', x, hx, h⟩ := hbody m hm
    by_cases hk : k' = .ok
    · exact .inl (h.1 hk)
    · exact .inr ⟨_, x, hx, code_inj _ _ hk⟩
  case kerberosV5 =>
    refine simple _ .authKerberosV5 rfl rfl e2 rfl fun m hm => ?_
    obtain ⟨k', x, hx, _, h, _⟩ := hbody m hm
    by_cases hk : k' = .kerberosV5
    · exact .inl (h hk)
    · exact .inr ⟨_, x, hx, code_inj _ _ hk⟩
  case cleartextPassword =>
    refine simple _ .authCleartextPassword rfl rfl e3 rfl fun m hm => ?_
    obtain ⟨k', x, hx, _, _, h, _⟩ := hbody m hm
    by_cases hk : k' = .cleartextPassword
    · exact .inl (h hk)
    · exact .inr ⟨_, x, hx, code_inj _ _ hk⟩
  case scmCredential =>
    refine simple _ .authSCMCredential rfl rfl e6 rfl fun m hm => ?_
    obtain ⟨k', x, hx, _, _, _, _, h, _⟩ := hbody m hm
    by_cases hk : k' = .scmCredential
    · exact .inl (h hk)
    · exact .inr ⟨_, x, hx, code_inj _ _ hk⟩
  case gss =>
    refine simple _ .authGSS rfl rfl e7 rfl fun m hm => ?_
    obtain ⟨k', x, hx, _, _, _, _, _, h, _⟩ := hbody m hm
    by_cases hk : k' = .gss
    · exact .inl (h hk)
    · exact .inr ⟨_, x, hx, code_inj _ _ hk⟩
  case sspi =>
    refine simple _ .authSSPI rfl rfl e9 rfl fun m hm => ?_
    obtain ⟨k', x, hx, _, _, _, _, _, _, _, h⟩ := hbody m hm
    by_cases hk : k' = .sspi
    · exact .inl (h hk)
    · exact .inr ⟨_, x, hx, code_inj _ _ hk⟩

theorem authenticationRequestBody_ok_iff (b : Bytes) (m : Msg) (r : Bytes) :
    authenticationRequestBody b = (.ok m, r) ↔
      Spec.kind m = some .authenticationRequest ∧ b = Spec.body m ++ r ∧ (Spec.takesAll m = true → r = []) := by
  unfold authenticationRequestBody
  rw [Dec.bind_ok_iff]
  constructor
  · rintro ⟨status, b1, h1, h2⟩
    obtain rfl := ReadBuffer.readInt32_ok_iff.mp h1
    cases hs : authStatusMap status with
    | none => rw [hs] at h2; simp at h2
    | some k =>
      rw [hs] at h2
      obtain rfl := authStatusMap_some.mp hs
      exact (authFields_ok_iff k b1 m r).mp h2
  · rintro ⟨hk, hb, hr⟩
    have hk' : ∃ (k : AuthKind) (x : Bytes), Spec.body m = putUint32 k.code ++ x := by
      cases m <;> simp only [Spec.kind, reduceCtorEq, Option.some.injEq] at hk
      case authOk => exact ⟨.ok, [], rfl⟩
      case authKerberosV5 => exact ⟨.kerberosV5, [], rfl⟩
      case authCleartextPassword => exact ⟨.cleartextPassword, [], rfl⟩
      case authMD5Password s => exact ⟨.md5Password, [s.b0, s.b1, s.b2, s.b3], rfl⟩
      case authSCMCredential => exact ⟨.scmCredential, [], rfl⟩
      case authGSS => exact ⟨.gss, [], rfl⟩
      case authGSSContinue d => exact ⟨.gssContinue, d, rfl⟩
      case authSSPI => exact ⟨.sspi, [], rfl⟩
    obtain ⟨k, x, hx⟩ := hk'
    refine ⟨k.code, x ++ r, ReadBuffer.readInt32_ok_iff.mpr (by rw [hb, hx, List.append_assoc]), ?_⟩
    rw [authStatusMap_some.mpr rfl]
    exact (authFields_ok_iff k _ m r).mpr ⟨hk, by rw [hx, List.append_assoc], hr⟩

theorem negotiateBody_exact (supported : BitVec 32) (options : List Bytes) (b r : Bytes) :
    (do
      let supportedProtocol ← ReadBuffer.readInt32
      let unrecognizedOptionsCount ← ReadBuffer.readInt32
      let n ← Dec.lift (goMake 16 unrecognizedOptionsCount.toInt)
      let unrecognizedOptions ← Dec.times ReadBuffer.readString n
      pure (Msg.negotiateProtocolVersion supportedProtocol unrecognizedOptions) : Dec Msg) b
        = (.ok (.negotiateProtocolVersion supported options), r) ↔
      Spec.Content (.negotiateProtocolVersion supported options) ∧
        b = Spec.body (.negotiateProtocolVersion supported options) ++ r := by
  simp only [Spec.Content, Spec.body]
  rw [Dec.bind_ok_iff]
  constructor
  · rintro ⟨v, b1, h1, h2⟩
    obtain rfl := ReadBuffer.readInt32_ok_iff.mp h1
    obtain ⟨c, b2, h3, h4⟩ := Dec.bind_ok_iff.mp h2
    obtain rfl := ReadBuffer.readInt32_ok_iff.mp h3
    by_cases hc : c.toInt < 0
    · rw [goMake_neg hc] at h4
      rw [Dec.bind_apply] at h4
      simp at h4
    · have hlt := BitVec.toInt_lt (x := c)
      rw [goMake_small (by omega) (by unfold maxAlloc; omega), Dec.bind_of_ok (Dec.lift_apply _ _)] at h4
      obtain ⟨l, b3, h5, h6⟩ := Dec.bind_ok_iff.mp h4
      simp only [Dec.pure_apply, Prod.mk.injEq, Res.ok.injEq, Msg.negotiateProtocolVersion.injEq] at h6
      obtain ⟨⟨rfl, rfl⟩, rfl⟩ := h6
      obtain ⟨⟨hl, hw⟩, rfl⟩ := (Dec.Exact.readString.times _ _ _ _).mp h5
      refine ⟨⟨by omega, hw⟩, ?_⟩
      have : (l.length : Int) = c.toInt := by omega
      simp only [this, int32_toInt, List.append_assoc]
  · rintro ⟨⟨hl, hw⟩, rfl⟩
    refine ⟨supported, Spec.int32 options.length ++ (options.flatMap Spec.cstr ++ r),
      ReadBuffer.readInt32_ok_iff.mpr ?_, ?_⟩
    · rw [int32_toInt]; simp
    · refine Dec.bind_ok_iff.mpr ⟨BitVec.ofNat 32 options.length, options.flatMap Spec.cstr ++ r,
        ReadBuffer.readInt32_ok_iff.mpr ?_, ?_⟩
      · rw [int32_ofNat]
      · rw [toInt_ofNat32 hl, goMake_small (by omega) (by unfold maxAlloc; omega),
          Dec.bind_of_ok (Dec.lift_apply _ _)]
        refine Dec.bind_ok_iff.mpr ⟨options, r, (Dec.Exact.readString.times _ _ _ _).mpr ⟨⟨by simp, hw⟩, rfl⟩, rfl⟩

/-- Adds a constructor after an exact decoder. -/
theorem map_ok_iff {α β : Type} {d : Dec α} {enc : α → Bytes} {wf : α → Prop} (h : Dec.Exact d enc wf)
    (c : α → β) (b : Bytes) (m : β) (r : Bytes) :
    (do let x ← d; pure (c x) : Dec β) b = (.ok m, r) ↔ ∃ a, m = c a ∧ wf a ∧ b = enc a ++ r := by
  rw [Dec.bind_ok_iff]
  constructor
  · rintro ⟨a, b1, h1, h2⟩
    simp only [Dec.pure_apply, Prod.mk.injEq, Res.ok.injEq] at h2
    obtain ⟨rfl, rfl⟩ := h2
    exact ⟨a, rfl, (h _ _ _).mp h1⟩
  · rintro ⟨a, rfl, h1⟩
    exact ⟨a, r, (h _ _ _).mpr h1, rfl⟩

/-! ### Panics -/

/-- The outcome is a run-time panic. -/
def Res.IsPanic {α : Type} (x : Res α) : Prop := ∃ p, x = .panic p

theorem Dec.bind_panic_iff {α β : Type} {x : Dec α} {f : α → Dec β} {b : Bytes} :
    ((x >>= f) b).1.IsPanic ↔ (x b).1.IsPanic ∨ ∃ a b', x b = (.ok a, b') ∧ (f a b').1.IsPanic := by
  rw [Dec.bind_apply]
  rcases h : x b with ⟨o, b'⟩
  cases o with
  | ok a =>
    simp only [Res.IsPanic, Prod.mk.injEq, Res.ok.injEq, reduceCtorEq, exists_false, false_or]
    constructor
    · exact fun h => ⟨a, b', ⟨rfl, rfl⟩, h⟩
    · rintro ⟨_, _, ⟨rfl, rfl⟩, h⟩; exact h
  | err e => simp [Res.IsPanic]
  | panic p => simp [Res.IsPanic]

@[simp] theorem Dec.pure_not_panic {α : Type} (a : α) (b : Bytes) : ¬ ((pure a : Dec α) b).1.IsPanic := by
  simp [Res.IsPanic]

theorem ReadBuffer.readBytes_isPanic {n : Int} {b : Bytes} : (ReadBuffer.readBytes n b).1.IsPanic ↔ n < 0 := by
  unfold Res.IsPanic ReadBuffer.readBytes ReadBuffer.len
  split
  · simp; omega
  · split <;> simp <;> omega

theorem ReadBuffer.readByte_not_panic (b : Bytes) : ¬ (ReadBuffer.readByte b).1.IsPanic := by
  cases b <;> simp [Res.IsPanic, readByte_nil, readByte_cons]

theorem ReadBuffer.readInt32_not_panic (b : Bytes) : ¬ (ReadBuffer.readInt32 b).1.IsPanic := by
  rcases Nat.lt_or_ge b.length 4 with hb | hb
  · simp [Res.IsPanic, readInt32_short hb]
  · obtain ⟨v, t, rfl⟩ := exists_putUint32 hb
    simp [Res.IsPanic, readInt32_append]

theorem ReadBuffer.readInt16_not_panic (b : Bytes) : ¬ (ReadBuffer.readInt16 b).1.IsPanic := by
  rcases Nat.lt_or_ge b.length 2 with hb | hb
  · simp [Res.IsPanic, readInt16_short hb]
  · obtain ⟨v, t, rfl⟩ := exists_putUint16 hb
    simp [Res.IsPanic, readInt16_append]

theorem ReadBuffer.readString_not_panic (b : Bytes) : ¬ (ReadBuffer.readString b).1.IsPanic := by
  by_cases hb : (0 : Byte) ∈ b
  · obtain ⟨s, t, h1, rfl⟩ := split_nul hb
    simp only [Res.IsPanic, readString_append s t h1]; simp
  · simp [Res.IsPanic, readString_none hb]

theorem times_panic_iff {α : Type} {d : Dec α} {enc : α → Bytes} {wf : α → Prop} (h : Dec.Exact d enc wf) (n : Nat)
    (b : Bytes) : (Dec.times d n b).1.IsPanic ↔
      ∃ (l : List α) (rest : Bytes), l.length < n ∧ (∀ a ∈ l, wf a) ∧ b = l.flatMap enc ++ rest ∧ (d rest).1.IsPanic := by
  induction n generalizing b with
  | zero => simp [Dec.times, Res.IsPanic]
  | succ n ih =>
    rw [Dec.times, Dec.bind_panic_iff]
    constructor
    · rintro (h1 | ⟨a, b', h1, h2⟩)
      · exact ⟨[], b, by simp, by simp, by simp, h1⟩
      · obtain ⟨hw, rfl⟩ := (h _ _ _).mp h1
        rcases Dec.bind_panic_iff.mp h2 with h2 | ⟨l, b2, _, h3⟩
        · obtain ⟨l, rest, hl, hw', rfl, hp⟩ := (ih b').mp h2
          refine ⟨a :: l, rest, by simp; omega, ?_, by simp, hp⟩
          intro x hx
          rcases List.mem_cons.mp hx with rfl | hx
          · exact hw
          · exact hw' x hx
        · exact absurd h3 (Dec.pure_not_panic _ _)
    · rintro ⟨l, rest, hl, hw, rfl, hp⟩
      cases l with
      | nil => exact .inl (by simpa using hp)
      | cons a l =>
        refine .inr ⟨a, l.flatMap enc ++ rest, (h _ _ _).mpr ⟨hw a (by simp), by simp⟩, ?_⟩
        refine Dec.bind_panic_iff.mpr (.inl ((ih _).mpr ⟨l, rest, ?_, fun x hx => hw x (by simp [hx]), rfl, hp⟩))
        simp at hl; omega

theorem int32_ofInt {z : Int} (h0 : -2147483648 ≤ z) (h1 : z < 2147483648) :
    Spec.int32 z = putUint32 (BitVec.ofInt 32 z) ∧ (BitVec.ofInt 32 z).toInt = z := by
  have : (BitVec.ofInt 32 z).toInt = z := by
    rw [BitVec.toInt_ofInt, Int.bmod_eq_of_le] <;> omega
  exact ⟨by rw [← int32_toInt, this], this⟩

theorem int16_ofInt {z : Int} (h0 : -32768 ≤ z) (h1 : z < 32768) :
    Spec.int16 z = putUint16 (BitVec.ofInt 16 z) ∧ (BitVec.ofInt 16 z).toInt = z := by
  have : (BitVec.ofInt 16 z).toInt = z := by
    rw [BitVec.toInt_ofInt, Int.bmod_eq_of_le] <;> omega
  exact ⟨by rw [← int16_toInt, this], this⟩

theorem dataRowValue_panic_iff (b : Bytes) : (dataRowValue b).1.IsPanic ↔
    ∃ (z : Int) (rest : Bytes), -2147483648 ≤ z ∧ z < -1 ∧ b = Spec.int32 z ++ rest := by
  unfold dataRowValue
  rw [Dec.bind_panic_iff]
  constructor
  · rintro (h | ⟨v, b', h1, h2⟩)
    · exact absurd h (ReadBuffer.readInt32_not_panic b)
    · obtain rfl := ReadBuffer.readInt32_ok_iff.mp h1
      split at h2
      · exact absurd h2 (Dec.pure_not_panic _ _)
      · rename_i hv
        rcases Dec.bind_panic_iff.mp h2 with h3 | ⟨x, b2, _, h3⟩
        · have := ReadBuffer.readBytes_isPanic.mp h3
          have := BitVec.le_toInt (x := v)
          exact ⟨v.toInt, b', by omega, by omega, by rw [int32_toInt]⟩
        · exact absurd h3 (Dec.pure_not_panic _ _)
  · rintro ⟨z, rest, h0, h1, rfl⟩
    obtain ⟨e1, e2⟩ := int32_ofInt h0 (by omega)
    refine .inr ⟨BitVec.ofInt 32 z, rest, ReadBuffer.readInt32_ok_iff.mpr (by rw [e1]), ?_⟩
    rw [e2, if_neg (by omega)]
    exact Dec.bind_panic_iff.mpr (.inl (ReadBuffer.readBytes_isPanic.mpr (by omega)))

theorem counted16_panic_iff {α : Type} {d : Dec α} {enc : α → Bytes} {wf : α → Prop} (h : Dec.Exact d enc wf)
    (k : Int) (hk : 0 ≤ k ∧ k ≤ 24) (b : Bytes) :
    ((do
      let c ← ReadBuffer.readInt16
      let n ← Dec.lift (goMake k c.toInt)
      Dec.times d n : Dec (List α)) b).1.IsPanic ↔
      ∃ (c : Int) (r : Bytes), -32768 ≤ c ∧ c < 32768 ∧ b = Spec.int16 c ++ r ∧
        (c < 0 ∨ ∃ (l : List α) (rest : Bytes), l.length < c ∧ (∀ a ∈ l, wf a) ∧ r = l.flatMap enc ++ rest ∧
          (d rest).1.IsPanic) := by
  have hbound : ∀ v : Int, 0 ≤ v → v < 32768 → v * k ≤ maxAlloc := by
    intro v h0 h1
    have : v * k ≤ 32768 * 24 := Int.mul_le_mul (by omega) hk.2 hk.1 (by omega)
    unfold maxAlloc; omega
  rw [Dec.bind_panic_iff]
  constructor
  · rintro (h1 | ⟨c, b', h1, h2⟩)
    · exact absurd h1 (ReadBuffer.readInt16_not_panic b)
    · obtain rfl := ReadBuffer.readInt16_ok_iff.mp h1
      have hc1 := BitVec.toInt_lt (x := c)
      have hc2 := BitVec.le_toInt (x := c)
      refine ⟨c.toInt, b', by omega, by omega, by rw [int16_toInt], ?_⟩
      by_cases hc : c.toInt < 0
      · exact .inl hc
      · right
        rw [goMake_small (by omega) (hbound _ (by omega) (by omega)), Dec.bind_of_ok (Dec.lift_apply _ _)] at h2
        obtain ⟨l, rest, hl, hw, hr, hp⟩ := (times_panic_iff h _ _).mp h2
        exact ⟨l, rest, by omega, hw, hr, hp⟩
  · rintro ⟨c, r, h0, h1, rfl, h2⟩
    obtain ⟨e1, e2⟩ := int16_ofInt h0 h1
    refine .inr ⟨BitVec.ofInt 16 c, r, ReadBuffer.readInt16_ok_iff.mpr (by rw [e1]), ?_⟩
    rw [e2]
    by_cases hc : c < 0
    · rw [goMake_neg hc, Dec.bind_apply]
      exact ⟨_, rfl⟩
    · rw [goMake_small (by omega) (hbound _ (by omega) (by omega)), Dec.bind_of_ok (Dec.lift_apply _ _)]
      rcases h2 with h2 | ⟨l, rest, hl, hw, hr, hp⟩
      · exact absurd h2 hc
      · exact (times_panic_iff h _ _).mpr ⟨l, rest, by omega, hw, hr, hp⟩

theorem fieldDescriptor_not_panic (b : Bytes) : ¬ (fieldDescriptor b).1.IsPanic := by
  unfold fieldDescriptor
  simp only [Dec.bind_panic_iff, ReadBuffer.readString_not_panic, ReadBuffer.readInt32_not_panic,
    ReadBuffer.readInt16_not_panic, Dec.pure_not_panic, false_or, and_false, exists_const, not_false_eq_true]

theorem messageFieldsLoop_not_panic (fuel : Nat) (b : Bytes) (h : b.length < fuel) :
    ¬ (messageFieldsLoop fuel b).1.IsPanic := by
  induction fuel generalizing b with
  | zero => omega
  | succ fuel ih =>
    rw [messageFieldsLoop, Dec.bind_panic_iff]
    rintro (h1 | ⟨t, b1, h1, h2⟩)
    · exact ReadBuffer.readByte_not_panic b h1
    · obtain rfl := ReadBuffer.readByte_ok_iff.mp h1
      split at h2
      · exact Dec.pure_not_panic _ _ h2
      · rcases Dec.bind_panic_iff.mp h2 with h3 | ⟨v, b2, h3, h4⟩
        · exact ReadBuffer.readString_not_panic _ h3
        · obtain ⟨_, rfl⟩ := ReadBuffer.readString_ok_iff.mp h3
          rcases Dec.bind_panic_iff.mp h4 with h5 | ⟨fs, b3, _, h6⟩
          · exact ih b2 (by simp at h; omega) h5
          · exact Dec.pure_not_panic _ _ h6

theorem startupLoop_not_panic (fuel : Nat) (b : Bytes) (h : b.length < fuel) :
    ¬ (startupParametersLoop fuel b).1.IsPanic := by
  induction fuel generalizing b with
  | zero => omega
  | succ fuel ih =>
    rw [startupParametersLoop, Dec.bind_panic_iff]
    rintro (h1 | ⟨t, b1, h1, h2⟩)
    · exact ReadBuffer.readString_not_panic b h1
    · obtain ⟨_, rfl⟩ := ReadBuffer.readString_ok_iff.mp h1
      split at h2
      · exact Dec.pure_not_panic _ _ h2
      · rcases Dec.bind_panic_iff.mp h2 with h3 | ⟨v, b2, h3, h4⟩
        · exact ReadBuffer.readString_not_panic _ h3
        · obtain ⟨_, rfl⟩ := ReadBuffer.readString_ok_iff.mp h3
          rcases Dec.bind_panic_iff.mp h4 with h5 | ⟨fs, b3, _, h6⟩
          · exact ih b2 (by simp at h; omega) h5
          · exact Dec.pure_not_panic _ _ h6

theorem startupMessageBody_not_panic (b : Bytes) : ¬ (startupMessageBody b).1.IsPanic := by
  unfold startupMessageBody
  rw [Dec.bind_panic_iff]
  rintro (h | ⟨v, b1, _, h2⟩)
  · exact ReadBuffer.readInt32_not_panic b h
  · rcases Dec.bind_panic_iff.mp h2 with h3 | ⟨ps, b2, _, h4⟩
    · unfold startupParameters at h3
      split at h3
      · exact startupLoop_not_panic _ _ (by omega) h3
      · simp [Res.IsPanic] at h3
    · exact Dec.pure_not_panic _ _ h4

theorem authenticationRequestBody_not_panic (b : Bytes) : ¬ (authenticationRequestBody b).1.IsPanic := by
  unfold authenticationRequestBody
  rw [Dec.bind_panic_iff]
  rintro (h | ⟨v, b1, _, h2⟩)
  · exact ReadBuffer.readInt32_not_panic b h
  · cases hs : authStatusMap v <;> simp only [hs] at h2
    · simp [Res.IsPanic] at h2
    · rename_i k
      cases k <;> unfold authFields at h2
      case md5Password =>
        rcases Dec.bind_panic_iff.mp h2 with h3 | ⟨_, _, _, h4⟩
        · have := ReadBuffer.readBytes_isPanic.mp h3; omega
        · exact Dec.pure_not_panic _ _ h4
      case gssContinue =>
        rcases Dec.bind_panic_iff.mp h2 with h3 | ⟨_, _, _, h4⟩
        · unfold readRest at h3
          have := ReadBuffer.readBytes_isPanic.mp h3
          unfold ReadBuffer.len at this; omega
        · exact Dec.pure_not_panic _ _ h4
      all_goals exact Dec.pure_not_panic _ _ h2

theorem map_panic_iff {α β : Type} {d : Dec α} (c : α → β) (b : Bytes) :
    ((do let x ← d; pure (c x) : Dec β) b).1.IsPanic ↔ (d b).1.IsPanic := by
  rw [Dec.bind_panic_iff]
  constructor
  · rintro (h | ⟨_, _, _, h⟩)
    · exact h
    · exact absurd h (Dec.pure_not_panic _ _)
  · exact .inl

theorem parseTyped_panic_iff {α : Type} {t mt : Byte} {f : Frame} {d : Dec α} {b : Bytes}
    (h1 : f.messageType = .ok mt) (h2 : f.messageBody = .ok b) :
    (parseTyped t f d).IsPanic ↔ mt = t ∧ (d b).1.IsPanic := by
  unfold parseTyped
  rw [h1, Res.bind_ok]
  split
  · rename_i h
    simp [Res.IsPanic, h]
  · rename_i h
    have : mt = t := Decidable.not_not.mp h
    rw [h2, Res.bind_ok]
    simp only [this, true_and, Dec.run]

/-! ### The dispatch of `RecvMessage` -/

theorem frame_accessors {f : Frame} {t : Byte} {len : BitVec 32} {body : Bytes}
    (h : f = .standard (t :: (putUint32 len ++ body))) : f.messageType = .ok t ∧ f.messageBody = .ok body := by
  subst h
  refine ⟨rfl, ?_⟩
  rw [Frame.messageBody, if_neg (by simp)]
  rfl

theorem recvMessage_eq (r : Reader) :
    (recvMessage r).1 = (match (flatStandard r.bytes r.final).1 with
      | .ok f => parseMessage f
      | .err e => .err e
      | .panic p => .panic p) ∧
    (recvMessage r).2.bytes = (flatStandard r.bytes r.final).2 ∧ (recvMessage r).2.final = r.final := by
  obtain ⟨h1, h2, h3⟩ := readStandardFrame_flat r
  unfold recvMessage
  rcases h : readStandardFrame r with ⟨o, r'⟩
  rw [h] at h1 h2 h3
  simp only at h1 h2 h3
  rw [← h1]
  cases o <;> exact ⟨rfl, h2, h3⟩

theorem recvStartupMessage_eq (r : Reader) :
    (recvStartupMessage r).1 = (match (flatStartup r.bytes r.final).1 with
      | .ok f => parseStartupMessage f
      | .err e => .err e
      | .panic p => .panic p) ∧
    (recvStartupMessage r).2.bytes = (flatStartup r.bytes r.final).2 ∧
    (recvStartupMessage r).2.final = r.final := by
  obtain ⟨h1, h2, h3⟩ := readStartupFrame_flat r
  unfold recvStartupMessage
  rcases h : readStartupFrame r with ⟨o, r'⟩
  rw [h] at h1 h2 h3
  simp only at h1 h2 h3
  rw [← h1]
  cases o <;> exact ⟨rfl, h2, h3⟩

end Gevulot
