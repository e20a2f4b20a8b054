import Verif.Props.Frames
import Verif.Props.Messages

/-!
# Lemmas on `RecvMessage`: dispatch, round trips
-/

namespace Gevulot

theorem Spec.Kind.typeByte_inj {a b : Spec.Kind} (h : a.typeByte = b.typeByte) : a = b := by
  revert h; cases a <;> cases b <;> decide

theorem Spec.Kind.mem_all (k : Spec.Kind) : k ∈ Spec.Kind.all := by
  cases k <;> decide

/-- Frames of a known type, other than NegotiateProtocolVersion, go to their own parser. -/
theorem parseMessage_known {f : Frame} (k : Spec.Kind) (hk : k ≠ .negotiateProtocolVersion)
    (h : f.messageType = .ok k.typeByte) : parseMessage f = parserOf k f := by
  unfold parseMessage
  rw [h, Res.bind_ok]
  cases k <;> first | rfl | exact absurd rfl hk

theorem parseMessage_negotiate {f : Frame} (h : f.messageType = .ok Spec.Kind.negotiateProtocolVersion.typeByte) :
    parseMessage f = .err .malformed := by
  unfold parseMessage
  rw [h, Res.bind_ok]
  show parseNoticeResponseMessage f = _
  exact parseTyped_wrong_type h (by decide)

theorem parseMessage_unknown {f : Frame} {t : Byte} (ht : ∀ k ∈ Spec.Kind.all, t ≠ k.typeByte)
    (h : f.messageType = .ok t) : parseMessage f = parseGenericMessage f := by
  unfold parseMessage
  rw [h, Res.bind_ok]
  have this := fun k => ht k (Spec.Kind.mem_all k)
  have h1 : t ≠ authenticationRequestMessageType := this .authenticationRequest
  have h2 : t ≠ negotiateProtocolVersionMessageType := this .negotiateProtocolVersion
  have h3 : t ≠ backendKeyDataMessageType := this .backendKeyData
  have h4 : t ≠ parameterStatusMessageType := this .parameterStatus
  have h5 : t ≠ passwordMessageType := this .password
  have h6 : t ≠ readyForQueryMessageType := this .readyForQuery
  have h7 : t ≠ queryMessageType := this .query
  have h8 : t ≠ rowDescriptionMessageType := this .rowDescription
  have h9 : t ≠ dataRowMessageType := this .dataRow
  have h10 : t ≠ commandCompleteMessageType := this .commandComplete
  have h11 : t ≠ emptyQueryResponseMessageType := this .emptyQueryResponse
  have h12 : t ≠ errorResponseMessageType := this .errorResponse
  have h13 : t ≠ noticeResponseMessageType := this .noticeResponse
  have h14 : t ≠ terminateMessageType := this .terminate
  simp only [h1, h2, h3, h4, h5, h6, h7, h8, h9, h10, h11, h12, h13, h14, if_false]

theorem parseGeneric_eq {f : Frame} {t : Byte} {b : Bytes} (h1 : f.messageType = .ok t) (h2 : f.messageBody = .ok b) :
    parseGenericMessage f = .ok (.generic t b) := by
  unfold parseGenericMessage
  rw [h1, Res.bind_ok, h2, Res.bind_ok]; rfl

theorem kind_or_unknown (t : Byte) : (∃ k : Spec.Kind, t = k.typeByte) ∨ ∀ k ∈ Spec.Kind.all, t ≠ k.typeByte := by
  by_cases h : ∃ k : Spec.Kind, t = k.typeByte
  · exact .inl h
  · exact .inr fun k _ hk => h ⟨k, hk⟩

/-- What `RecvMessage`'s dispatch accepts. -/
theorem parseMessage_ok_iff {f : Frame} {t : Byte} {b : Bytes} (h1 : f.messageType = .ok t) (h2 : f.messageBody = .ok b)
    (m : Msg) :
    parseMessage f = .ok m ↔ Spec.Content m ∧ Spec.kind m ≠ some .negotiateProtocolVersion ∧
      (Spec.kind m = (none : Option Spec.Kind) ∧ m = .generic t b ∨
        ∃ k, Spec.kind m = some k ∧ t = k.typeByte ∧
          ∃ extra, b = Spec.body m ++ extra ∧ (Spec.takesAll m = true → extra = [])) := by
  rcases kind_or_unknown t with ⟨k, rfl⟩ | hu
  · by_cases hk : k = .negotiateProtocolVersion
    · subst hk
      rw [parseMessage_negotiate h1]
      constructor
      · simp
      · rintro ⟨hc, hn, ⟨_, rfl⟩ | ⟨k, hk, hk2, _⟩⟩
        · exact absurd rfl (hc .negotiateProtocolVersion (Spec.Kind.mem_all _))
        · obtain rfl := Spec.Kind.typeByte_inj hk2
          exact absurd hk hn
    · rw [parseMessage_known k hk h1, C12_parser_grammar]
      constructor
      · rintro ⟨g1, g2, _, extra, g4, g5⟩
        rw [h2, Res.ok.injEq] at g4
        exact ⟨g2, by rw [g1]; simpa using hk, .inr ⟨k, g1, rfl, extra, g4, g5⟩⟩
      · rintro ⟨hc, hn, ⟨_, rfl⟩ | ⟨k', hk', hk2, extra, g4, g5⟩⟩
        · exact absurd rfl (hc k (Spec.Kind.mem_all _))
        · obtain rfl := Spec.Kind.typeByte_inj hk2
          exact ⟨hk', hc, h1, extra, by rw [h2, g4], g5⟩
  · rw [parseMessage_unknown hu h1, parseGeneric_eq h1 h2]
    constructor
    · intro h
      rw [Res.ok.injEq] at h
      subst h
      exact ⟨hu, by simp [Spec.kind], .inl ⟨rfl, rfl⟩⟩
    · rintro ⟨hc, hn, ⟨_, rfl⟩ | ⟨k', hk', hk2, _⟩⟩
      · rfl
      · exact absurd hk2 (hu k' (Spec.Kind.mem_all _))

/-- The type byte on the wire of a message. -/
theorem wire_cases (m : Msg) (hs : ∀ s, m ≠ .startup s) :
    ∃ t, Spec.wire m = Spec.standardFrame t (Spec.body m) ∧
      (Spec.kind m = none ∧ m = .generic t (Spec.body m) ∨ ∃ k, Spec.kind m = some k ∧ t = k.typeByte) := by
  cases m
  case startup s => exact absurd rfl (hs s)
  case generic t b => exact ⟨t, rfl, .inl ⟨rfl, rfl⟩⟩
  all_goals exact ⟨_, rfl, .inr ⟨_, rfl, rfl⟩⟩

theorem recvMessage_frame {r : Reader} {t : Byte} {body rest : Bytes} (h : body.length < 2147483648)
    (hr : r.bytes = Spec.standardFrame t body ++ rest) :
    (recvMessage r).1 = parseMessage (newStandardFrame t body) ∧ (recvMessage r).2.bytes = rest ∧
    (recvMessage r).2.final = r.final := by
  obtain ⟨h1, h2, h3⟩ := recvMessage_eq r
  rw [hr, flatStandard_frame t body rest r.final h] at h1 h2
  rw [newStandardFrame_eq]
  exact ⟨h1, h2, h3⟩

theorem recvStartup_frame {r : Reader} {body rest : Bytes} (h : body.length < 2147483648)
    (hr : r.bytes = Spec.startupFrame body ++ rest) :
    (recvStartupMessage r).1 = parseStartupMessage (newStartupFrame body) ∧
    (recvStartupMessage r).2.bytes = rest ∧ (recvStartupMessage r).2.final = r.final := by
  obtain ⟨h1, h2, h3⟩ := recvStartupMessage_eq r
  rw [hr, flatStartup_frame body rest r.final h] at h1 h2
  rw [newStartupFrame_eq]
  exact ⟨h1, h2, h3⟩

theorem parse_wire {m : Msg} {t : Byte} (hm : Spec.Content m)
    (hn : Spec.kind m ≠ some .negotiateProtocolVersion)
    (ht : Spec.kind m = none ∧ m = .generic t (Spec.body m) ∨ ∃ k, Spec.kind m = some k ∧ t = k.typeByte) :
    parseMessage (newStandardFrame t (Spec.body m)) = .ok m := by
  obtain ⟨_, a, b⟩ := C06_standard_frame t (Spec.body m)
  refine (parseMessage_ok_iff a b m).mpr ⟨hm, hn, ?_⟩
  rcases ht with h | ⟨k, hk, hk2⟩
  · exact .inl h
  · exact .inr ⟨k, hk, hk2, [], by simp, by simp⟩

/-- Everything `RecvMessage` can return. -/
theorem recvMessage_ok {r : Reader} {m : Msg} (h : (recvMessage r).1 = .ok m) :
    ∃ t len body, r.bytes = t :: (putUint32 len ++ body) ++ (recvMessage r).2.bytes ∧
      body.length < 2147483648 ∧ body.length = (len - 4).toInt.toNat ∧
      Spec.Content m ∧ Spec.kind m ≠ some .negotiateProtocolVersion ∧
      (Spec.kind m = (none : Option Spec.Kind) ∧ m = .generic t body ∨
        ∃ k, Spec.kind m = some k ∧ t = k.typeByte ∧
          ∃ extra, body = Spec.body m ++ extra ∧ (Spec.takesAll m = true → extra = [])) := by
  obtain ⟨h1, h2, _⟩ := recvMessage_eq r
  rw [h] at h1
  rcases hf : flatStandard r.bytes r.final with ⟨o, rest⟩
  rw [hf] at h1 h2
  cases o with
  | err e => simp at h1
  | panic p => simp at h1
  | ok f =>
    simp only at h1 h2
    obtain ⟨t, len, body, rfl, hb, hl, hlt⟩ := flatStandard_ok hf
    obtain ⟨a, b⟩ := frame_accessors (f := .standard (t :: (putUint32 len ++ body))) rfl
    have := (parseMessage_ok_iff a b m).mp h1.symm
    exact ⟨t, len, body, by rw [hb, h2], hlt, hl, this⟩

theorem recvMessage_wellFormed {r : Reader} {m : Msg} (h : (recvMessage r).1 = .ok m) :
    Spec.WellFormed m ∧ (∀ s, m ≠ .startup s) ∧ Spec.kind m ≠ some .negotiateProtocolVersion := by
  obtain ⟨t, len, body, _, hl, _, hc, hn, hk⟩ := recvMessage_ok h
  refine ⟨⟨hc, ?_⟩, ?_, hn⟩
  · rcases hk with ⟨_, rfl⟩ | ⟨k, _, _, extra, rfl, _⟩
    · exact hl
    · simp at hl; omega
  · rintro s rfl
    rcases hk with ⟨_, hk⟩ | ⟨k, hk, _⟩
    · simp at hk
    · simp [Spec.kind] at hk

theorem roundtrip {m : Msg} {r : Reader} {rest : Bytes} (hm : Spec.WellFormed m) (hs : ∀ s, m ≠ .startup s)
    (hn : Spec.kind m ≠ some .negotiateProtocolVersion) (hr : r.bytes = sendMessage m ++ rest) :
    (recvMessage r).1 = .ok m ∧ (recvMessage r).2.bytes = rest ∧ (recvMessage r).2.final = r.final := by
  rw [sendMessage_eq_wire] at hr
  obtain ⟨t, hw, ht⟩ := wire_cases m hs
  rw [hw] at hr
  obtain ⟨h1, h2, h3⟩ := recvMessage_frame hm.2 hr
  exact ⟨by rw [h1, parse_wire hm.1 hn ht], h2, h3⟩

theorem parseStartup_ok_iff {f : Frame} {b : Bytes} (h : f.messageBody = .ok b) (m : StartupMessage) :
    parseStartupMessage f = .ok m ↔ Spec.Content (.startup m) ∧
      ((m.parameters = [] ∧ b = Spec.int32 m.protocolVersion.toInt) ∨
        ∃ extra, b = Spec.int32 m.protocolVersion.toInt ++ m.parameters.flatMap Spec.startupParameter ++ [0] ++ extra) := by
  unfold parseStartupMessage
  rw [h, Res.bind_ok, Dec.run_ok]
  simp only [startupMessageBody_ok_iff, int32_toInt]
  constructor
  · rintro ⟨r, hc, ⟨h1, h2, h3⟩ | h1⟩
    · exact ⟨hc, .inl ⟨h1, h3⟩⟩
    · exact ⟨hc, .inr ⟨r, by rw [h1]; simp⟩⟩
  · rintro ⟨hc, ⟨h1, h2⟩ | ⟨r, h1⟩⟩
    · exact ⟨[], hc, .inl ⟨h1, rfl, h2⟩⟩
    · exact ⟨r, hc, .inr (by rw [h1]; simp)⟩

theorem startup_roundtrip {m : StartupMessage} {r : Reader} {rest : Bytes} (hm : Spec.WellFormed (.startup m))
    (hr : r.bytes = sendMessage (.startup m) ++ rest) :
    (recvStartupMessage r).1 = .ok m ∧ (recvStartupMessage r).2.bytes = rest ∧
    (recvStartupMessage r).2.final = r.final := by
  rw [sendMessage_eq_wire] at hr
  obtain ⟨h1, h2, h3⟩ := recvStartup_frame hm.2 hr
  refine ⟨?_, h2, h3⟩
  rw [h1]
  refine (parseStartup_ok_iff (C06_startup_frame _).2.2 m).mpr ⟨hm.1, ?_⟩
  by_cases hp : m.parameters = []
  · exact .inl ⟨hp, by simp [Spec.body, hp]⟩
  · exact .inr ⟨[], by simp [Spec.body, hp]⟩

theorem recvStartup_ok {r : Reader} {m : StartupMessage} (h : (recvStartupMessage r).1 = .ok m) :
    ∃ len body, r.bytes = putUint32 len ++ body ++ (recvStartupMessage r).2.bytes ∧
      body.length < 2147483648 ∧ body.length = (len - 4).toInt.toNat ∧ Spec.Content (.startup m) ∧
      ((m.parameters = [] ∧ body = Spec.int32 m.protocolVersion.toInt) ∨
        ∃ extra, body = Spec.int32 m.protocolVersion.toInt ++ m.parameters.flatMap Spec.startupParameter ++ [0] ++
          extra) := by
  obtain ⟨h1, h2, _⟩ := recvStartupMessage_eq r
  rw [h] at h1
  rcases hf : flatStartup r.bytes r.final with ⟨o, rest⟩
  rw [hf] at h1 h2
  cases o with
  | err e => simp at h1
  | panic p => simp at h1
  | ok f =>
    simp only at h1 h2
    obtain ⟨len, body, rfl, hb, hl, hlt⟩ := flatStartup_ok hf
    have b : (Frame.startup (putUint32 len ++ body)).messageBody = .ok body := by
      rw [Frame.messageBody, if_neg (by simp)]; rfl
    exact ⟨len, body, by rw [hb, h2], hlt, hl, (parseStartup_ok_iff b m).mp h1.symm⟩

theorem recvStartup_wellFormed {r : Reader} {m : StartupMessage} (h : (recvStartupMessage r).1 = .ok m) :
    Spec.WellFormed (.startup m) := by
  obtain ⟨len, body, _, hl, _, hc, hk⟩ := recvStartup_ok h
  refine ⟨hc, ?_⟩
  rcases hk with ⟨hp, rfl⟩ | ⟨extra, rfl⟩
  · simpa [Spec.body, hp] using hl
  · simp [Spec.body] at hl ⊢
    split <;> simp <;> omega

/-! ### Unique decoding -/

theorem standardFrame_inj {t1 t2 : Byte} {b1 b2 r1 r2 : Bytes} (h1 : b1.length < 2147483648)
    (h2 : b2.length < 2147483648) (h : Spec.standardFrame t1 b1 ++ r1 = Spec.standardFrame t2 b2 ++ r2) :
    t1 = t2 ∧ b1 = b2 ∧ r1 = r2 := by
  have e1 := flatStandard_frame t1 b1 r1 .eof h1
  have e2 := flatStandard_frame t2 b2 r2 .eof h2
  rw [h, e2] at e1
  simp only [Prod.mk.injEq, Res.ok.injEq, Frame.standard.injEq] at e1
  obtain ⟨e3, rfl⟩ := e1
  unfold Spec.standardFrame at e3
  have l1 : (Spec.int32 (b1.length + 4)).length = 4 := Spec.be_length _ _
  have l2 : (Spec.int32 (b2.length + 4)).length = 4 := Spec.be_length _ _
  injection e3 with e4 e5
  exact ⟨e4.symm, (List.append_inj_right e5 (by rw [l1, l2])).symm, rfl⟩

theorem startupFrame_inj {b1 b2 r1 r2 : Bytes} (h1 : b1.length < 2147483648)
    (h2 : b2.length < 2147483648) (h : Spec.startupFrame b1 ++ r1 = Spec.startupFrame b2 ++ r2) :
    b1 = b2 ∧ r1 = r2 := by
  have e1 := flatStartup_frame b1 r1 .eof h1
  have e2 := flatStartup_frame b2 r2 .eof h2
  rw [h, e2] at e1
  simp only [Prod.mk.injEq, Res.ok.injEq, Frame.startup.injEq] at e1
  obtain ⟨e3, rfl⟩ := e1
  unfold Spec.startupFrame at e3
  have l1 : (Spec.int32 (b1.length + 4)).length = 4 := Spec.be_length _ _
  have l2 : (Spec.int32 (b2.length + 4)).length = 4 := Spec.be_length _ _
  exact ⟨(List.append_inj_right e3 (by rw [l1, l2])).symm, rfl⟩

theorem wire_unique {m1 m2 : Msg} {r1 r2 : Bytes} (h1 : Spec.WellFormed m1) (h2 : Spec.WellFormed m2)
    (s1 : ∀ s, m1 ≠ .startup s) (s2 : ∀ s, m2 ≠ .startup s) (h : Spec.wire m1 ++ r1 = Spec.wire m2 ++ r2) :
    m1 = m2 ∧ r1 = r2 := by
  obtain ⟨t1, w1, k1⟩ := wire_cases m1 s1
  obtain ⟨t2, w2, k2⟩ := wire_cases m2 s2
  rw [w1, w2] at h
  obtain ⟨rfl, hb, rfl⟩ := standardFrame_inj h1.2 h2.2 h
  refine ⟨?_, rfl⟩
  rcases k1 with ⟨_, k1⟩ | ⟨k, k1, rfl⟩ <;> rcases k2 with ⟨_, k2⟩ | ⟨k', k2, e⟩
  · rw [k1, k2, hb]
  · have := h1.1
    rw [k1] at this
    exact absurd e (this k' (Spec.Kind.mem_all _))
  · have := h2.1
    rw [k2] at this
    exact absurd rfl (this k (Spec.Kind.mem_all _))
  · obtain rfl := Spec.Kind.typeByte_inj e
    obtain ⟨_, a, b⟩ := C06_standard_frame k.typeByte (Spec.body m1)
    have e1 := (C12_parser_grammar k (newStandardFrame k.typeByte (Spec.body m1)) m1).mpr
      ⟨k1, h1.1, a, [], by rw [b]; simp, by simp⟩
    have e2 := (C12_parser_grammar k (newStandardFrame k.typeByte (Spec.body m1)) m2).mpr
      ⟨k2, h2.1, a, [], by rw [b, hb]; simp, by simp⟩
    rw [e1] at e2
    simpa using e2

theorem startup_wire_unique {m1 m2 : StartupMessage} {r1 r2 : Bytes} (h1 : Spec.WellFormed (.startup m1))
    (h2 : Spec.WellFormed (.startup m2)) (h : Spec.wire (.startup m1) ++ r1 = Spec.wire (.startup m2) ++ r2) :
    m1 = m2 ∧ r1 = r2 := by
  obtain ⟨a, b, _⟩ := startup_roundtrip (r := ⟨[Spec.wire (.startup m1) ++ r1], .eof⟩) (rest := r1) h1
    (by simp [Reader.bytes, sendMessage_eq_wire])
  obtain ⟨c, d, _⟩ := startup_roundtrip (r := ⟨[Spec.wire (.startup m1) ++ r1], .eof⟩) (rest := r2) h2
    (by rw [h]; simp [Reader.bytes, sendMessage_eq_wire])
  rw [a] at c
  exact ⟨by simpa using c, b.symm.trans d⟩

/-! ### Panics of the dispatch -/

theorem parseMessage_panic_iff {f : Frame} {t : Byte} {b : Bytes} (h1 : f.messageType = .ok t)
    (h2 : f.messageBody = .ok b) : (parseMessage f).IsPanic ↔ Spec.CrashingBody t b := by
  have hno : ∀ k : Spec.Kind, t = k.typeByte → k ≠ .dataRow → k ≠ .rowDescription → ¬ Spec.CrashingBody t b := by
    rintro k rfl hd hr (⟨h, _⟩ | ⟨h, _⟩)
    · exact hr (Spec.Kind.typeByte_inj (b := .rowDescription) h)
    · exact hd (Spec.Kind.typeByte_inj (b := .dataRow) h)
  have fin : ∀ {α : Type} {d : Dec α} (t' : Byte), ¬ (d b).1.IsPanic → ¬ (parseTyped t' f d).IsPanic := by
    intro α d t' hd h
    exact hd ((parseTyped_panic_iff h1 h2).mp h).2
  rcases kind_or_unknown t with ⟨k, rfl⟩ | hu
  · by_cases hk : k = .negotiateProtocolVersion
    · subst hk
      rw [parseMessage_negotiate h1]
      exact iff_of_false (by simp [Res.IsPanic]) (hno _ rfl (by decide) (by decide))
    · rw [parseMessage_known k hk h1]
      cases k
      case negotiateProtocolVersion => exact absurd rfl hk
      case rowDescription =>
        show (parseTyped _ f _).IsPanic ↔ _
        rw [parseTyped_panic_iff h1 h2, map_panic_iff, rowDescriptionBody,
          counted16_panic_iff fieldDescriptor_exact 8 (by decide)]
        constructor
        · rintro ⟨_, c, r, hc0, hc1, hb, hneg | ⟨l, rest, _, _, _, hp⟩⟩
          · exact .inl ⟨rfl, c, r, hc0, hneg, hb⟩
          · exact absurd hp (fieldDescriptor_not_panic rest)
        · rintro (⟨_, c, r, hc0, hneg, hb⟩ | ⟨h, _⟩)
          · exact ⟨rfl, c, r, hc0, by omega, hb, .inl hneg⟩
          · simp [Spec.Kind.typeByte] at h
      case dataRow =>
        show (parseTyped _ f _).IsPanic ↔ _
        rw [parseTyped_panic_iff h1 h2, map_panic_iff, dataRowBody,
          counted16_panic_iff dataRowValue_exact 24 (by decide)]
        constructor
        · rintro ⟨_, c, r, hc0, hc1, hb, hneg | ⟨l, rest, hl, hw, hr, hp⟩⟩
          · exact .inr ⟨rfl, c, r, hc0, hc1, hb, .inl hneg⟩
          · obtain ⟨z, rest', hz0, hz1, rfl⟩ := (dataRowValue_panic_iff rest).mp hp
            exact .inr ⟨rfl, c, r, hc0, hc1, hb, .inr ⟨l, z, rest', hl, fun v hv => hw _ hv v (by simp), hz0, hz1,
              by rw [hr]; simp⟩⟩
        · rintro (⟨h, _⟩ | ⟨_, c, r, hc0, hc1, hb, hneg | ⟨l, z, rest, hl, hw, hz0, hz1, hr⟩⟩)
          · simp [Spec.Kind.typeByte] at h
          · exact ⟨rfl, c, r, hc0, hc1, hb, .inl hneg⟩
          · refine ⟨rfl, c, r, hc0, hc1, hb, .inr ⟨l, Spec.int32 z ++ rest, hl, ?_, by rw [hr]; simp,
              (dataRowValue_panic_iff _).mpr ⟨z, rest, hz0, hz1, rfl⟩⟩⟩
            intro o ho v hv
            have hv : o = some v := by simpa using hv
            exact hw v (hv ▸ ho)
      case emptyQueryResponse =>
        refine iff_of_false ?_ (hno _ rfl (by decide) (by decide))
        show ¬ (parseEmptyQueryResponseMessage f).IsPanic
        unfold parseEmptyQueryResponseMessage
        rw [h1, Res.bind_ok, h2, Res.bind_ok]
        split
        · simp [Res.IsPanic]
        · split <;> simp [Res.IsPanic]
      case terminate =>
        refine iff_of_false ?_ (hno _ rfl (by decide) (by decide))
        show ¬ (parseTerminateMessage f).IsPanic
        unfold parseTerminateMessage
        rw [h1, Res.bind_ok, h2, Res.bind_ok]
        split
        · simp [Res.IsPanic]
        · split <;> simp [Res.IsPanic]
      case authenticationRequest =>
        exact iff_of_false (fin _ (authenticationRequestBody_not_panic b)) (hno _ rfl (by decide) (by decide))
      case errorResponse =>
        refine iff_of_false (fin _ ?_) (hno _ rfl (by decide) (by decide))
        rw [map_panic_iff]
        exact messageFieldsLoop_not_panic _ _ (by omega)
      case noticeResponse =>
        refine iff_of_false (fin _ ?_) (hno _ rfl (by decide) (by decide))
        rw [map_panic_iff]
        exact messageFieldsLoop_not_panic _ _ (by omega)
      all_goals
        refine iff_of_false (fin _ ?_) (hno _ rfl (by decide) (by decide))
        simp only [Dec.bind_panic_iff, ReadBuffer.readString_not_panic, ReadBuffer.readInt32_not_panic,
          ReadBuffer.readByte_not_panic, Dec.pure_not_panic, false_or, and_false,
          exists_const, not_false_eq_true]
  · rw [parseMessage_unknown hu h1, parseGeneric_eq h1 h2]
    refine iff_of_false (by simp [Res.IsPanic]) ?_
    rintro (⟨h, _⟩ | ⟨h, _⟩)
    · exact hu .rowDescription (Spec.Kind.mem_all _) h
    · exact hu .dataRow (Spec.Kind.mem_all _) h

end Gevulot
