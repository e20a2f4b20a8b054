import Verif.Proofs.Messages

/-!
# C11–C23: messages
-/

namespace Gevulot

/-- The exported parser of each kind of message. -/
def parserOf : Spec.Kind → Frame → Res Msg
  | .authenticationRequest => parseAuthenticationRequestMessage
  | .backendKeyData => parseBackendKeyDataMessage
  | .commandComplete => parseCommandCompleteMessage
  | .dataRow => parseDataRowMessage
  | .emptyQueryResponse => parseEmptyQueryResponseMessage
  | .errorResponse => parseErrorResponseMessage
  | .noticeResponse => parseNoticeResponseMessage
  | .negotiateProtocolVersion => parseNegotiateProtocolVersionMessage
  | .parameterStatus => parseParameterStatusMessage
  | .password => parsePasswordMessage
  | .query => parseQueryMessage
  | .readyForQuery => parseReadyForQueryMessage
  | .rowDescription => parseRowDescriptionMessage
  | .terminate => parseTerminateMessage

/-! ## C12 Parsers accept exactly the protocol grammar -/

/-- C12. Each parser returns `m` iff `m` is of its kind with expressible content, the frame has the kind's type byte, and
its body is the encoding of `m` followed by arbitrary bytes (none where the format has no room for any). -/
theorem C12_parser_grammar (k : Spec.Kind) (f : Frame) (m : Msg) :
    parserOf k f = .ok m ↔
      Spec.kind m = some k ∧ Spec.Content m ∧ f.messageType = .ok k.typeByte ∧
      ∃ extra, f.messageBody = .ok (Spec.body m ++ extra) ∧ (Spec.takesAll m = true → extra = []) := by
  have body_of : ∀ {k : Spec.Kind} {α : Type} {d : Dec α} {enc : α → Bytes} {wf : α → Prop} (_ : Dec.Exact d enc wf)
      (c : α → Msg) (t : Byte), t = k.typeByte →
      (∀ a, Spec.kind (c a) = some k ∧ Spec.body (c a) = enc a ∧ (Spec.Content (c a) ↔ wf a) ∧
        Spec.takesAll (c a) = false) →
      (∀ m, Spec.kind m = some k → ∃ a, m = c a) →
      (parseTyped t f (do let x ← d; pure (c x)) = .ok m ↔
        Spec.kind m = some k ∧ Spec.Content m ∧ f.messageType = .ok k.typeByte ∧
        ∃ extra, f.messageBody = .ok (Spec.body m ++ extra) ∧ (Spec.takesAll m = true → extra = [])) := by
    intro k α d enc wf hd c t ht hc hm
    rw [parseTyped_ok_iff, ht]
    constructor
    · rintro ⟨h1, b, r, h2, h3⟩
      obtain ⟨a, rfl, hw, rfl⟩ := (map_ok_iff hd c _ _ _).mp h3
      obtain ⟨c1, c2, c3, c4⟩ := hc a
      exact ⟨c1, c3.mpr hw, h1, r, by rw [c2]; exact h2, by simp [c4]⟩
    · rintro ⟨h1, h2, h3, r, h4, _⟩
      obtain ⟨a, rfl⟩ := hm m h1
      obtain ⟨c1, c2, c3, c4⟩ := hc a
      exact ⟨h3, _, r, h4, (map_ok_iff hd c _ _ _).mpr ⟨a, rfl, c3.mp h2, by rw [c2]⟩⟩
  have empty_of : ∀ (k : Spec.Kind) (m0 : Msg) (t : Byte), t = k.typeByte → Spec.kind m0 = some k →
      Spec.body m0 = [] → Spec.Content m0 → Spec.takesAll m0 = true → (∀ m, Spec.kind m = some k → m = m0) →
      ((do
        let mt ← f.messageType
        if mt ≠ t then .err .malformed
        else do
          let b ← f.messageBody
          if b.length > 0 then .err .malformed else pure m0 : Res Msg) = .ok m ↔
        Spec.kind m = some k ∧ Spec.Content m ∧ f.messageType = .ok k.typeByte ∧
        ∃ extra, f.messageBody = .ok (Spec.body m ++ extra) ∧ (Spec.takesAll m = true → extra = [])) := by
    intro k m0 t ht hk hb hc hta hm
    rw [Res.bind_eq_ok, ht]
    constructor
    · rintro ⟨mt, h1, h2⟩
      split at h2
      · simp at h2
      · rename_i hmt
        obtain ⟨b, h3, h4⟩ := Res.bind_eq_ok.mp h2
        split at h4
        · simp at h4
        · rename_i hl
          simp only [Res.pure_eq, Res.ok.injEq] at h4
          subst h4
          have hb0 : b = [] := List.eq_nil_of_length_eq_zero (by omega)
          have : mt = k.typeByte := Decidable.not_not.mp hmt
          exact ⟨hk, hc, this ▸ h1, [], by rw [h3, hb, hb0]; rfl, by simp⟩
    · rintro ⟨h1, h2, h3, extra, h4, h5⟩
      obtain rfl := hm m h1
      have := h5 hta
      subst this
      rw [hb] at h4
      refine ⟨_, h3, ?_⟩
      rw [if_neg (by simp)]
      refine Res.bind_eq_ok.mpr ⟨_, h4, ?_⟩
      simp
  cases k
  case authenticationRequest =>
    show parseTyped _ f authenticationRequestBody = _ ↔ _
    rw [parseTyped_ok_iff]
    constructor
    · rintro ⟨h1, b, r, h2, h3⟩
      obtain ⟨g1, rfl, g3⟩ := (authenticationRequestBody_ok_iff _ _ _).mp h3
      refine ⟨g1, ?_, h1, r, h2, g3⟩
      cases m <;> simp [Spec.kind] at g1 <;> trivial
    · rintro ⟨h1, _, h3, r, h4, h5⟩
      exact ⟨h3, _, r, h4, (authenticationRequestBody_ok_iff _ _ _).mpr ⟨h1, rfl, h5⟩⟩
  case backendKeyData =>
    show parseTyped _ f _ = _ ↔ _
    rw [parseTyped_ok_iff]
    simp only [Dec.bind_ok_iff, Dec.pure_apply, Prod.mk.injEq, Res.ok.injEq, ReadBuffer.readInt32_ok_iff]
    constructor
    · rintro ⟨h1, b, r, h2, v, b1, rfl, w, b2, rfl, rfl, rfl⟩
      refine ⟨rfl, trivial, h1, b2, ?_, by simp [Spec.takesAll]⟩
      rw [h2, Spec.body, int32_toInt, int32_toInt, List.append_assoc]
    · rintro ⟨h1, _, h3, r, h4, _⟩
      obtain ⟨v, w, rfl⟩ : ∃ v w, m = .backendKeyData v w := by cases m <;> simp [Spec.kind] at h1 ⊢
      refine ⟨h3, _, r, h4, v, putUint32 w ++ r, ?_, w, r, rfl, rfl, rfl⟩
      rw [Spec.body, int32_toInt, int32_toInt, List.append_assoc]
  case parameterStatus =>
    show parseTyped _ f _ = _ ↔ _
    rw [parseTyped_ok_iff]
    simp only [Dec.bind_ok_iff, Dec.pure_apply, Prod.mk.injEq, Res.ok.injEq, ReadBuffer.readString_ok_iff]
    constructor
    · rintro ⟨h1, b, r, h2, v, b1, ⟨hv, rfl⟩, w, b2, ⟨hw, rfl⟩, rfl, rfl⟩
      refine ⟨rfl, ⟨hv, hw⟩, h1, b2, ?_, by simp [Spec.takesAll]⟩
      rw [h2]; simp [Spec.body, Spec.cstr]
    · rintro ⟨h1, hc, h3, r, h4, _⟩
      obtain ⟨v, w, rfl⟩ : ∃ v w, m = .parameterStatus v w := by cases m <;> simp [Spec.kind] at h1 ⊢
      refine ⟨h3, _, r, h4, v, Spec.cstr w ++ r, ⟨hc.1, ?_⟩, w, r, ⟨hc.2, ?_⟩, rfl, rfl⟩
      · simp [Spec.body, Spec.cstr]
      · simp [Spec.cstr]
  case commandComplete =>
    refine body_of Dec.Exact.readString .commandComplete _ rfl (fun a => ⟨rfl, rfl, Iff.rfl, rfl⟩) fun m hm => ?_
    cases m <;> simp [Spec.kind] at hm ⊢
  case password =>
    refine body_of Dec.Exact.readString .password _ rfl (fun a => ⟨rfl, rfl, Iff.rfl, rfl⟩) fun m hm => ?_
    cases m <;> simp [Spec.kind] at hm ⊢
  case query =>
    refine body_of Dec.Exact.readString .query _ rfl (fun a => ⟨rfl, rfl, Iff.rfl, rfl⟩) fun m hm => ?_
    cases m <;> simp [Spec.kind] at hm ⊢
  case readyForQuery =>
    refine body_of Dec.Exact.readByte .readyForQuery _ rfl (fun a => ⟨rfl, rfl, Iff.rfl, rfl⟩) fun m hm => ?_
    cases m <;> simp [Spec.kind] at hm ⊢
  case dataRow =>
    refine body_of dataRowBody_exact .dataRow _ rfl (fun a => ⟨rfl, rfl, ?_, rfl⟩) fun m hm => ?_
    · simp only [Spec.Content]
      constructor
      · rintro ⟨h1, h2⟩; exact ⟨h1, fun o ho v hv => h2 o ho v (by simp [hv])⟩
      · rintro ⟨h1, h2⟩; exact ⟨h1, fun o ho v hv => h2 o ho v (by simpa using hv)⟩
    · cases m <;> simp [Spec.kind] at hm ⊢
  case rowDescription =>
    refine body_of rowDescriptionBody_exact .rowDescription _ rfl (fun a => ⟨rfl, rfl, Iff.rfl, rfl⟩) fun m hm => ?_
    cases m <;> simp [Spec.kind] at hm ⊢
  case errorResponse =>
    refine body_of messageFields_exact .errorResponse _ rfl (fun a => ⟨rfl, rfl, Iff.rfl, rfl⟩) fun m hm => ?_
    cases m <;> simp [Spec.kind] at hm ⊢
  case noticeResponse =>
    refine body_of messageFields_exact .noticeResponse _ rfl (fun a => ⟨rfl, rfl, Iff.rfl, rfl⟩) fun m hm => ?_
    cases m <;> simp [Spec.kind] at hm ⊢
  case negotiateProtocolVersion =>
    show parseTyped _ f _ = _ ↔ _
    rw [parseTyped_ok_iff]
    constructor
    · rintro ⟨h1, b, r, h2, h3⟩
      have hm : ∃ s o, m = .negotiateProtocolVersion s o := by
        obtain ⟨s, b1, _, h4⟩ := Dec.bind_ok_iff.mp h3
        obtain ⟨c, b2, _, h5⟩ := Dec.bind_ok_iff.mp h4
        obtain ⟨n, b3, _, h6⟩ := Dec.bind_ok_iff.mp h5
        obtain ⟨o, b4, _, h7⟩ := Dec.bind_ok_iff.mp h6
        simp only [Dec.pure_apply, Prod.mk.injEq, Res.ok.injEq] at h7
        exact ⟨s, o, h7.1.symm⟩
      obtain ⟨s, o, rfl⟩ := hm
      obtain ⟨g1, rfl⟩ := (negotiateBody_exact s o b r).mp h3
      exact ⟨rfl, g1, h1, r, h2, by simp [Spec.takesAll]⟩
    · rintro ⟨h1, hc, h3, r, h4, _⟩
      obtain ⟨s, o, rfl⟩ : ∃ s o, m = .negotiateProtocolVersion s o := by cases m <;> simp [Spec.kind] at h1 ⊢
      exact ⟨h3, _, r, h4, (negotiateBody_exact s o _ r).mpr ⟨hc, rfl⟩⟩
  case emptyQueryResponse =>
    refine empty_of _ .emptyQueryResponse _ rfl rfl rfl trivial rfl fun m hm => ?_
    cases m <;> simp [Spec.kind] at hm ⊢
  case terminate =>
    refine empty_of _ .terminate _ rfl rfl rfl trivial rfl fun m hm => ?_
    cases m <;> simp [Spec.kind] at hm ⊢

example : parserOf .dataRow (newStandardFrame 68 [0, 2, 255, 255, 255, 255, 0, 0, 0, 1, 65, 9]) =
    .ok (.dataRow [none, some [65]]) := by decide
example : Spec.Content (.errorResponse [⟨67, [52, 50]⟩, ⟨77, []⟩]) := by decide

end Gevulot
