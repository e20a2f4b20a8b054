import Verif.Proofs.Conn

/-!
# C11, C13–C23: sending and receiving messages

A `Reader` is a connection: the bytes it delivers in any segmentation, and the error it ends with. In every theorem the
reader is arbitrary, so the statement holds for every segmentation; `rest` is whatever follows on the stream.
-/

namespace Gevulot

/-! ## C11 Every message survives send-then-receive -/

/-- C11. Every well-formed message other than a startup message (received by `RecvStartupMessage`, see C21) and
NegotiateProtocolVersion (see C18). -/
theorem C11_roundtrip (m : Msg) (r : Reader) (rest : Bytes) (hm : Spec.WellFormed m) (hs : ∀ s, m ≠ .startup s)
    (hn : ∀ v o, m ≠ .negotiateProtocolVersion v o) (hr : r.bytes = sendMessage m ++ rest) :
    (recvMessage r).1 = .ok m ∧ (recvMessage r).2.bytes = rest :=
  have hn' : Spec.kind m ≠ some .negotiateProtocolVersion := by
    intro h
    cases m <;> simp [Spec.kind] at h
    exact hn _ _ rfl
  have h := roundtrip hm hs hn' hr
  ⟨h.1, h.2.1⟩

/-- Receiving `n` messages. -/
def recvMessages : (n : Nat) → Reader → List (Res Msg) × Reader
  | 0, r => ([], r)
  | n + 1, r =>
    let (m, r1) := recvMessage r
    let (ms, r2) := recvMessages n r1
    (m :: ms, r2)

/-- C11, for every sequence of such messages on one connection. -/
theorem C11_roundtrip_sequence (ms : List Msg) (r : Reader) (rest : Bytes)
    (hm : ∀ m ∈ ms, Spec.WellFormed m ∧ (∀ s, m ≠ .startup s) ∧ ∀ v o, m ≠ .negotiateProtocolVersion v o)
    (hr : r.bytes = ms.flatMap sendMessage ++ rest) :
    (recvMessages ms.length r).1 = ms.map .ok ∧ (recvMessages ms.length r).2.bytes = rest := by
  induction ms generalizing r with
  | nil => exact ⟨rfl, by simpa [recvMessages] using hr⟩
  | cons m ms ih =>
    rw [List.flatMap_cons, List.append_assoc] at hr
    obtain ⟨a, b, c⟩ := hm m (by simp)
    obtain ⟨h1, h2⟩ := C11_roundtrip m r _ a b c hr
    obtain ⟨g1, g2⟩ := ih (recvMessage r).2 (fun x hx => hm x (by simp [hx])) h2
    simp only [List.length_cons, recvMessages, List.map_cons]
    exact ⟨by rw [h1, g1], g2⟩

example : Spec.WellFormed (.dataRow [none, some [], some [1, 0, 2]]) ∧
    (∀ s, Msg.dataRow [none, some [], some [1, 0, 2]] ≠ .startup s) ∧
    (∀ v o, Msg.dataRow [none, some [], some [1, 0, 2]] ≠ .negotiateProtocolVersion v o) :=
  ⟨by decide, by simp, by simp⟩
example : Spec.WellFormed (.generic 99 [0, 1, 2]) := by decide
example : (recvMessage ⟨[[81, 0], [0, 0, 7, 104], [105], [0, 88]], .eof⟩) = (.ok (.query [104, 105]), ⟨[[88]], .eof⟩) := by
  decide

/-! ## C13 A parser refuses frames of another type -/

/-- C13. -/
theorem C13_wrong_type (k : Spec.Kind) (f : Frame) (t : Byte) (h : f.messageType = .ok t) (hne : t ≠ k.typeByte) :
    parserOf k f = .err .malformed := by
  cases k
  case emptyQueryResponse =>
    show parseEmptyQueryResponseMessage f = _
    unfold parseEmptyQueryResponseMessage
    rw [h, Res.bind_ok]; exact if_pos hne
  case terminate =>
    show parseTerminateMessage f = _
    unfold parseTerminateMessage
    rw [h, Res.bind_ok]; exact if_pos hne
  all_goals exact parseTyped_wrong_type h hne

example : (newStandardFrame 81 [65, 0]).messageType = .ok 81 ∧ (81 : Byte) ≠ Spec.Kind.password.typeByte := by decide

/-! ## C14 Re-encoding a received message is stable -/

/-- C14. Whatever `r` delivered, once `m` was received from it, sending `m` and receiving it again gives `m`. -/
theorem C14_stable (r r' : Reader) (m : Msg) (rest : Bytes) (h : (recvMessage r).1 = .ok m)
    (hr : r'.bytes = sendMessage m ++ rest) : (recvMessage r').1 = .ok m ∧ (recvMessage r').2.bytes = rest := by
  obtain ⟨h1, h2, h3⟩ := recvMessage_wellFormed h
  have := roundtrip h1 h2 h3 hr
  exact ⟨this.1, this.2.1⟩

/-- C14 for startup messages. -/
theorem C14_stable_startup (r r' : Reader) (m : StartupMessage) (rest : Bytes)
    (h : (recvStartupMessage r).1 = .ok m) (hr : r'.bytes = sendMessage (.startup m) ++ rest) :
    (recvStartupMessage r').1 = .ok m ∧ (recvStartupMessage r').2.bytes = rest := by
  have := startup_roundtrip (recvStartup_wellFormed h) hr
  exact ⟨this.1, this.2.1⟩

/-- One gevulot: receive a message and send it on. -/
def hop (s : Bytes) : Res Bytes := do
  let m ← (recvMessage ⟨[s], .eof⟩).1
  pure (sendMessage m)

/-- `n` gevulots in a row. -/
def hops : Nat → Bytes → Res Bytes
  | 0, s => .ok s
  | n + 1, s => do let s' ← hop s; hops n s'

/-- C14, proxying through any number of gevulots gives the same bytes as proxying through one. -/
theorem C14_hops (n : Nat) (s s' : Bytes) (h : hop s = .ok s') : hops (n + 1) s = .ok s' := by
  have fix : hop s' = .ok s' := by
    obtain ⟨m, h1, h2⟩ := Res.bind_eq_ok.mp h
    simp only [Res.pure_eq, Res.ok.injEq] at h2
    subst h2
    have := (C14_stable _ ⟨[sendMessage m], .eof⟩ m [] h1 (by simp [Reader.bytes])).1
    exact Res.bind_eq_ok.mpr ⟨m, this, rfl⟩
  have all : ∀ n, hops n s' = .ok s' := by
    intro n
    induction n with
    | zero => rfl
    | succ n ih => rw [hops, fix, Res.bind_ok, ih]
  rw [hops, h, Res.bind_ok, all]

example : hop [81, 0, 0, 0, 8, 65, 0, 1, 2, 88] = .ok [81, 0, 0, 0, 6, 65, 0] := by decide

/-! ## C15 Relaying is byte-exact for well-formed traffic -/

/-- C15, known types: the frame of a well-formed message comes out unchanged. -/
theorem C15_known (k : Spec.Kind) (m : Msg) (r : Reader) (rest : Bytes) (hk : Spec.kind m = some k)
    (hn : k ≠ .negotiateProtocolVersion) (hm : Spec.WellFormed m)
    (hr : r.bytes = Spec.standardFrame k.typeByte (Spec.body m) ++ rest) :
    (recvMessage r).1 = .ok m ∧ sendMessage m = Spec.standardFrame k.typeByte (Spec.body m) ∧
    (recvMessage r).2.bytes = rest := by
  have hs : ∀ s, m ≠ .startup s := by rintro s rfl; simp [Spec.kind] at hk
  have hw : Spec.wire m = Spec.standardFrame k.typeByte (Spec.body m) := by
    obtain ⟨t, h1, ⟨h2, _⟩ | ⟨k', h2, h3⟩⟩ := wire_cases m hs
    · rw [hk] at h2; simp at h2
    · rw [hk, Option.some.injEq] at h2
      rw [h1, h3, ← h2]
  rw [← hw, ← sendMessage_eq_wire] at hr
  have := roundtrip hm hs (by rw [hk]; simpa using hn) hr
  exact ⟨this.1, by rw [sendMessage_eq_wire, hw], this.2.1⟩

/-- C15, unknown types: any frame whatsoever comes out unchanged. -/
theorem C15_unknown (t : Byte) (body rest : Bytes) (r : Reader) (ht : ∀ k ∈ Spec.Kind.all, t ≠ k.typeByte)
    (hb : body.length < 2147483648) (hr : r.bytes = Spec.standardFrame t body ++ rest) :
    ∃ m, (recvMessage r).1 = .ok m ∧ sendMessage m = Spec.standardFrame t body ∧ (recvMessage r).2.bytes = rest := by
  refine ⟨.generic t body, ?_⟩
  have h := roundtrip (m := .generic t body) (r := r) (rest := rest) ⟨ht, hb⟩ (by simp) (by simp [Spec.kind])
    (by rw [sendMessage_eq_wire]; exact hr)
  exact ⟨h.1, sendMessage_eq_wire _, h.2.1⟩

/-- C15, the exact limit: a received frame is relayed unchanged iff its body is exactly the encoding of the message
received (otherwise what follows it in the frame is dropped). -/
theorem C15_exact_iff (t : Byte) (body rest : Bytes) (r : Reader) (m : Msg) (hb : body.length < 2147483648)
    (hr : r.bytes = Spec.standardFrame t body ++ rest) (h : (recvMessage r).1 = .ok m) :
    (∃ extra, body = Spec.body m ++ extra ∧ sendMessage m = Spec.standardFrame t (Spec.body m)) ∧
    (sendMessage m = Spec.standardFrame t body ↔ body = Spec.body m) := by
  obtain ⟨h1, _, _⟩ := recvMessage_frame hb hr
  rw [h] at h1
  obtain ⟨_, a, b⟩ := C06_standard_frame t body
  obtain ⟨hc, hn, hk⟩ := (parseMessage_ok_iff a b m).mp h1.symm
  obtain ⟨hw, hs, _⟩ := recvMessage_wellFormed h
  have key : ∃ extra, body = Spec.body m ++ extra ∧ sendMessage m = Spec.standardFrame t (Spec.body m) := by
    rw [sendMessage_eq_wire]
    rcases hk with ⟨_, rfl⟩ | ⟨k, hk, rfl, extra, he, _⟩
    · exact ⟨[], by simp [Spec.body], rfl⟩
    · obtain ⟨t', w, ⟨k1, _⟩ | ⟨k', k1, k2⟩⟩ := wire_cases m hs
      · rw [hk] at k1; simp at k1
      · rw [hk, Option.some.injEq] at k1
        subst k1
        exact ⟨extra, he, by rw [w, k2]⟩
  refine ⟨key, ?_⟩
  obtain ⟨extra, he, hsend⟩ := key
  rw [hsend]
  constructor
  · intro heq
    have := standardFrame_inj (r1 := []) (r2 := []) hw.2 hb (by rw [heq])
    exact this.2.1.symm
  · rintro rfl; rfl

example : Spec.kind (.errorResponse [⟨83, [70]⟩]) = some .errorResponse ∧
    Spec.WellFormed (.errorResponse [⟨83, [70]⟩]) := by decide
example : ∀ k ∈ Spec.Kind.all, (49 : Byte) ≠ k.typeByte := by decide
example : (recvMessage ⟨[[90, 0, 0, 0, 6, 73, 9]], .eof⟩).1 = .ok (.readyForQuery 73) := by decide

/-! ## C16 Rows keep their columns, order and NULLs -/

/-- C16, a row on the wire (values in order, NULL as size -1) is received with exactly its values. -/
theorem C16_row (values : List (Option Bytes)) (extra rest : Bytes) (r : Reader) (hn : values.length < 32768)
    (hb : (Spec.int16 values.length ++ values.flatMap Spec.rowValue ++ extra).length < 2147483648)
    (hr : r.bytes =
      Spec.standardFrame 68 (Spec.int16 values.length ++ values.flatMap Spec.rowValue ++ extra) ++ rest) :
    (recvMessage r).1 = .ok (.dataRow values) := by
  obtain ⟨h1, _, _⟩ := recvMessage_frame hb hr
  rw [h1]
  obtain ⟨_, a, b⟩ := C06_standard_frame 68 (Spec.int16 values.length ++ values.flatMap Spec.rowValue ++ extra)
  refine (parseMessage_ok_iff a b _).mpr ⟨⟨hn, ?_⟩, by simp [Spec.kind], .inr ⟨.dataRow, rfl, rfl, extra, rfl, ?_⟩⟩
  · intro o ho v hv
    have hv : o = some v := by simpa using hv
    subst hv
    have : (Spec.rowValue (some v)).length ≤ (values.flatMap Spec.rowValue).length := by
      obtain ⟨l1, l2, rfl⟩ := List.append_of_mem ho
      simp; omega
    simp [Spec.rowValue] at this hb
    omega
  · simp [Spec.takesAll]

/-- C16, conversely a row that was received was on the wire with exactly these values. -/
theorem C16_row_conv (values : List (Option Bytes)) (r : Reader) (h : (recvMessage r).1 = .ok (.dataRow values)) :
    ∃ len extra, len.length = 4 ∧ r.bytes =
      [68] ++ len ++ (Spec.int16 values.length ++ values.flatMap Spec.rowValue ++ extra) ++ (recvMessage r).2.bytes := by
  obtain ⟨t, len, body, hr, _, _, _, _, hk⟩ := recvMessage_ok h
  rcases hk with ⟨hk, _⟩ | ⟨k, hk, rfl, extra, rfl, _⟩
  · simp [Spec.kind] at hk
  · simp only [Spec.kind, Option.some.injEq] at hk
    subst hk
    exact ⟨putUint32 len, extra, rfl, by rw [hr]; simp [Spec.body, Spec.Kind.typeByte]⟩

/-- C16, a row description on the wire is received with exactly its fields. -/
theorem C16_description (fields : List FieldDescriptor) (extra rest : Bytes) (r : Reader)
    (hn : fields.length < 32768) (hnul : ∀ f ∈ fields, Spec.NulFree f.name)
    (hb : (Spec.int16 fields.length ++ fields.flatMap Spec.rowField ++ extra).length < 2147483648)
    (hr : r.bytes =
      Spec.standardFrame 84 (Spec.int16 fields.length ++ fields.flatMap Spec.rowField ++ extra) ++ rest) :
    (recvMessage r).1 = .ok (.rowDescription fields) := by
  obtain ⟨h1, _, _⟩ := recvMessage_frame hb hr
  rw [h1]
  obtain ⟨_, a, b⟩ := C06_standard_frame 84 (Spec.int16 fields.length ++ fields.flatMap Spec.rowField ++ extra)
  exact (parseMessage_ok_iff a b _).mpr
    ⟨⟨hn, hnul⟩, by simp [Spec.kind], .inr ⟨.rowDescription, rfl, rfl, extra, rfl, by simp [Spec.takesAll]⟩⟩

/-- C16, and conversely. -/
theorem C16_description_conv (fields : List FieldDescriptor) (r : Reader)
    (h : (recvMessage r).1 = .ok (.rowDescription fields)) :
    ∃ len extra, len.length = 4 ∧ r.bytes =
      [84] ++ len ++ (Spec.int16 fields.length ++ fields.flatMap Spec.rowField ++ extra) ++
        (recvMessage r).2.bytes := by
  obtain ⟨t, len, body, hr, _, _, _, _, hk⟩ := recvMessage_ok h
  rcases hk with ⟨hk, _⟩ | ⟨k, hk, rfl, extra, rfl, _⟩
  · simp [Spec.kind] at hk
  · simp only [Spec.kind, Option.some.injEq] at hk
    subst hk
    exact ⟨putUint32 len, extra, rfl, by rw [hr]; simp [Spec.body, Spec.Kind.typeByte]⟩

example : (recvMessage ⟨[[68, 0, 0, 0, 19, 0, 3], [255, 255, 255, 255, 0, 0, 0, 0, 0, 0, 0, 1, 7]], .eof⟩).1 =
    .ok (.dataRow [none, some [], some [7]]) := by decide
example : Spec.NulFree (⟨[105, 100], 16384, 1, 23, 4, 0xFFFFFFFF, 0⟩ : FieldDescriptor).name := by decide

/-! ## C17 Authentication requests are decoded by status code -/

/-- The table of the protocol documentation: what an authentication request with this status code and this data after
it means. -/
def Spec.authRequest (status : Int) (data : Bytes) : Res Msg :=
  if status = 0 then .ok .authOk
  else if status = 2 then .ok .authKerberosV5
  else if status = 3 then .ok .authCleartextPassword
  else if status = 5 then
    match data with
    | a :: b :: c :: d :: _ => .ok (.authMD5Password ⟨a, b, c, d⟩)
    | _ => .err .eof
  else if status = 6 then .ok .authSCMCredential
  else if status = 7 then .ok .authGSS
  else if status = 8 then .ok (.authGSSContinue data)
  else if status = 9 then .ok .authSSPI
  else .err .unsupportedAuth

/-- C17, every status code, every data. -/
theorem C17_decode (status : Int) (data : Bytes) (h0 : -2147483648 ≤ status) (h1 : status < 2147483648) :
    parseAuthenticationRequestMessage (newStandardFrame 82 (Spec.int32 status ++ data)) =
      Spec.authRequest status data := by
  obtain ⟨_, a, b⟩ := C06_standard_frame 82 (Spec.int32 status ++ data)
  obtain ⟨e1, e2⟩ := int32_ofInt h0 h1
  unfold parseAuthenticationRequestMessage parseTyped
  rw [a, Res.bind_ok, if_neg (by decide), b, Res.bind_ok]
  unfold Dec.run authenticationRequestBody
  rw [e1, Dec.bind_of_ok (ReadBuffer.readInt32_append _ _)]
  have hcode : ∀ n : Nat, n < 10 → (BitVec.ofInt 32 status = BitVec.ofNat 32 n ↔ status = n) := by
    intro n hn
    constructor
    · intro h
      rw [h] at e2
      rw [← e2, toInt_ofNat32 (by omega)]
    · rintro rfl
      rfl
  have c0 := hcode 0 (by omega)
  have c2 := hcode 2 (by omega)
  have c3 := hcode 3 (by omega)
  have c5 := hcode 5 (by omega)
  have c6 := hcode 6 (by omega)
  have c7 := hcode 7 (by omega)
  have c8 := hcode 8 (by omega)
  have c9 := hcode 9 (by omega)
  by_cases s0 : status = 0
  · subst s0; rfl
  by_cases s2 : status = 2
  · subst s2; rfl
  by_cases s3 : status = 3
  · subst s3; rfl
  by_cases s5 : status = 5
  · subst s5
    rcases data with _ | ⟨x, _ | ⟨y, _ | ⟨c, _ | ⟨d, data⟩⟩⟩⟩
    · rfl
    · rfl
    · rfl
    · rfl
    · show ((do let salt ← ReadBuffer.readBytes 4; pure (Msg.authMD5Password (Salt.copyFrom salt)) : Dec Msg)
        (x :: y :: c :: d :: data)).1 = _
      have : ReadBuffer.readBytes 4 (x :: y :: c :: d :: data) = (.ok [x, y, c, d], data) := by
        have := ReadBuffer.readBytes_append [x, y, c, d] data
        simpa using this
      rw [Dec.bind_of_ok this]
      rfl
  by_cases s6 : status = 6
  · subst s6; rfl
  by_cases s7 : status = 7
  · subst s7; rfl
  by_cases s8 : status = 8
  · subst s8
    show ((do let d ← readRest; pure (Msg.authGSSContinue d) : Dec Msg) data).1 = _
    rw [Dec.bind_of_ok (readRest_ok_iff.mpr ⟨rfl, rfl⟩)]
    rfl
  by_cases s9 : status = 9
  · subst s9; rfl
  have hnone : authStatusMap (BitVec.ofInt 32 status) = none := by
    cases hk : authStatusMap (BitVec.ofInt 32 status) with
    | none => rfl
    | some k =>
      have := authStatusMap_some.mp hk
      cases k
      · exact absurd (c0.mp this) s0
      · exact absurd (c2.mp this) s2
      · exact absurd (c3.mp this) s3
      · exact absurd (c5.mp this) s5
      · exact absurd (c6.mp this) s6
      · exact absurd (c7.mp this) s7
      · exact absurd (c8.mp this) s8
      · exact absurd (c9.mp this) s9
  unfold Spec.authRequest
  rw [hnone, if_neg s0, if_neg s2, if_neg s3, if_neg s5, if_neg s6, if_neg s7, if_neg s8, if_neg s9]
  rfl

/-- C17, a request shorter than its status code is an error. -/
theorem C17_short (data : Bytes) (h : data.length < 4) :
    parseAuthenticationRequestMessage (newStandardFrame 82 data) = .err .eof := by
  obtain ⟨_, a, b⟩ := C06_standard_frame 82 data
  unfold parseAuthenticationRequestMessage parseTyped
  rw [a, Res.bind_ok, if_neg (by decide), b, Res.bind_ok]
  unfold Dec.run authenticationRequestBody
  rw [Dec.bind_of_err (ReadBuffer.readInt32_short h)]

/-- C17, each request encodes its own code. -/
theorem C17_encode (salt : Salt) (data : Bytes) :
    sendMessage .authOk = Spec.standardFrame 82 (Spec.int32 0) ∧
    sendMessage .authKerberosV5 = Spec.standardFrame 82 (Spec.int32 2) ∧
    sendMessage .authCleartextPassword = Spec.standardFrame 82 (Spec.int32 3) ∧
    sendMessage (.authMD5Password salt) =
      Spec.standardFrame 82 (Spec.int32 5 ++ [salt.b0, salt.b1, salt.b2, salt.b3]) ∧
    sendMessage .authSCMCredential = Spec.standardFrame 82 (Spec.int32 6) ∧
    sendMessage .authGSS = Spec.standardFrame 82 (Spec.int32 7) ∧
    sendMessage (.authGSSContinue data) = Spec.standardFrame 82 (Spec.int32 8 ++ data) ∧
    sendMessage .authSSPI = Spec.standardFrame 82 (Spec.int32 9) := by
  simp only [sendMessage_eq_wire]
  exact ⟨rfl, rfl, rfl, rfl, rfl, rfl, rfl, rfl⟩

example : Spec.authRequest 5 [1, 2, 3, 4, 5] = .ok (.authMD5Password ⟨1, 2, 3, 4⟩) := rfl
example : Spec.authRequest 10 [1, 2] = .err .unsupportedAuth := rfl

/-! ## C18 NegotiateProtocolVersion messages are relayed -/

/-- C18 is false, and not only for some messages: none is ever received (the dispatch of `RecvMessage` sends the frame
to the NoticeResponse parser, which refuses its type). -/
theorem C18_refuted (supported : BitVec 32) (options : List Bytes) (rest : Bytes) (r : Reader)
    (hm : Spec.WellFormed (.negotiateProtocolVersion supported options))
    (hr : r.bytes = sendMessage (.negotiateProtocolVersion supported options) ++ rest) :
    (recvMessage r).1 = .err .malformed := by
  rw [sendMessage_eq_wire] at hr
  obtain ⟨h1, _, _⟩ := recvMessage_frame (t := 118) hm.2 hr
  rw [h1]
  exact parseMessage_negotiate (C06_standard_frame _ _).2.1

/-- C18, what holds: the message's own parser gives it back. Missing: `RecvMessage` does not call it. -/
theorem C18_partial (supported : BitVec 32) (options : List Bytes)
    (hm : Spec.WellFormed (.negotiateProtocolVersion supported options)) :
    parseNegotiateProtocolVersionMessage (Msg.negotiateProtocolVersion supported options).frame =
      .ok (.negotiateProtocolVersion supported options) := by
  have hf : (Msg.negotiateProtocolVersion supported options).frame =
      newStandardFrame 118 (Spec.body (.negotiateProtocolVersion supported options)) := by
    show newStandardFrame _ (writeNegotiate _ _) = _
    rw [writeNegotiate_eq]; rfl
  rw [hf]
  obtain ⟨_, a, b⟩ := C06_standard_frame 118 (Spec.body (.negotiateProtocolVersion supported options))
  exact (C12_parser_grammar .negotiateProtocolVersion _ _).mpr ⟨rfl, hm.1, a, [], by rw [b]; simp, by simp⟩

example : Spec.WellFormed (.negotiateProtocolVersion 196608 [[95, 112, 113]]) := by decide

/-! ## C19 No bytes from a peer can crash the proxy -/

/-- C19 is false: nine bytes from the database (a DataRow with one value of size -2) or seven bytes (a RowDescription
with -1 fields) make `RecvMessage` panic. -/
theorem C19_refuted :
    (recvMessage ⟨[[68, 0, 0, 0, 10, 0, 1, 255, 255, 255, 254]], .eof⟩).1 = .panic .sliceBounds ∧
    (recvMessage ⟨[[84, 0, 0, 0, 6, 255, 255]], .eof⟩).1 = .panic .makeLen := by decide

/-- C19, exactly which frames crash `RecvMessage`. Full claim (none) is refuted above. -/
theorem C19_recvMessage_partial (t : Byte) (body rest : Bytes) (r : Reader) (hb : body.length < 2147483648)
    (hr : r.bytes = Spec.standardFrame t body ++ rest) :
    (recvMessage r).1.IsPanic ↔ Spec.CrashingBody t body := by
  obtain ⟨h1, _, _⟩ := recvMessage_frame hb hr
  rw [h1]
  obtain ⟨_, a, b⟩ := C06_standard_frame t body
  exact parseMessage_panic_iff a b

/-- C19, a stream on which `RecvMessage` panics starts with such a frame (so it never panics on a truncated frame,
and never on a frame of another type). -/
theorem C19_recvMessage_only_partial (r : Reader) (h : (recvMessage r).1.IsPanic) :
    ∃ t len body rest, len.length = 4 ∧ r.bytes = [t] ++ len ++ body ++ rest ∧ Spec.CrashingBody t body := by
  obtain ⟨h1, _, _⟩ := recvMessage_eq r
  rw [h1] at h
  rcases hf : flatStandard r.bytes r.final with ⟨o, rest⟩
  rw [hf] at h
  cases o with
  | err e => simp [Res.IsPanic] at h
  | panic p =>
    have := flatStandard_no_panic r.bytes r.final p
    rw [hf] at this
    simp at this
  | ok f =>
    obtain ⟨t, len, body, rfl, hb, _, _⟩ := flatStandard_ok hf
    obtain ⟨a, b⟩ := frame_accessors (f := .standard (t :: (putUint32 len ++ body))) rfl
    exact ⟨t, putUint32 len, body, rest, rfl, by rw [hb]; simp, (parseMessage_panic_iff a b).mp h⟩

/-- C19 holds for `RecvStartupMessage`: no byte stream makes it panic. -/
theorem C19_recvStartupMessage_partial (r : Reader) : ¬ (recvStartupMessage r).1.IsPanic := by
  obtain ⟨h1, _, _⟩ := recvStartupMessage_eq r
  rw [h1]
  rcases hf : flatStartup r.bytes r.final with ⟨o, rest⟩
  cases o with
  | err e => simp [Res.IsPanic]
  | panic p =>
    have := flatStartup_no_panic r.bytes r.final p
    rw [hf] at this
    simp at this
  | ok f =>
    obtain ⟨len, body, rfl, _⟩ := flatStartup_ok hf
    have b : (Frame.startup (putUint32 len ++ body)).messageBody = .ok body := by
      rw [Frame.messageBody, if_neg (by simp)]; rfl
    show ¬ (parseStartupMessage _).IsPanic
    unfold parseStartupMessage
    rw [b, Res.bind_ok]
    exact startupMessageBody_not_panic body

example : Spec.CrashingBody 68 [0, 2, 0, 0, 0, 1, 9, 255, 255, 255, 0, 4] :=
  .inr ⟨rfl, 2, [0, 0, 0, 1, 9, 255, 255, 255, 0, 4], by decide, by decide, by decide,
    .inr ⟨[some [9]], -256, [4], by decide, by simp, by decide, by decide, by decide⟩⟩

/-! ## C20 Counts never overflow their wire field -/

/-- The number a big-endian 2-byte two's complement field denotes. -/
def Spec.signed16 (field : Bytes) : Int := (Spec.value field : Int).bmod 65536

theorem signed16_ofNat (n : Nat) : Spec.signed16 (Spec.int16 n) = (n : Int).bmod 65536 := by
  unfold Spec.signed16 Spec.int16
  rw [Spec.value_be]
  have : ((n : Int) % 65536).toNat % 65536 = n % 65536 := by omega
  simp only [Nat.reducePow]
  rw [this]
  simp [Int.bmod_def]

theorem signed16_iff (n : Nat) : Spec.signed16 (Spec.int16 n) = n ↔ n < 32768 := by
  rw [signed16_ofNat, Int.bmod_def]
  split <;> omega

/-- C20 is false: with 32768 columns the count on the wire is -32768 (and such a message crashes a gevulot that
receives it, C19). -/
theorem C20_refuted : ∃ values : List (Option Bytes),
    Spec.signed16 (((sendMessage (.dataRow values)).drop 5).take 2) ≠ values.length := by
  refine ⟨List.replicate 32768 none, ?_⟩
  rw [sendMessage_eq_wire]
  show Spec.signed16 ((Spec.int16 _ ++ _).take 2) ≠ _
  rw [List.take_left' (show (Spec.int16 _).length = 2 from Spec.be_length 2 _)]
  intro h
  have := (signed16_iff _).mp h
  rw [List.length_replicate] at this
  omega

/-- C20, the exact limit: the count on the wire is the number of columns iff there are fewer than 32768 (missing from the
full claim: the rest). -/
theorem C20_partial (values : List (Option Bytes)) (fields : List FieldDescriptor) :
    (Spec.signed16 (((sendMessage (.dataRow values)).drop 5).take 2) = values.length ↔ values.length < 32768) ∧
    (Spec.signed16 (((sendMessage (.rowDescription fields)).drop 5).take 2) = fields.length ↔
      fields.length < 32768) := by
  constructor
  · rw [sendMessage_eq_wire, ← signed16_iff]
    show Spec.signed16 ((Spec.int16 _ ++ _).take 2) = _ ↔ _
    rw [List.take_left' (show (Spec.int16 _).length = 2 from Spec.be_length 2 _)]
  · rw [sendMessage_eq_wire, ← signed16_iff]
    show Spec.signed16 ((Spec.int16 _ ++ _).take 2) = _ ↔ _
    rw [List.take_left' (show (Spec.int16 _).length = 2 from Spec.be_length 2 _)]

/-! ## C21 Startup messages round-trip with parameter order -/

/-- C21, on a connection. -/
theorem C21_roundtrip (m : StartupMessage) (r : Reader) (rest : Bytes)
    (hc : ∀ p ∈ m.parameters, p.name ≠ [] ∧ Spec.NulFree p.name ∧ Spec.NulFree p.value)
    (hl : (Spec.body (.startup m)).length < 2147483648) (hr : r.bytes = sendMessage (.startup m) ++ rest) :
    (recvStartupMessage r).1 = .ok m ∧ (recvStartupMessage r).2.bytes = rest := by
  have := startup_roundtrip ⟨hc, hl⟩ hr
  exact ⟨this.1, this.2.1⟩

/-- C21, `ParseStartupMessage` after `Frame` (no limit on the size). -/
theorem C21_parse_frame (m : StartupMessage)
    (hc : ∀ p ∈ m.parameters, p.name ≠ [] ∧ Spec.NulFree p.name ∧ Spec.NulFree p.value) :
    parseStartupMessage (Msg.startup m).frame = .ok m := by
  show parseStartupMessage (newStartupFrame (writeStartup m)) = _
  refine (parseStartup_ok_iff (C06_startup_frame _).2.2 m).mpr ⟨hc, ?_⟩
  rw [writeStartup_eq]
  by_cases hp : m.parameters = []
  · exact .inl ⟨hp, by simp [Spec.body, hp]⟩
  · exact .inr ⟨[], by simp [Spec.body, hp]⟩

/-- C21, exactly which bodies `ParseStartupMessage` accepts and what it makes of them: the version alone; or the version,
the parameters in order, the terminating zero byte and ignored bytes. -/
theorem C21_grammar (b : Bytes) (m : StartupMessage) :
    parseStartupMessage (newStartupFrame b) = .ok m ↔
      (∀ p ∈ m.parameters, p.name ≠ [] ∧ Spec.NulFree p.name ∧ Spec.NulFree p.value) ∧
      ((m.parameters = [] ∧ b = Spec.int32 m.protocolVersion.toInt) ∨
        ∃ extra, b = Spec.int32 m.protocolVersion.toInt ++
          m.parameters.flatMap (fun p => Spec.cstr p.name ++ Spec.cstr p.value) ++ [0] ++ extra) :=
  parseStartup_ok_iff (C06_startup_frame b).2.2 m

example : ∀ p ∈ (⟨196608, [⟨[117], [97]⟩, ⟨[117], []⟩]⟩ : StartupMessage).parameters,
    p.name ≠ [] ∧ Spec.NulFree p.name ∧ Spec.NulFree p.value := by decide
example : (recvStartupMessage ⟨[[0, 0, 0, 13, 0, 3, 0, 0, 117], [0, 97, 0, 0]], .eof⟩).1 =
    .ok ⟨196608, [⟨[117], [97]⟩]⟩ := by decide

/-! ## C22 GetParameter returns the first value of a name -/

/-- C22, the first parameter of that name gives the value. -/
theorem C22_first (v : BitVec 32) (before after : List StartupParameter) (p : StartupParameter)
    (h : ∀ q ∈ before, q.name ≠ p.name) :
    StartupMessage.getParameter ⟨v, before ++ p :: after⟩ p.name = p.value := by
  unfold StartupMessage.getParameter
  simp only
  induction before with
  | nil => simp [StartupMessage.getParameter.go]
  | cons q qs ih =>
    rw [List.cons_append, StartupMessage.getParameter.go, if_neg (h q (by simp))]
    exact ih fun x hx => h x (by simp [hx])

/-- C22, no parameter of that name gives the empty string. -/
theorem C22_absent (m : StartupMessage) (name : Bytes) (h : ∀ q ∈ m.parameters, q.name ≠ name) :
    m.getParameter name = [] := by
  unfold StartupMessage.getParameter
  generalize m.parameters = ps at h
  induction ps with
  | nil => rfl
  | cons q qs ih =>
    rw [StartupMessage.getParameter.go, if_neg (h q (by simp))]
    exact ih fun x hx => h x (by simp [hx])

/-- C22, the empty string is returned iff there is no such parameter or the first one is empty. -/
theorem C22_empty_iff (m : StartupMessage) (name : Bytes) :
    m.getParameter name = [] ↔ (∀ q ∈ m.parameters, q.name ≠ name) ∨
      ∃ before after, m.parameters = before ++ ⟨name, []⟩ :: after ∧ ∀ q ∈ before, q.name ≠ name := by
  constructor
  · intro h
    obtain ⟨v, ps⟩ := m
    by_cases hn : ∀ q ∈ ps, q.name ≠ name
    · exact .inl hn
    · right
      have hf : ∃ p before after, ps = before ++ p :: after ∧ p.name = name ∧ ∀ q ∈ before, q.name ≠ name := by
        clear h
        induction ps with
        | nil => simp at hn
        | cons q qs ih =>
          by_cases hq : q.name = name
          · exact ⟨q, [], qs, rfl, hq, by simp⟩
          · have : ¬ ∀ x ∈ qs, x.name ≠ name := by
              intro hx
              apply hn
              intro y hy
              rcases List.mem_cons.mp hy with rfl | hy
              · exact hq
              · exact hx y hy
            obtain ⟨p, b, a, rfl, h2, h3⟩ := ih this
            refine ⟨p, q :: b, a, rfl, h2, ?_⟩
            intro y hy
            rcases List.mem_cons.mp hy with rfl | hy
            · exact hq
            · exact h3 y hy
      obtain ⟨p, b, a, rfl, rfl, h3⟩ := hf
      rw [C22_first v b a p h3] at h
      refine ⟨b, a, ?_, h3⟩
      simp only
      congr 2
      cases p; simp_all
  · rintro (h | ⟨b, a, h1, h2⟩)
    · exact C22_absent m name h
    · obtain ⟨v, ps⟩ := m
      simp only at h1
      subst h1
      exact C22_first v b a ⟨name, []⟩ h2

example : StartupMessage.getParameter ⟨0, [⟨[1], [2]⟩, ⟨[3], [4]⟩, ⟨[3], [5]⟩]⟩ [3] = [4] := by decide
example : ∀ q ∈ ([⟨[1], [2]⟩] : List StartupParameter), q.name ≠ (⟨[3], [4]⟩ : StartupParameter).name := by decide

/-! ## C23 Message encoding is unambiguous -/

/-- C23, no two different messages share an encoding and none is a prefix of another's. -/
theorem C23_prefix_free (m1 m2 : Msg) (r1 r2 : Bytes) (h1 : Spec.WellFormed m1) (h2 : Spec.WellFormed m2)
    (s1 : ∀ s, m1 ≠ .startup s) (s2 : ∀ s, m2 ≠ .startup s) (h : sendMessage m1 ++ r1 = sendMessage m2 ++ r2) :
    m1 = m2 ∧ r1 = r2 := by
  rw [sendMessage_eq_wire, sendMessage_eq_wire] at h
  exact wire_unique h1 h2 s1 s2 h

/-- C23, startup messages among themselves. -/
theorem C23_prefix_free_startup (m1 m2 : StartupMessage) (r1 r2 : Bytes) (h1 : Spec.WellFormed (.startup m1))
    (h2 : Spec.WellFormed (.startup m2)) (h : sendMessage (.startup m1) ++ r1 = sendMessage (.startup m2) ++ r2) :
    m1 = m2 ∧ r1 = r2 := by
  rw [sendMessage_eq_wire, sendMessage_eq_wire] at h
  exact startup_wire_unique h1 h2 h

theorem sendMessage_ne_nil (m : Msg) (hs : ∀ s, m ≠ .startup s) : sendMessage m ≠ [] := by
  rw [sendMessage_eq_wire]
  obtain ⟨t, h, _⟩ := wire_cases m hs
  rw [h]; simp [Spec.standardFrame]

/-- C23, a stream of messages splits in messages in only one way. -/
theorem C23_unique_split (l1 l2 : List Msg) (h1 : ∀ m ∈ l1, Spec.WellFormed m ∧ ∀ s, m ≠ .startup s)
    (h2 : ∀ m ∈ l2, Spec.WellFormed m ∧ ∀ s, m ≠ .startup s) (h : l1.flatMap sendMessage = l2.flatMap sendMessage) :
    l1 = l2 := by
  induction l1 generalizing l2 with
  | nil =>
    cases l2 with
    | nil => rfl
    | cons m ms =>
      have := sendMessage_ne_nil m (h2 m (by simp)).2
      simp at h
      exact absurd h.1 this
  | cons m ms ih =>
    cases l2 with
    | nil =>
      have := sendMessage_ne_nil m (h1 m (by simp)).2
      simp at h
      exact absurd h.1 this
    | cons m' ms' =>
      rw [List.flatMap_cons, List.flatMap_cons] at h
      obtain ⟨rfl, h3⟩ := C23_prefix_free m m' _ _ (h1 m (by simp)).1 (h2 m' (by simp)).1 (h1 m (by simp)).2
        (h2 m' (by simp)).2 h
      rw [ih ms' (fun x hx => h1 x (by simp [hx])) (fun x hx => h2 x (by simp [hx])) h3]

example : Spec.WellFormed (.parameterStatus [65] []) ∧ Spec.WellFormed (.query [83]) ∧ Spec.WellFormed .terminate := by
  decide

end Gevulot
