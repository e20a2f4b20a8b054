import Verif.Props.FullSession

/-!
# C92–C94: clients that do not behave like others

`s` ranges over every state a whole session (Model/FullSession.lean) can reach; `parse` is `pg.ParseDatabaseURI`, arbitrary here.
-/

namespace Gevulot.FullSession

open SessionModel (Peer)

variable {parse : Bytes → Option ConnectionParams}

/-! ## C92 The handshake takes a bounded amount of stack -/

/-- The calls of `negotiateSessionParams` that have not returned: it calls itself after each SSL request, session.go:172. -/
def depth (s : State) : Nat :=
  match s.hs with
  | .idle => 0
  | .recv => s.packets.length + 1
  | _ => s.packets.length

/-- C92: there is a bound on the depth of the recursion. (False.) -/
def C92_claim : Prop :=
  ∃ n, ∀ (parse : Bytes → Option ConnectionParams) (s : State), Reachable (step parse) init s → depth s ≤ n

/-- The handshake waits for a packet, after `n` SSL requests. -/
structure Asking (s : State) (n : Nat) : Prop where
  hs : s.hs = .recv
  start : s.base.start = .negotiating
  crashed : s.base.crashed = false
  isOpen : (s.base.conn .client).isOpen = true
  ended : (s.base.conn .client).ended = none
  unread : (s.base.conn .client).unread = []
  packets : s.packets.length = n

theorem tryRecv_ssl (c : SessionModel.PeerConn) (h1 : c.isOpen = true) (h2 : c.ended = none) (h3 : c.unread = Spec.sslRequestPacket) :
    tryRecvStartup c = some (.ok ⟨80877103, []⟩, []) := by
  unfold tryRecvStartup
  simp only [h1, h2, h3]
  decide +kernel

theorem asking_next {s : State} {n : Nat} (h : Asking s n) :
    ∃ s', run (step parse) s [.base (.peerSends .client Spec.sslRequestPacket), .recvStartup, .reply true] = some s' ∧ Asking s' (n + 1) := by
  obtain ⟨h1, h2, h3, h4, h5, h6, h7⟩ := h
  have e1 : ∃ s1, step parse s (.base (.peerSends .client Spec.sslRequestPacket)) = some s1 ∧ s1.hs = .recv ∧ s1.base.start = .negotiating ∧
      s1.base.crashed = false ∧ (s1.base.conn .client).isOpen = true ∧ (s1.base.conn .client).ended = none ∧
      (s1.base.conn .client).unread = Spec.sslRequestPacket ∧ s1.packets = s.packets := by
    simp only [step, isHandshake, SessionModel.step, h3, h5, if_true, Option.map_some, Bool.false_eq_true, if_false]
    exact ⟨_, rfl, by simp [h1], by simp [h2], rfl, by simp [h4], rfl, by simp [h6], rfl⟩
  obtain ⟨s1, e1, a1, a2, a3, a4, a5, a6, a7⟩ := e1
  have e2 : ∃ s2, step parse s1 .recvStartup = some s2 ∧ s2.hs = .reply ∧ s2.base.start = .negotiating ∧
      s2.base.crashed = false ∧ (s2.base.conn .client).isOpen = true ∧ (s2.base.conn .client).ended = none ∧
      (s2.base.conn .client).unread = [] ∧ s2.packets.length = n + 1 := by
    have hl : (8 : Nat) ≤ Spec.sslRequestPacket.length := by decide
    simp only [step, a1, tryRecv_ssl _ a4 a5 a6, SessionModel.step, a2, a3, a6, List.length_nil, Nat.sub_zero, Nat.le_refl, and_self, if_true, Bool.false_eq_true, if_false,
      Option.bind_some, sslRequestMagic]
    exact ⟨_, rfl, rfl, rfl, rfl, by simp [a4], by simp [a5], by simp, by simp [a7, h7]⟩
  obtain ⟨s2, e2, b1, b2, b3, b4, b5, b6, b7⟩ := e2
  have e3 : ∃ s3, step parse s2 (.reply true) = some s3 ∧ Asking s3 (n + 1) := by
    simp only [step, b1, SessionModel.step, b2, b3, b4, and_self, if_true, Bool.false_eq_true, if_false, Option.map_some]
    exact ⟨_, rfl, rfl, rfl, rfl, by simp, by simp [b5], by simp [b6], by simp [b7]⟩
  obtain ⟨s3, e3, c1⟩ := e3
  exact ⟨s3, by simp [run, e1, e2, e3], c1⟩

/-- C92 is false: a client that goes on sending SSL requests gets the recursion as deep as it likes. (The stack of a goroutine is
limited to 1 GB; beyond that the process is ended.) -/
theorem C92_refuted : ¬ C92_claim := by
  rintro ⟨n, hc⟩
  have key : ∀ k, ∃ s, Reachable (step exampleParse) init s ∧ Asking s k := by
    intro k
    induction k with
    | zero =>
      refine ⟨after [.base .callStart], after_reachable _ (by decide +kernel), ?_⟩
      exact ⟨by rfl, by decide +kernel, by decide +kernel, by decide +kernel, by decide +kernel, by decide +kernel, by decide +kernel⟩
    | succ k ih =>
      obtain ⟨s, hr, ha⟩ := ih
      obtain ⟨s', hs, ha'⟩ := asking_next (parse := exampleParse) ha
      exact ⟨s', hr.trans ⟨_, hs⟩, ha'⟩
  obtain ⟨s, hr, ha⟩ := key n
  have := hc exampleParse s hr
  rw [depth, ha.hs, ha.packets] at this
  exact absurd this (Nat.not_succ_le_self n)

/-- An SSL request has at least 8 bytes. -/
theorem ssl_length {b : Bytes} (h : Spec.SSLRequest b) : 8 ≤ b.length := by
  obtain ⟨m, hm, _⟩ := h
  obtain ⟨r, hr, hb⟩ := hm [] .eof
  obtain ⟨pkt, g3, g4⟩ := recvStartup_consumes hr
  have g3' : b.length = pkt.length := by
    have := congrArg List.length g3
    rw [hb] at this
    simpa [Reader.bytes] using this
  omega

/-- C92_partial: each call but the first is due to an SSL request: the client has sent at least so many, 8 bytes each or more, before anything else. -/
theorem C92_partial (s : State) (h : Reachable (step parse) init s) :
    ∃ (requests : List Bytes) (tail : Bytes), (∀ b ∈ requests, Spec.SSLRequest b ∧ 8 ≤ b.length) ∧
      (s.base.conn .client).sent = requests.flatten ++ tail ∧ depth s - 1 ≤ requests.length := by
  have hi := hinv_of_reachable h
  obtain ⟨relayed, _, _, _, g1, _⟩ := SessionModel.C33 s.base (base_reachable h) .client
  have g1' : (s.base.conn .client).sent = s.base.hsRead ++ relayed := g1
  obtain ⟨junk, r1, _⟩ := hi.read
  have key : ∃ ssl other, s.packets = ssl ++ other ∧ AllSSL ssl ∧ depth s - 1 ≤ ssl.length := by
    have hst := hi.stage
    unfold Stage at hst
    unfold depth
    have ho : ∀ m, Opened s.packets m → ∃ ssl other, s.packets = ssl ++ other ∧ AllSSL ssl ∧ s.packets.length - 1 ≤ ssl.length := by
      intro m hm
      obtain ⟨ssl, b, hm1, hm2⟩ := hm
      exact ⟨ssl, [(b, m)], hm1, hm2, by rw [hm1]; simp⟩
    split at hst <;> rename_i hh <;> rw [hh]
    · exact ⟨s.packets, [], by simp, hst.2.1, by simp⟩
    · exact ⟨s.packets, [], by simp, hst.2.1, by simp⟩
    · exact ho _ hst.2.1
    · exact ho _ hst.2.1
    · exact ho _ hst.2.1
    · exact ho _ hst.2.1
    · exact ⟨[], s.packets, rfl, by simp [AllSSL], by simp⟩
  obtain ⟨ssl, other, k1, k2, k3⟩ := key
  refine ⟨ssl.map Prod.fst, other.flatMap Prod.fst ++ junk ++ relayed, ?_, by rw [g1', r1, k1]; simp [List.flatMap], by simpa using k3⟩
  intro b hb
  obtain ⟨x, hx, rfl⟩ := List.mem_map.mp hb
  have : Spec.SSLRequest x.1 := ⟨x.2, hi.valid x (by rw [k1]; simp [hx]), k2 x hx⟩
  exact ⟨this, ssl_length this⟩

/-! ## C93 Clients can cancel their queries -/

/-- A CancelRequest: its length, its code, the process and the secret key of the session (as in BackendKeyData). -/
def cancelRequest (pid key : BitVec 32) : Bytes := Spec.int32 16 ++ Spec.int32 80877102 ++ putUint32 pid ++ putUint32 key

/-- C93: a cancel request is passed on to the database. (False.) -/
def C93_claim : Prop :=
  ∀ (parse : Bytes → Option ConnectionParams) (s : State), Reachable (step parse) init s → ∀ pid key,
    (s.base.conn .client).sent = cancelRequest pid key → s.base.crashed = false → s.base.start ≠ .notCalled → Settled parse s →
    (s.base.conn .db).written = cancelRequest pid key

/-- What the first 8 bytes of a startup packet are. -/
theorem packet_version {b x : Bytes} {m : StartupMessage} (h : Spec.StartupPacket b m) :
    ((b ++ x).drop 4).take 4 = Spec.int32 m.protocolVersion.toInt := by
  obtain ⟨r, h1, h2⟩ := h x .eof
  obtain ⟨len, body, hb, _, _, _, hk⟩ := recvStartup_ok (r := ⟨[b ++ x], .eof⟩) (by rw [h1])
  have hb' : b ++ x = putUint32 len ++ body ++ (recvStartupMessage ⟨[b ++ x], .eof⟩).2.bytes := by simpa [Reader.bytes] using hb
  have l : ∀ v : Int, (Spec.int32 v).length = 4 := fun v => Spec.be_length _ _
  have l' : (putUint32 len).length = 4 := rfl
  rw [hb', List.append_assoc, List.drop_append_of_le_length (by omega), ← l', List.drop_length, List.nil_append, l']
  rcases hk with ⟨_, rfl⟩ | ⟨extra, rfl⟩
  · rw [List.take_append_of_le_length (by rw [l]; omega), ← l m.protocolVersion.toInt, List.take_length]
  · simp only [List.append_assoc]
    rw [List.take_append_of_le_length (by rw [l]; omega), ← l m.protocolVersion.toInt, List.take_length]

/-- A cancel request is a complete frame. -/
theorem tryRecvStartup_cancel {c : SessionModel.PeerConn} {pid key : BitVec 32} {more : Bytes} (h : c.unread = cancelRequest pid key ++ more) :
    tryRecvStartup c ≠ none := by
  intro hn
  unfold tryRecvStartup at hn
  split at hn
  · simp at hn
  · split at hn
    · simp at hn
    · split at hn
      · simp at hn
      · rename_i e r hf
        have hx : (readStartupFrame ⟨[c.unread], .eof⟩).1 = (flatStartup c.unread .eof).1 := by
          simpa [Reader.bytes] using (readStartupFrame_flat ⟨[c.unread], .eof⟩).1
        have hl : (cancelRequest pid key ++ more).length = 16 + more.length := by simp [cancelRequest, Spec.int32, Spec.be_length, putUint32]; omega
        have hb : beUint32 (cancelRequest pid key ++ more) = .ok 16#32 := by rfl
        rw [hf, h, flatStartup, hb, if_neg (by omega)] at hx
        simp only [List.length_drop, hl] at hx
        rw [if_pos (by simp; omega)] at hx
        simp at hx
      · simp at hn

/-- C93_partial: a cancel request does no harm: if what the client has sent begins with one, then the database is not even dialled; and
when gevulot has nothing left to do, the client has been disconnected. -/
theorem C93_partial (s : State) (h : Reachable (step parse) init s) (pid key : BitVec 32) (more : Bytes)
    (hsent : (s.base.conn .client).sent = cancelRequest pid key ++ more) :
    s.dialed = [] ∧ (s.base.conn .db).written = [] ∧
    (s.base.crashed = false → s.base.start ≠ .notCalled → Settled parse s →
      s.base.start = .returned ∧ (s.base.conn .client).isOpen = false) := by
  have first : ∀ b x m, (s.base.conn .client).sent = b ++ x → Spec.StartupPacket b m →
      m.protocolVersion.toNat ≠ 80877103 ∧ m.protocolVersion.toNat ≠ 196608 := by
    intro b x m hb hm
    have hx : (((s.base.conn .client).sent).drop 4).take 4 = Spec.int32 80877102 := by
      rw [hsent]; rfl
    rw [hb, packet_version hm] at hx
    constructor
    · intro hv
      have hv : m.protocolVersion = 80877103#32 := BitVec.eq_of_toNat_eq hv
      rw [hv] at hx
      revert hx; decide
    · intro hv
      have hv : m.protocolVersion = 196608#32 := BitVec.eq_of_toNat_eq hv
      rw [hv] at hx
      revert hx; decide
  have hn : ¬ (s.dialed ≠ [] ∨ (s.base.conn .db).written ≠ []) := by
    intro hd
    obtain ⟨requests, pkt, relayed, _, _, m, _, _, h1, h2, h3, _, _, _, h7, _⟩ := C67_db s h hd
    cases requests with
    | nil => exact (first pkt relayed m (by simpa using h3) h2).2 h7.1
    | cons b bs =>
      obtain ⟨mb, hb, hbv⟩ := h1 b (by simp)
      exact (first b (bs.flatten ++ pkt ++ relayed) mb (by simpa using h3) hb).1 hbv
  have hd : s.dialed = [] := Classical.byContradiction fun hx => hn (.inl hx)
  refine ⟨hd, Classical.byContradiction fun hx => hn (.inr hx), fun hc hcalled hrest => ?_⟩
  rcases C69_rest s h hc hcalled hrest with ⟨hx, hnone⟩ | hx | hx
  · exfalso
    have hi := hinv_of_reachable h
    have hst := hi.stage
    unfold Stage at hst
    rw [hx] at hst
    obtain ⟨junk, r1, r2⟩ := hi.read
    have hj : junk = [] := junk_nil hx (by simp) r2
    have hu : (s.base.conn .client).sent = s.base.hsRead ++ (s.base.conn .client).unread :=
      (hi.early.pumps .client (not_started hi.early (by rw [hst.1]; rfl))).2.2.2.2.1
    rw [r1, hj, List.append_nil] at hu
    cases hp : s.packets with
    | nil =>
      rw [hp] at hu
      simp only [List.flatMap_nil, List.nil_append] at hu
      exact tryRecvStartup_cancel (hu.symm.trans hsent) hnone
    | cons y ys =>
      have hy : y ∈ s.packets := by rw [hp]; simp
      rw [hp] at hu
      exact (first y.1 (ys.flatMap Prod.fst ++ (s.base.conn .client).unread) y.2 (by simpa using hu) (hi.valid y hy)).1 (hst.2.1 y hy)
  · exact absurd hd hx
  · exact hx

/-- A session that has been refused in its handshake, and closed. -/
theorem settled_of_closed {s : State} (h0 : s.hs = .idle) (h1 : ∀ p, s.base.inPump p = .notStarted ∧ s.base.outPump p = .notStarted)
    (h5 : s.base.proc = .notStarted) (h6 : s.base.start = .returned) (h7 : s.base.closer = .done) (h8 : s.base.crashed = false) : Settled parse s := by
  intro a ha
  cases a with
  | base a =>
    cases a with
    | inRecv p => simp [step, isHandshake, SessionModel.step, h8, h1]
    | inSend p => simp [step, isHandshake, SessionModel.step, h8, h1]
    | procRecv p => simp [step, isHandshake, SessionModel.step, h8, h5]
    | procSend => simp [step, isHandshake, SessionModel.step, h8, h5]
    | outRecv p => simp [step, isHandshake, SessionModel.step, h8, h1]
    | outWrite p f => simp [step, isHandshake, SessionModel.step, h8, h1]
    | closeStep => simp [step, isHandshake, SessionModel.step, h8, h7]
    | join => simp [step, isHandshake, SessionModel.step, h8, h6]
    | startFinish => simp [step, isHandshake, SessionModel.step, h8, h6]
    | _ => simp [Internal, SessionModel.Action.isSession] at ha
  | _ => simp [step, h0]

/-- A client asks to cancel a query. -/
def cancelling : List Action :=
  [.base (.peerSends .client (cancelRequest 4711 12345678)), .base .callStart, .recvStartup, .base .startFinish] ++ List.replicate 6 (.base .closeStep) ++
  [.base .startFinish]

theorem cancelling_settled : Settled exampleParse (after cancelling) :=
  settled_of_closed rfl (by intro p; cases p <;> decide +kernel) (by decide +kernel) (by decide +kernel) (by decide +kernel) (by decide +kernel)

/-- C93 is false: the client is disconnected, and the database hears nothing of it. -/
theorem C93_refuted : ¬ C93_claim := by
  intro hc
  have := hc exampleParse (after cancelling) (after_reachable _ (by decide +kernel)) 4711 12345678 (by decide +kernel) (by decide +kernel)
    (by decide +kernel) cancelling_settled
  revert this
  decide +kernel

/-! ## C94 A refused client is told why -/

/-- C94: a client that is refused gets an ErrorResponse before its connection is closed. (False.) -/
def C94_claim : Prop :=
  ∀ (parse : Bytes → Option ConnectionParams) (s : State), Reachable (step parse) init s → s.base.crashed = false → s.base.start = .returned →
    s.packets ≠ [] → s.dialed = [] → Settled parse s → ∃ pre fields, (s.base.conn .client).written = pre ++ Spec.wire (.errorResponse fields)

/-- C94 is false: a client that asks for another database is disconnected without a word. -/
theorem C94_refuted : ¬ C94_claim := by
  intro hc
  obtain ⟨pre, fields, h⟩ := hc exampleParse (after refused) (after_reachable _ (by decide +kernel)) (by decide +kernel) (by decide +kernel)
    (by intro hx; have := congrArg List.length hx; revert this; decide +kernel) (by decide +kernel)
    (settled_of_closed rfl (by intro p; cases p <;> decide +kernel) (by decide +kernel) (by decide +kernel) (by decide +kernel) (by decide +kernel))
  have hw : ((after refused).base.conn .client).written = [] := by decide +kernel
  rw [hw] at h
  simp [Spec.wire, Spec.standardFrame, Spec.kind] at h

/-- C94_partial: as long as the database has not been dialled, the client gets nothing but the answers to its SSL requests. -/
theorem C94_partial (s : State) (h : Reachable (step parse) init s) (hd : s.dialed = []) :
    ∃ (requests : List Bytes) (tail : Bytes) (k : Nat), (∀ b ∈ requests, Spec.SSLRequest b ∧ 8 ≤ b.length) ∧
      (s.base.conn .client).sent = requests.flatten ++ tail ∧ k ≤ requests.length ∧
      (s.base.conn .client).written = List.replicate k Spec.no := by
  obtain ⟨requests, tail, _, w, _, k, h1, h2, h3, h4, _, _, h5⟩ := C67_client s h
  exact ⟨requests, tail, k, fun b hb => ⟨h1 b hb, ssl_length (h1 b hb)⟩, h2, by omega, by rw [h4, h5 hd, List.append_nil]⟩

/-! ## Examples -/

/-- C92_partial: two SSL requests. -/
def pressing : List Action :=
  [.base .callStart] ++ [.base (.peerSends .client Spec.sslRequestPacket), .recvStartup, .reply true] ++
    [.base (.peerSends .client Spec.sslRequestPacket), .recvStartup, .reply true]

example : Reachable (step exampleParse) init (after pressing) ∧ depth (after pressing) = 3 ∧ (after pressing).dialed = [] ∧
    ((after pressing).base.conn .client).written = [Spec.no, Spec.no] :=
  ⟨after_reachable _ (by decide +kernel), by decide +kernel, by decide +kernel, by decide +kernel⟩

end Gevulot.FullSession
