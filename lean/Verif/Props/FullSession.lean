import Verif.Proofs.FullSession
import Verif.Props.Session
import Verif.Props.Handshake

/-!
# C67–C69: a session from end to end

`s` ranges over every state that a session (Model/FullSession.lean) can reach: its handshake, the two peers, the five
goroutines and any number of calls of `Close`, interleaved in any way; `parse` is `ParseDatabaseURI`.
`(s.base.conn p).sent` is everything peer `p` has sent so far, `(s.base.conn p).written` everything it was sent.
-/

namespace Gevulot.FullSession

open SessionModel (Peer)

variable {parse : Bytes → Option ConnectionParams}

/-! ## C67 What either side sees of the other -/

/-- C67, the database's side. If the session has dialled, or written to the database, then the client sent SSL requests, then
a startup packet `pkt` decoded as `m`, then `relayed`; one configuration was asked for, it admits `m`, and its address was
the only one dialled; and the database got a prefix of: the encoding of `m`, then the encodings of the messages in
`relayed`, in order. -/
theorem C67_db (s : State) (h : Reachable (step parse) init s) (hd : s.dialed ≠ [] ∨ (s.base.conn .db).written ≠ []) :
    ∃ (requests : List Bytes) (pkt relayed rest url : Bytes) (m : StartupMessage) (settings : ConnectionParams) (ms : List Msg),
      (∀ b ∈ requests, Spec.SSLRequest b) ∧ Spec.StartupPacket pkt m ∧
      (s.base.conn .client).sent = requests.flatten ++ pkt ++ relayed ∧ Spec.Stream relayed ms rest ∧
      s.configs = [some url] ∧ parse url = some settings ∧ Spec.Admitted m settings ∧
      s.dialed = [joinHostPort (settings.get (ascii "host")) (settings.get (ascii "port"))] ∧
      (s.base.conn .db).written <+: sendMessage (.startup m) ++ ms.flatMap sendMessage := by
  have hi := hinv_of_reachable h
  have key : ∃ m settings, Opened s.packets m ∧ Config parse s.configs m settings ∧ s.dialed = [address settings] ∧
      s.base.hsWritten .db <+: sendMessage (.startup m) ∧
      (s.base.proc ≠ .notStarted → s.base.hsWritten .db = sendMessage (.startup m)) := by
    have hst := hi.stage
    have nope : s.dialed = [] → s.base.proc = .notStarted → s.base.hsWritten .db = [] → False := by
      intro h1 h2 h3
      rcases hd with hd | hd
      · exact hd h1
      · exact hd (by rw [(hi.early.pumps .db h2).2.2.2.2.2, h3])
    have ns : s.base.start.inHandshake = true → s.base.proc = .notStarted := not_started hi.early
    unfold Stage at hst
    split at hst
    · exact (nope hst.2.2.2.2.1 (ns (by rw [hst.1]; rfl)) hst.2.2.2.2.2).elim
    · exact (nope hst.2.2.2.2.1 (ns (by rw [hst.1]; rfl)) hst.2.2.2.2.2).elim
    · exact (nope hst.2.2.2.2.2.1 (ns (by rw [hst.1]; rfl)) hst.2.2.2.2.2.2).elim
    · exact (nope hst.2.2.2.2.1 (ns (by rw [hst.1]; rfl)) hst.2.2.2.2.2).elim
    · obtain ⟨h1, h2, _, settings, h4, h5, h6⟩ := hst
      exact ⟨_, settings, h2, h4, h5, by rw [h6]; exact List.nil_prefix, fun hx => absurd (ns (by rw [h1]; rfl)) hx⟩
    · obtain ⟨h1, h2, _, settings, h4, h5, h6⟩ := hst
      exact ⟨_, settings, h2, h4, h5, by rw [h6]; exact List.nil_prefix, fun hx => absurd (ns (by rw [h1]; rfl)) hx⟩
    · rcases hst.2 with ⟨_, h1, _, h2, h3, _⟩ | ⟨m, settings, _, h1, _, h2, h3, h4, h5⟩
      · exact (nope h1 h3 h2).elim
      · exact ⟨m, settings, h1, h2, h3, h4, h5⟩
  obtain ⟨m, settings, ⟨ssl, pkt, hp, hssl⟩, ⟨url, hc1, hc2, hc3⟩, hdial, hw, hw'⟩ := key
  obtain ⟨relayed, rest, w, ms, g1, g2, g3, g4⟩ := SessionModel.C33 s.base (base_reachable h) .client
  obtain ⟨junk, r1, r2⟩ := hi.read
  have hj : junk = [] := Decidable.byContradiction fun hj => by rw [hdial] at r2; simpa using (r2 hj).2.1
  refine ⟨ssl.map Prod.fst, pkt, relayed, rest, url, m, settings, ms, ?_, ?_, ?_, g2, hc1, hc2, hc3, hdial, ?_⟩
  · intro b hb
    obtain ⟨x, hx, rfl⟩ := List.mem_map.mp hb
    exact ⟨x.2, hi.valid x (by rw [hp]; simp [hx]), hssl x hx⟩
  · exact hi.valid (pkt, m) (by rw [hp]; simp)
  · rw [g1]
    show s.base.hsRead ++ relayed = _
    rw [r1, hj, hp, List.flatMap_append]
    simp [List.flatMap]
  · by_cases hn : s.base.proc = .notStarted
    · rw [(hi.early.pumps .db hn).2.2.2.2.2]
      exact hw.trans (List.prefix_append _ _)
    · show (s.base.conn Peer.client.other).written <+: _
      rw [g3, show s.base.hsWritten Peer.client.other = _ from hw' hn]
      exact (List.prefix_append_right_inj _).mpr g4

/-- C67, the client's side. The client sent SSL requests, then something else; it got one 'N' for each of them (the last one
may be unanswered yet), then a prefix of the encodings of the messages the database sent, in order; and of those nothing
unless the database was dialled. -/
theorem C67_client (s : State) (h : Reachable (step parse) init s) :
    ∃ (requests : List Bytes) (tail rest w : Bytes) (ms : List Msg) (k : Nat),
      (∀ b ∈ requests, Spec.SSLRequest b) ∧ (s.base.conn .client).sent = requests.flatten ++ tail ∧
      (k = requests.length ∨ k + 1 = requests.length) ∧
      (s.base.conn .client).written = List.replicate k Spec.no ++ w ∧
      Spec.Stream (s.base.conn .db).sent ms rest ∧ w <+: ms.flatMap sendMessage ∧
      (s.dialed = [] → w = []) := by
  have hi := hinv_of_reachable h
  obtain ⟨relayed, rest, w, ms, g1, g2, g3, g4⟩ := SessionModel.C33 s.base (base_reachable h) .db
  obtain ⟨relayed', rest', w', ms', f1, _⟩ := SessionModel.C33 s.base (base_reachable h) .client
  obtain ⟨junk, r1, _⟩ := hi.read
  have g1' : (s.base.conn .db).sent = relayed := g1
  have f1' : (s.base.conn .client).sent = s.base.hsRead ++ relayed' := f1
  have g3' : (s.base.conn .client).written = s.base.hsWritten .client ++ w := g3
  have key : ∃ ssl other k, s.packets = ssl ++ other ∧ AllSSL ssl ∧ (k = ssl.length ∨ k + 1 = ssl.length) ∧ Replies s k ∧
      (s.dialed = [] → s.base.proc = .notStarted) := by
    have hst := hi.stage
    have ns : s.base.start.inHandshake = true → s.base.proc = .notStarted := not_started hi.early
    have op : ∀ m k, Opened s.packets m → k + 1 = s.packets.length → Replies s k → (s.dialed = [] → s.base.proc = .notStarted) →
        ∃ ssl other k, s.packets = ssl ++ other ∧ AllSSL ssl ∧ (k = ssl.length ∨ k + 1 = ssl.length) ∧ Replies s k ∧
          (s.dialed = [] → s.base.proc = .notStarted) := by
      rintro m k ⟨ssl, b, h1, h2⟩ h3 h4 h5
      refine ⟨ssl, [(b, m)], k, h1, h2, .inl ?_, h4, h5⟩
      rw [h1] at h3; simpa using h3
    unfold Stage at hst
    split at hst
    · exact ⟨s.packets, [], _, by simp, hst.2.1, .inl rfl, hst.2.2.1, fun _ => ns (by rw [hst.1]; rfl)⟩
    · obtain ⟨h1, h2, ⟨k, h3, h4⟩, _⟩ := hst
      exact ⟨s.packets, [], k, by simp, h2, .inr h3, h4, fun _ => ns (by rw [h1]; rfl)⟩
    · obtain ⟨h1, h2, _, ⟨k, h3, h4⟩, _⟩ := hst
      exact op _ _ h2 h3 h4 fun _ => ns (by rw [h1]; rfl)
    · obtain ⟨h1, h2, ⟨k, h3, h4⟩, _⟩ := hst
      exact op _ _ h2 h3 h4 fun _ => ns (by rw [h1]; rfl)
    · obtain ⟨h1, h2, ⟨k, h3, h4⟩, _⟩ := hst
      exact op _ _ h2 h3 h4 fun _ => ns (by rw [h1]; rfl)
    · obtain ⟨h1, h2, ⟨k, h3, h4⟩, _⟩ := hst
      exact op _ _ h2 h3 h4 fun _ => ns (by rw [h1]; rfl)
    · rcases hst.2 with ⟨⟨k, hk, ⟨h1, h2, h3⟩ | ⟨⟨m, h1⟩, h2⟩⟩, _, _, _, h3, _⟩ | ⟨m, settings, _, h1, ⟨k, h2, h3⟩, _, h4, _⟩
      · exact ⟨s.packets, [], k, by simp, h1, by omega, hk, fun _ => ‹_›⟩
      · exact op m k h1 h2 hk fun _ => h3
      · exact op m k h1 h2 h3 fun hx => by rw [h4] at hx; simp at hx
  obtain ⟨ssl, other, k, hp, hssl, hk, hr, hd⟩ := key
  refine ⟨ssl.map Prod.fst, other.flatMap Prod.fst ++ junk ++ relayed', rest, w, ms, k, ?_, ?_, by simpa using hk, ?_, ?_, g4, ?_⟩
  · intro b hb
    obtain ⟨x, hx, rfl⟩ := List.mem_map.mp hb
    exact ⟨x.2, hi.valid x (by rw [hp]; simp [hx]), hssl x hx⟩
  · rw [f1', r1, hp, List.flatMap_append]
    simp [List.flatMap]
  · rw [g3', show s.base.hsWritten .client = _ from hr]
  · rw [g1']; exact g2
  · intro hx
    have := (hi.early.pumps .client (hd hx)).2.2.2.2.2
    rw [g3'] at this
    simpa using this

/-! ## C68 A well-behaved client and database do not notice the proxy -/

theorem packet_unique {b b' x x' : Bytes} {m m' : StartupMessage} (h : Spec.StartupPacket b m) (h' : Spec.StartupPacket b' m')
    (he : b ++ x = b' ++ x') : b = b' ∧ m = m' ∧ x = x' := by
  obtain ⟨r, h1, h2⟩ := h x .eof
  obtain ⟨r', h1', h2'⟩ := h' x' .eof
  rw [he, h1'] at h1
  simp only [Prod.mk.injEq, Res.ok.injEq] at h1
  obtain ⟨rfl, rfl⟩ := h1
  have : x = x' := h2.symm.trans h2'
  subst this
  exact ⟨List.append_cancel_right he, rfl, rfl⟩

theorem packet_of_message {m : StartupMessage} (hm : Spec.WellFormed (.startup m)) :
    Spec.StartupPacket (sendMessage (.startup m)) m := by
  intro rest final
  obtain ⟨h1, h2, _⟩ := startup_roundtrip (r := ⟨[sendMessage (.startup m) ++ rest], final⟩) (rest := rest) hm (by simp [Reader.bytes])
  exact ⟨_, Prod.ext h1 rfl, h2⟩

theorem packet_ssl : Spec.StartupPacket Spec.sslRequestPacket ⟨80877103, []⟩ := by
  rw [sslRequestPacket_eq]
  exact packet_of_message (by decide)

theorem packet_nil {m : StartupMessage} : ¬ Spec.StartupPacket [] m := by
  intro h
  obtain ⟨r, h1, h2⟩ := h [] .eof
  obtain ⟨pkt, h3, h4⟩ := recvStartup_consumes h1
  simp [Reader.bytes] at h3
  rw [h3.1] at h4
  simp at h4

/-- A stream that begins like `n` SSL requests, a startup packet and something more can be taken apart in one way only. -/
theorem opening_unique {requests : List Bytes} {pkt relayed x z : Bytes} {m m' : StartupMessage} {n : Nat}
    (hr : ∀ b ∈ requests, Spec.SSLRequest b) (hp : Spec.StartupPacket pkt m') (hv' : m'.protocolVersion.toNat ≠ 80877103)
    (hm : Spec.WellFormed (.startup m)) (hv : m.protocolVersion.toNat ≠ 80877103)
    (he : requests.flatten ++ pkt ++ relayed ++ x =
      (List.replicate n Spec.sslRequestPacket).flatten ++ sendMessage (.startup m) ++ z) :
    requests = List.replicate n Spec.sslRequestPacket ∧ m' = m ∧ pkt = sendMessage (.startup m) ∧ relayed ++ x = z := by
  induction requests generalizing n with
  | nil =>
    cases n with
    | zero =>
      have he' : pkt ++ (relayed ++ x) = sendMessage (.startup m) ++ z := by simpa using he
      obtain ⟨h1, h2, h3⟩ := packet_unique hp (packet_of_message hm) he'
      exact ⟨rfl, h2, h1, h3⟩
    | succ n =>
      have he' : pkt ++ (relayed ++ x) = Spec.sslRequestPacket ++ ((List.replicate n Spec.sslRequestPacket).flatten ++ sendMessage (.startup m) ++ z) := by
        simpa [List.replicate_succ] using he
      obtain ⟨_, h2, _⟩ := packet_unique hp packet_ssl he'
      rw [h2] at hv'; exact absurd rfl hv'
  | cons b bs ih =>
    obtain ⟨mb, hb, hbv⟩ := hr b (by simp)
    cases n with
    | zero =>
      have he' : b ++ (bs.flatten ++ pkt ++ relayed ++ x) = sendMessage (.startup m) ++ z := by simpa using he
      obtain ⟨_, h2, _⟩ := packet_unique hb (packet_of_message hm) he'
      rw [h2] at hbv; exact absurd hbv hv
    | succ n =>
      have he' : b ++ (bs.flatten ++ pkt ++ relayed ++ x) = Spec.sslRequestPacket ++ ((List.replicate n Spec.sslRequestPacket).flatten ++ sendMessage (.startup m) ++ z) := by
        simpa [List.replicate_succ] using he
      obtain ⟨h1, _, h3⟩ := packet_unique hb packet_ssl he'
      obtain ⟨g1, g2⟩ := ih (fun b hb => hr b (by simp [hb])) h3
      exact ⟨by rw [h1, g1, List.replicate_succ], g2⟩

/-- Messages a peer may send after the startup packet. -/
def Ordinary (m : Msg) : Prop :=
  Spec.WellFormed m ∧ (∀ s, m ≠ .startup s) ∧ Spec.kind m ≠ some .negotiateProtocolVersion

/-- What is received from a stream that begins like well-formed messages is these messages. -/
theorem stream_unique {b rest x : Bytes} {ms ns : List Msg} (h : Spec.Stream b ms rest) (hn : ∀ n ∈ ns, Ordinary n)
    (he : b ++ x = ns.flatMap sendMessage) : ms <+: ns ∧ b = ms.flatMap sendMessage ++ rest := by
  induction h generalizing ns with
  | nil b => exact ⟨List.nil_prefix, by simp⟩
  | @cons b rest m ms r hr _ ih =>
    obtain ⟨r', h1, h2⟩ := recv_more (e' := .eof) x hr
    cases ns with
    | nil =>
      have : b = [] := (List.append_eq_nil_iff.mp (he.trans rfl)).1
      have h3 := recv_consumes hr
      rw [this] at h3
      simp at h3
    | cons n ns =>
      obtain ⟨o1, o2, o3⟩ := hn n (by simp)
      rw [List.flatMap_cons] at he
      obtain ⟨g1, g2, _⟩ := roundtrip (r := ⟨[b ++ x], .eof⟩) (rest := ns.flatMap sendMessage) o1 o2 o3 (by simp [Reader.bytes, he])
      rw [h1] at g1 g2
      simp only [Res.ok.injEq] at g1
      subst g1
      rw [h2] at g2
      obtain ⟨k1, k2⟩ := ih (fun n hn' => hn n (by simp [hn'])) g2
      refine ⟨(List.cons_prefix_cons).mpr ⟨rfl, k1⟩, ?_⟩
      rw [← g2, ← List.append_assoc] at he
      rw [List.append_cancel_right he, k2]
      simp

/-- If it is exactly these messages, and nothing more can be received, then all of them were. -/
theorem stream_complete {b rest : Bytes} {ms ns : List Msg} (h : Spec.Stream b ms rest) (hn : ∀ n ∈ ns, Ordinary n)
    (he : b = ns.flatMap sendMessage) (hno : Spec.NoMessage rest) : ms = ns := by
  obtain ⟨⟨l, rfl⟩, k⟩ := stream_unique h hn (x := []) (by simpa using he)
  cases l with
  | nil => simp
  | cons y l =>
    rw [he, List.flatMap_append, List.append_cancel_left_eq] at k
    obtain ⟨o1, o2, o3⟩ := hn y (by simp)
    obtain ⟨g1, _⟩ := roundtrip (r := ⟨[rest], .eof⟩) (rest := l.flatMap sendMessage) o1 o2 o3 (by simp [Reader.bytes, ← k])
    exact (hno y (recvMessage ⟨[rest], .eof⟩).2 (Prod.ext g1 rfl)).elim

theorem sslPackets_length (n : Nat) : (List.replicate n Spec.sslRequestPacket).flatten.length = 8 * n := by
  induction n with
  | zero => rfl
  | succ n ih =>
    rw [List.replicate_succ, List.flatten_cons, List.length_append, ih]
    show 8 + _ = _
    omega

theorem drop_sslPackets (n : Nat) (x : Bytes) : ((List.replicate n Spec.sslRequestPacket).flatten ++ x).drop (8 * n) = x := by
  rw [List.drop_append_of_le_length (by rw [sslPackets_length]; omega),
    List.drop_eq_nil_of_le (by rw [sslPackets_length]; omega), List.nil_append]

/-- C68: as long as what the client has sent is the beginning of `n` SSL requests, a startup packet and ordinary messages in
their standard encoding, what the database got is, byte for byte, the beginning of what the client sent after the SSL
requests. -/
theorem C68_db (s : State) (h : Reachable (step parse) init s) (n : Nat) (m : StartupMessage) (ms : List Msg)
    (hm : Spec.WellFormed (.startup m)) (hv : m.protocolVersion.toNat ≠ 80877103) (hms : ∀ x ∈ ms, Ordinary x)
    (hsent : (s.base.conn .client).sent <+:
      (List.replicate n Spec.sslRequestPacket).flatten ++ Spec.wire (.startup m) ++ ms.flatMap Spec.wire) :
    (s.base.conn .db).written <+: (s.base.conn .client).sent.drop (8 * n) := by
  by_cases hw : (s.base.conn .db).written = []
  · rw [hw]; exact List.nil_prefix
  obtain ⟨requests, pkt, relayed, rest, url, m', settings, ms', h1, h2, h3, h4, _, _, ⟨ha, _⟩, _, h5⟩ := C67_db s h (.inr hw)
  obtain ⟨x, hx⟩ := hsent
  have hfm : ms.flatMap Spec.wire = ms.flatMap sendMessage := by
    congr 1; funext y; rw [sendMessage_eq_wire]
  rw [hfm, ← sendMessage_eq_wire, h3] at hx
  obtain ⟨g1, g2, g3, g4⟩ := opening_unique h1 h2 (by rw [ha]; decide) hm hv hx
  obtain ⟨_, k2⟩ := stream_unique h4 hms g4
  rw [h3, g1, List.append_assoc, drop_sslPackets, g3]
  refine h5.trans ?_
  rw [g2, k2, ← List.append_assoc]
  exact List.prefix_append _ _

/-- C68, the other direction: as long as what the database has sent is the beginning of ordinary messages in their standard
encoding, what the client got is one 'N' per SSL request, then, byte for byte, the beginning of what the database
sent. -/
theorem C68_client (s : State) (h : Reachable (step parse) init s) (ms : List Msg) (hms : ∀ x ∈ ms, Ordinary x)
    (hsent : (s.base.conn .db).sent <+: ms.flatMap Spec.wire) :
    ∃ k w, (s.base.conn .client).written = List.replicate k Spec.no ++ w ∧ w <+: (s.base.conn .db).sent := by
  obtain ⟨_, _, rest, w, ms', k, _, _, _, h4, h5, h6, _⟩ := C67_client s h
  obtain ⟨x, hx⟩ := hsent
  have hfm : ms.flatMap Spec.wire = ms.flatMap sendMessage := by
    congr 1; funext y; rw [sendMessage_eq_wire]
  rw [hfm] at hx
  obtain ⟨_, k2⟩ := stream_unique h5 hms hx
  refine ⟨k, w, h4, ?_⟩
  rw [k2]
  exact h6.trans (List.prefix_append _ _)

/-- What the handshake of a session that runs has done. -/
theorem running (s : State) (h : Reachable (step parse) init s) (hrun : s.base.proc ≠ .notStarted) :
    ∃ (requests : List Bytes) (pkt : Bytes) (m : StartupMessage) (settings : ConnectionParams),
      (∀ b ∈ requests, Spec.SSLRequest b) ∧ Spec.StartupPacket pkt m ∧ Spec.Admitted m settings ∧
      s.base.hsRead = requests.flatten ++ pkt ∧ s.base.hsWritten .db = sendMessage (.startup m) ∧
      s.base.hsWritten .client = List.replicate requests.length Spec.no := by
  have hi := hinv_of_reachable h
  have hst := hi.stage
  have ns : s.base.start.inHandshake = true → False := fun hx => hrun (not_started hi.early hx)
  unfold Stage at hst
  split at hst
  · exact (ns (by rw [hst.1]; rfl)).elim
  · exact (ns (by rw [hst.1]; rfl)).elim
  · exact (ns (by rw [hst.1]; rfl)).elim
  · exact (ns (by rw [hst.1]; rfl)).elim
  · exact (ns (by rw [hst.1]; rfl)).elim
  · exact (ns (by rw [hst.1]; rfl)).elim
  · rcases hst.2 with ⟨_, _, _, _, h3, _⟩ | ⟨m, settings, _, ⟨ssl, pkt, hp, hssl⟩, ⟨k, hk, hr⟩, ⟨_, _, _, ha⟩, hdial, _, hw⟩
    · exact (hrun h3).elim
    · obtain ⟨junk, r1, r2⟩ := hi.read
      have hj : junk = [] := Decidable.byContradiction fun hj => by rw [hdial] at r2; simpa using (r2 hj).2.1
      refine ⟨ssl.map Prod.fst, pkt, m, settings, ?_, ?_, ha, ?_, hw hrun, ?_⟩
      · intro b hb
        obtain ⟨x, hx, rfl⟩ := List.mem_map.mp hb
        exact ⟨x.2, hi.valid x (by rw [hp]; simp [hx]), hssl x hx⟩
      · exact hi.valid (pkt, m) (by rw [hp]; simp)
      · rw [r1, hj, hp, List.flatMap_append]
        simp [List.flatMap]
      · rw [hp] at hk
        have : k = (ssl.map Prod.fst).length := by simpa using hk
        rw [← this]; exact hr

/-- C68 at rest: in a session that is open and has got through its handshake, whose peers keep reading (no write failed), and
whose goroutines have nothing left to do: the database has got exactly what the client sent after the SSL requests, and the
client exactly one 'N' per SSL request and what the database sent, except for `rest` and `rest'`, in which there is no complete
message. As long as `RecvMessage` has not failed, these are still to be received. -/
theorem C68_rest (s : State) (h : Reachable (step parse) init s) (hc : s.base.crashed = false) (hopen : s.base.fired = false)
    (hrun : s.base.proc ≠ .notStarted) (hw : ∀ p m e, s.base.outPump p ≠ .exited (some (m, e))) (hrest : SessionModel.AtRest s.base)
    (n : Nat) (m : StartupMessage) (ms ms' : List Msg) (hm : Spec.WellFormed (.startup m)) (hv : m.protocolVersion.toNat ≠ 80877103)
    (hms : ∀ x ∈ ms, Ordinary x) (hms' : ∀ x ∈ ms', Ordinary x)
    (hsent : (s.base.conn .client).sent <+:
      (List.replicate n Spec.sslRequestPacket).flatten ++ Spec.wire (.startup m) ++ ms.flatMap Spec.wire)
    (hsent' : (s.base.conn .db).sent <+: ms'.flatMap Spec.wire) :
    ∃ rest rest', (s.base.conn .db).written ++ rest = (s.base.conn .client).sent.drop (8 * n) ∧ Spec.NoMessage rest ∧
      (s.base.conn .client).written ++ rest' = List.replicate n Spec.no ++ (s.base.conn .db).sent ∧ Spec.NoMessage rest' ∧
      ((∀ e, s.base.inPump .client ≠ .exited e) → rest = (s.base.conn .client).unread) ∧
      ((∀ e, s.base.inPump .db ≠ .exited e) → rest' = (s.base.conn .db).unread) := by
  have hfm : ∀ ms : List Msg, ms.flatMap Spec.wire = ms.flatMap sendMessage := by
    intro ms; congr 1; funext y; rw [sendMessage_eq_wire]
  obtain ⟨requests, pkt, m', settings, h1, h2, ⟨ha, _⟩, h3, h4, h5⟩ := running s h hrun
  obtain ⟨relayed, rest, rs, c1, c2, c3, c4, c5⟩ := SessionModel.C34 s.base (base_reachable h) hc hopen hrun hw hrest .client
  obtain ⟨relayed', rest', rs', d1, d2, d3, d4, d5⟩ := SessionModel.C34 s.base (base_reachable h) hc hopen hrun hw hrest .db
  have c1' : (s.base.conn .client).sent = requests.flatten ++ pkt ++ relayed := by rw [c1, ← h3]; rfl
  have d1' : (s.base.conn .db).sent = relayed' := d1
  obtain ⟨x, hx⟩ := hsent
  obtain ⟨x', hx'⟩ := hsent'
  rw [hfm, ← sendMessage_eq_wire, c1'] at hx
  rw [hfm, d1'] at hx'
  obtain ⟨g1, g2, g3, g4⟩ := opening_unique h1 h2 (by rw [ha]; decide) hm hv hx
  obtain ⟨_, k2⟩ := stream_unique c2 hms g4
  obtain ⟨_, k2'⟩ := stream_unique d2 hms' hx'
  refine ⟨rest, rest', ?_, c4, ?_, d4, fun hx => (c5 hx).1, fun hx => (d5 hx).1⟩
  · rw [show (s.base.conn .db).written = s.base.hsWritten .db ++ _ from c3, h4, c1', g1, List.append_assoc _ pkt,
      drop_sslPackets, g3, k2, g2]
    simp
  · rw [show (s.base.conn .client).written = s.base.hsWritten .client ++ _ from d3, h5, d1', k2', g1]
    simp

/-- C68 when everything was sent: if the client has sent `n` SSL requests, its startup packet and the messages `ms`, and the
database the messages `ms'`, then at rest each has got all of it. -/
theorem C68_complete (s : State) (h : Reachable (step parse) init s) (hc : s.base.crashed = false) (hopen : s.base.fired = false)
    (hrun : s.base.proc ≠ .notStarted) (hw : ∀ p m e, s.base.outPump p ≠ .exited (some (m, e))) (hrest : SessionModel.AtRest s.base)
    (n : Nat) (m : StartupMessage) (ms ms' : List Msg) (hm : Spec.WellFormed (.startup m)) (hv : m.protocolVersion.toNat ≠ 80877103)
    (hms : ∀ x ∈ ms, Ordinary x) (hms' : ∀ x ∈ ms', Ordinary x)
    (hsent : (s.base.conn .client).sent =
      (List.replicate n Spec.sslRequestPacket).flatten ++ Spec.wire (.startup m) ++ ms.flatMap Spec.wire)
    (hsent' : (s.base.conn .db).sent = ms'.flatMap Spec.wire) :
    (s.base.conn .db).written = Spec.wire (.startup m) ++ ms.flatMap Spec.wire ∧
    (s.base.conn .client).written = List.replicate n Spec.no ++ ms'.flatMap Spec.wire := by
  have hfm : ∀ ms : List Msg, ms.flatMap Spec.wire = ms.flatMap sendMessage := by
    intro ms; congr 1; funext y; rw [sendMessage_eq_wire]
  obtain ⟨requests, pkt, m', settings, h1, h2, ⟨ha, _⟩, h3, h4, h5⟩ := running s h hrun
  obtain ⟨relayed, rest, rs, c1, c2, c3, c4, c5⟩ := SessionModel.C34 s.base (base_reachable h) hc hopen hrun hw hrest .client
  obtain ⟨relayed', rest', rs', d1, d2, d3, d4, d5⟩ := SessionModel.C34 s.base (base_reachable h) hc hopen hrun hw hrest .db
  have c1' : (s.base.conn .client).sent = requests.flatten ++ pkt ++ relayed := by rw [c1, ← h3]; rfl
  have d1' : (s.base.conn .db).sent = relayed' := d1
  have hx : requests.flatten ++ pkt ++ relayed ++ [] =
      (List.replicate n Spec.sslRequestPacket).flatten ++ sendMessage (.startup m) ++ ms.flatMap sendMessage := by
    rw [List.append_nil, ← c1', hsent, hfm, ← sendMessage_eq_wire]
  obtain ⟨g1, g2, g3, g4⟩ := opening_unique h1 h2 (by rw [ha]; decide) hm hv hx
  have k := stream_complete c2 hms (by simpa using g4) c4
  have k' := stream_complete d2 hms' (by rw [← d1', hsent', hfm]) d4
  subst k k'
  refine ⟨?_, ?_⟩
  · rw [show (s.base.conn .db).written = s.base.hsWritten .db ++ _ from c3, h4, hfm, g2, sendMessage_eq_wire]
  · rw [show (s.base.conn .client).written = s.base.hsWritten .client ++ _ from d3, h5, hfm, g1]
    simp

/-! ## C69 A client that is refused is disconnected, and the database is left alone -/

/-- The steps that are gevulot's to make: not the peers', and no call of `Start` or `Close` from outside. -/
def Internal : Action → Prop
  | .base a => a.isSession = true
  | _ => True

/-- Gevulot has nothing to do: it would have to wait for a peer, or for a call. -/
def Settled (parse : Bytes → Option ConnectionParams) (s : State) : Prop := ∀ a, Internal a → step parse s a = none

/-- `RecvStartupMessage` does not wait when there is a packet. -/
theorem tryRecvStartup_packet {c : SessionModel.PeerConn} {pkt rest : Bytes} {m : StartupMessage} (h : c.unread = pkt ++ rest)
    (hp : Spec.StartupPacket pkt m) : tryRecvStartup c ≠ none := by
  intro hn
  unfold tryRecvStartup at hn
  split at hn
  · simp at hn
  · split at hn
    · simp at hn
    · split at hn
      · simp at hn
      · rename_i e r hf
        obtain ⟨r', h1, _⟩ := hp rest .eof
        rw [← h] at h1
        unfold recvStartupMessage at h1
        rw [hf] at h1
        simp at h1
      · simp at hn

/-- What was read is the beginning of what was sent, packet by packet. -/
theorem packets_prefix {ps : List (Bytes × StartupMessage)} {requests : List Bytes} {pkt unread more : Bytes} {m : StartupMessage}
    (hv : ∀ x ∈ ps, Spec.StartupPacket x.1 x.2) (hssl : AllSSL ps) (hr : ∀ b ∈ requests, Spec.SSLRequest b)
    (hp : Spec.StartupPacket pkt m) (hm : m.protocolVersion.toNat ≠ 80877103)
    (he : ps.flatMap Prod.fst ++ unread = requests.flatten ++ pkt ++ more) :
    ∃ pkt' m' rest, unread = pkt' ++ rest ∧ Spec.StartupPacket pkt' m' := by
  induction ps generalizing requests with
  | nil =>
    cases requests with
    | nil => exact ⟨pkt, m, more, by simpa using he, hp⟩
    | cons b bs =>
      obtain ⟨mb, hb, _⟩ := hr b (by simp)
      exact ⟨b, mb, bs.flatten ++ pkt ++ more, by simpa using he, hb⟩
  | cons x xs ih =>
    have hx := hv x (by simp)
    have hxs := hssl x (by simp)
    cases requests with
    | nil =>
      obtain ⟨_, h2, _⟩ := packet_unique hx hp (x := xs.flatMap Prod.fst ++ unread) (x' := more) (by simpa using he)
      rw [h2] at hxs; exact absurd hxs hm
    | cons b bs =>
      obtain ⟨mb, hb, _⟩ := hr b (by simp)
      obtain ⟨_, _, h3⟩ := packet_unique hx hb (x := xs.flatMap Prod.fst ++ unread) (x' := bs.flatten ++ pkt ++ more) (by simpa using he)
      exact ih (fun y hy => hv y (by simp [hy])) (fun y hy => hssl y (by simp [hy])) (fun b hb => hr b (by simp [hb])) h3

/-- At rest, the handshake is waiting for the client, or over. -/
theorem settled_hs (s : State) (h : Reachable (step parse) init s) (hc : s.base.crashed = false) (hrest : Settled parse s) :
    s.hs = .idle ∨ (s.hs = .recv ∧ tryRecvStartup (s.base.conn .client) = none) := by
  have hst := (hinv_of_reachable h).stage
  have fail : ∀ s : State, s.base.crashed = false → s.base.start = .negotiating → s.fail ≠ none := by
    intro s h1 h2; simp [State.fail, SessionModel.step, h1, h2]
  unfold Stage at hst
  split at hst <;> rename_i hhs
  · refine .inr ⟨hhs, ?_⟩
    have := hrest .recvStartup trivial
    simp only [step, hhs] at this
    have rd : ∀ n, n ≤ (s.base.conn .client).unread.length → ∃ b, SessionModel.step s.base (.hsRead n) = some b ∧
        b.crashed = false ∧ b.start = .negotiating := by
      intro n hn
      cases hb : SessionModel.step s.base (.hsRead n) with
      | none => simp [SessionModel.step, hc, hst.1, hn] at hb
      | some b => session_case hb; exact ⟨_, rfl, hc, hst.1⟩
    split at this
    · assumption
    · rename_i m rest _
      obtain ⟨b, hb, hb1, hb2⟩ := rd ((s.base.conn .client).unread.length - rest.length) (by omega)
      simp only [hb, Option.bind_some] at this
      split at this
      · simp at this
      · split at this
        · exact absurd this (fail _ hb1 hb2)
        · simp at this
    · rename_i e rest _
      obtain ⟨b, hb, hb1, hb2⟩ := rd ((s.base.conn .client).unread.length - rest.length) (by omega)
      simp only [hb, Option.bind_some] at this
      exact absurd this (fail _ hb1 hb2)
    · rename_i hp; exact absurd hp tryRecvStartup_no_panic
  · have := hrest (.reply false) trivial
    simp only [step, hhs] at this
    exact absurd this (fail _ hc hst.1)
  · have := hrest (.getConfig none) trivial
    simp only [step, hhs] at this
    exact absurd this (fail _ hc hst.1)
  · have := hrest (.dial false) trivial
    simp only [step, hhs] at this
    exact absurd this (fail _ hc hst.1)
  · have := hrest .assign trivial
    simp [step, hhs, SessionModel.step, hc, hst.1] at this
  · have := hrest (.startup (some 0)) trivial
    simp [step, hhs, SessionModel.step, hc, hst.1] at this
  · exact .inl hhs

/-- A session in which gevulot has nothing left to do, whose handshake is over and which has not dialled, has been closed. -/
theorem closed_of_settled {s : State} (h : Reachable (step parse) init s) (hc : s.base.crashed = false) (hcalled : s.base.start ≠ .notCalled)
    (hrest : Settled parse s) (hidle : s.hs = .idle) (hd : s.dialed = []) : s.base.start = .returned ∧ (s.base.conn .client).isOpen = false := by
  have hi := hinv_of_reachable h
  have inv := SessionModel.inv_of_reachable (base_reachable h)
  have hst := hi.stage
  unfold Stage at hst
  rw [hidle] at hst
  have hns : s.base.proc = .notStarted := by
    rcases hst.2 with ⟨_, _, _, _, h3, _⟩ | ⟨_, _, _, _, _, _, h4, _⟩
    · exact h3
    · rw [hd] at h4; simp at h4
  have hbase : ∀ a, a.isSession = true → isHandshake a = false → SessionModel.step s.base a = none := by
    intro a ha hh
    have := hrest (.base a) ha
    simpa [step, hh] using this
  have hfin := hbase .startFinish rfl rfl
  have hcl := hbase .closeStep rfl rfl
  have hret : s.base.start = .returned := by
    cases hs : s.base.start with
    | notCalled => exact absurd hs hcalled
    | negotiating => rw [hs] at hst; simp [SessionModel.StartPC.inHandshake] at hst
    | dialled => rw [hs] at hst; simp [SessionModel.StartPC.inHandshake] at hst
    | assigned => rw [hs] at hst; simp [SessionModel.StartPC.inHandshake] at hst
    | waiting => exact absurd hns (hi.early.spawned (.inl hs))
    | deferred b => simp [SessionModel.step, hc, hs] at hfin; split at hfin <;> simp at hfin
    | closing =>
      have hf := inv.exit.returned (.inr hs)
      have := SessionModel.rank_of_fired inv hf hc hcl
      simp [SessionModel.step, hc, hs, this] at hfin
    | returned => rfl
  have hf := inv.exit.returned (.inl hret)
  exact ⟨hret, SessionModel.C39_client s.base (base_reachable h) (SessionModel.rank_of_fired inv hf hc hcl)⟩

/-- C69: the client has sent SSL requests and then a startup packet `m` that the configuration the session was given (if it
was given one) does not admit. Then the database is not dialled and nothing is sent to it; and when gevulot has nothing left
to do, `Start` has returned and the client's connection is closed. -/
theorem C69 (s : State) (h : Reachable (step parse) init s) (requests : List Bytes) (pkt more : Bytes) (m : StartupMessage)
    (hr : ∀ b ∈ requests, Spec.SSLRequest b) (hp : Spec.StartupPacket pkt m) (hv : m.protocolVersion.toNat ≠ 80877103)
    (hsent : (s.base.conn .client).sent = requests.flatten ++ pkt ++ more)
    (hno : ∀ url settings, some url ∈ s.configs → parse url = some settings → ¬ Spec.Admitted m settings) :
    s.dialed = [] ∧ (s.base.conn .db).written = [] ∧
    (s.base.crashed = false → s.base.start ≠ .notCalled → Settled parse s →
      s.base.start = .returned ∧ (s.base.conn .client).isOpen = false) := by
  have hd : s.dialed = [] ∧ (s.base.conn .db).written = [] := by
    by_cases hd : s.dialed ≠ [] ∨ (s.base.conn .db).written ≠ []
    · obtain ⟨requests', pkt', relayed, rest, url, m', settings, ms, h1, h2, h3, h4, h5, h6, h7, h8, h9⟩ := C67_db s h hd
      refine absurd h7 ?_
      have : m' = m := by
        rw [hsent] at h3
        clear h4 hsent
        have hv' : m'.protocolVersion.toNat ≠ 80877103 := by rw [h7.1]; decide
        induction requests generalizing requests' with
        | nil =>
          cases requests' with
          | nil => exact (packet_unique h2 hp (x := relayed) (x' := more) (by simpa using h3.symm)).2.1
          | cons b bs =>
            obtain ⟨mb, hb, hbv⟩ := h1 b (by simp)
            obtain ⟨_, g, _⟩ := packet_unique hp hb (x := more) (x' := bs.flatten ++ pkt' ++ relayed) (by simpa using h3)
            rw [g] at hv; exact absurd hbv hv
        | cons b bs ih =>
          obtain ⟨mb, hb, hbv⟩ := hr b (by simp)
          cases requests' with
          | nil =>
            obtain ⟨_, g, _⟩ := packet_unique h2 hb (x := relayed) (x' := bs.flatten ++ pkt ++ more) (by simpa using h3.symm)
            rw [g] at hv'; exact absurd hbv hv'
          | cons b' bs' =>
            obtain ⟨mb', hb', _⟩ := h1 b' (by simp)
            obtain ⟨_, _, g⟩ := packet_unique hb hb' (x := bs.flatten ++ pkt ++ more) (x' := bs'.flatten ++ pkt' ++ relayed) (by simpa using h3)
            exact ih (fun b hb => hr b (by simp [hb])) bs' (fun b hb => h1 b (by simp [hb])) g
      rw [this]
      exact hno url settings (by rw [h5]; simp) h6
    · simpa using hd
  refine ⟨hd.1, hd.2, fun hc hcalled hrest => ?_⟩
  have hi := hinv_of_reachable h
  have hidle : s.hs = .idle := by
    rcases settled_hs s h hc hrest with hx | ⟨hx, hn⟩
    · exact hx
    · have hst := hi.stage
      unfold Stage at hst
      rw [hx] at hst
      obtain ⟨junk, r1, r2⟩ := hi.read
      have hj : junk = [] := junk_nil hx (by simp) r2
      have hu := (hi.early.pumps .client (not_started hi.early (by rw [hst.1]; rfl))).2.2.2.2.1
      have hu' : (s.base.conn .client).sent = s.base.hsRead ++ (s.base.conn .client).unread := hu
      rw [hsent, r1, hj, List.append_nil] at hu'
      obtain ⟨pkt', m', rest, g1, g2⟩ := packets_prefix hi.valid hst.2.1 hr hp hv hu'.symm
      exact absurd hn (tryRecvStartup_packet g1 g2)
  exact closed_of_settled h hc hcalled hrest hidle hd.1

/-- C69, more generally: when gevulot has nothing left to do, a session that was started is waiting for (the rest of) a startup packet,
or has dialled, or else `Start` has returned and the client's connection is closed. -/
theorem C69_rest (s : State) (h : Reachable (step parse) init s) (hc : s.base.crashed = false) (hcalled : s.base.start ≠ .notCalled)
    (hrest : Settled parse s) :
    (s.hs = .recv ∧ tryRecvStartup (s.base.conn .client) = none) ∨ s.dialed ≠ [] ∨
    (s.base.start = .returned ∧ (s.base.conn .client).isOpen = false) := by
  rcases settled_hs s h hc hrest with hx | hx
  · by_cases hd : s.dialed = []
    · exact .inr (.inr (closed_of_settled h hc hcalled hrest hx hd))
    · exact .inr (.inl hd)
  · exact .inl hx

def HsPC.weight : HsPC → Nat
  | .idle => 0
  | .recv => 6
  | .reply => 7
  | .config _ => 5
  | .dial _ _ => 4
  | .assign _ => 3
  | .startup _ => 2

def weight (s : State) : Nat := SessionModel.weight s.base + s.hs.weight

open SessionModel (weight1 StartPC.weight InPump.weight OutPump.weight Proc.weight) in
theorem base_weight {b b' : SessionModel.State} {a : SessionModel.Action} (hs : SessionModel.step b a = some b') :
    (∀ n, a = .hsRead n → SessionModel.weight b' + 2 * n = SessionModel.weight b) ∧
    (∀ bs, a = .hsReply bs → SessionModel.weight b' = SessionModel.weight b) ∧
    (a = .hsFail → SessionModel.weight b' < SessionModel.weight b) ∧
    (a = .hsDial → SessionModel.weight b' = SessionModel.weight b) ∧
    (a = .hsAssign → SessionModel.weight b' = SessionModel.weight b) ∧
    (∀ bs ok, a = .hsStartup bs ok → SessionModel.weight b' < SessionModel.weight b) := by
  cases a with
  | hsRead n => session_case hs; grind [SessionModel.weight, weight1, upd_apply]
  | hsReply bs => session_case hs; grind [SessionModel.weight, weight1, upd_apply]
  | hsFail => session_case hs; grind [SessionModel.weight, weight1, StartPC.weight]
  | hsDial => session_case hs; grind [SessionModel.weight, weight1, upd_apply, StartPC.weight]
  | hsAssign => session_case hs; grind [SessionModel.weight, weight1, upd_apply, StartPC.weight]
  | hsStartup bs ok => session_case hs <;> grind [SessionModel.weight, weight1, upd_apply, StartPC.weight, InPump.weight, OutPump.weight, Proc.weight]
  | _ => simp

theorem fail_weight {s s' : State} (h : s.fail = some s') : weight s' < SessionModel.weight s.base := by
  unfold State.fail at h
  obtain ⟨b, hb, rfl⟩ := Option.map_eq_some_iff.mp h
  have := (base_weight hb).2.2.1 rfl
  simpa [weight, HsPC.weight] using this

theorem weight_step {s s' : State} {a : Action} (ha : Internal a) (hs : step parse s a = some s') : weight s' < weight s := by
  cases a with
  | base a =>
    simp only [step] at hs
    split at hs
    · simp at hs
    obtain ⟨b, hb, rfl⟩ := Option.map_eq_some_iff.mp hs
    have := SessionModel.weight_step ha hb
    have hn : a ≠ .callStart := by rintro rfl; simp [Internal, SessionModel.Action.isSession] at ha
    simpa [weight, hn] using this
  | recvStartup =>
    simp only [step] at hs
    split at hs
    case h_2 => simp at hs
    rename_i hhs
    split at hs
    · simp at hs
    · rename_i m rest hm
      obtain ⟨b, hb, hs⟩ := Option.bind_eq_some_iff.mp hs
      have h1 := (base_weight hb).1 _ rfl
      obtain ⟨pkt, hp, hpk⟩ := tryRecvStartup_ok hm
      have h4 : 4 ≤ pkt.length := by
        obtain ⟨r, g1, g2⟩ := hpk [] .eof
        obtain ⟨pkt', g3, g4⟩ := recvStartup_consumes g1
        have := congrArg List.length g3
        simp [Reader.bytes] at this g2
        omega
      have h5 : (s.base.conn .client).unread.length - rest.length = pkt.length := by rw [hp]; simp
      rw [h5] at h1
      split at hs
      · simp only [Option.some.injEq] at hs; subst hs
        simp only [weight, hhs, HsPC.weight]; omega
      · split at hs
        · have := fail_weight hs
          simp only [weight, hhs, HsPC.weight] at this ⊢; omega
        · simp only [Option.some.injEq] at hs; subst hs
          simp only [weight, hhs, HsPC.weight]; omega
    · obtain ⟨b, hb, hs⟩ := Option.bind_eq_some_iff.mp hs
      have h1 := (base_weight hb).1 _ rfl
      have := fail_weight hs
      simp only [weight, hhs, HsPC.weight] at this ⊢; omega
    · rename_i hp; exact absurd hp tryRecvStartup_no_panic
  | reply ok =>
    simp only [step] at hs
    split at hs
    case h_2 => simp at hs
    rename_i hhs
    split at hs
    · obtain ⟨b, hb, rfl⟩ := Option.map_eq_some_iff.mp hs
      have := (base_weight hb).2.1 _ rfl
      simp only [weight, hhs, HsPC.weight]; omega
    · have := fail_weight hs
      simp only [weight, hhs, HsPC.weight] at this ⊢; omega
  | getConfig answer =>
    simp only [step] at hs
    split at hs
    case h_2 => simp at hs
    rename_i hhs
    split at hs
    · split at hs
      · have := fail_weight hs
        simp only [weight, hhs, HsPC.weight] at this ⊢; omega
      · split at hs
        · simp at hs
        · simp only [Option.some.injEq] at hs; subst hs
          simp only [weight, hhs, HsPC.weight]; omega
    · have := fail_weight hs
      simp only [weight, hhs, HsPC.weight] at this ⊢; omega
  | dial ok =>
    simp only [step] at hs
    split at hs
    case h_2 => simp at hs
    rename_i hhs
    split at hs
    · obtain ⟨b, hb, rfl⟩ := Option.map_eq_some_iff.mp hs
      have := (base_weight hb).2.2.2.1 rfl
      simp only [weight, hhs, HsPC.weight]; omega
    · have := fail_weight hs
      simp only [weight, hhs, HsPC.weight] at this ⊢; omega
  | assign =>
    simp only [step] at hs
    split at hs
    case h_2 => simp at hs
    rename_i hhs
    obtain ⟨b, hb, rfl⟩ := Option.map_eq_some_iff.mp hs
    have := (base_weight hb).2.2.2.2.1 rfl
    simp only [weight, hhs, HsPC.weight]; omega
  | startup failure =>
    simp only [step] at hs
    split at hs
    case h_2 => simp at hs
    rename_i hhs
    split at hs
    · obtain ⟨b, hb, rfl⟩ := Option.map_eq_some_iff.mp hs
      have := (base_weight hb).2.2.2.2.2 _ _ rfl
      simp only [weight, hhs, HsPC.weight]; omega
    · obtain ⟨b, hb, rfl⟩ := Option.map_eq_some_iff.mp hs
      have := (base_weight hb).2.2.2.2.2 _ _ rfl
      simp only [weight, hhs, HsPC.weight]; omega

/-- C69, and gevulot does come to rest: from any state, it can make only a bounded number of steps before a peer does
something again, or `Start` or `Close` is called. -/
theorem C69_finite (parse : Bytes → Option ConnectionParams) (s : State) : ∃ n, ∀ acts s', (∀ a ∈ acts, Internal a) →
    run (step parse) s acts = some s' → acts.length ≤ n := by
  refine ⟨weight s, fun acts s' ha h => ?_⟩
  have := run_measure Internal weight (fun _ => True) trivial (fun _ _ _ _ _ _ => trivial)
    (fun _ _ _ ha _ hs => weight_step ha hs) ha h
  omega

/-! ## C37, C38, C40 with the handshake

The counterexamples of Props/Session.lean leave the handshake open. Here they are again for whole sessions, beginning with a
client that sends an SSL request and a startup packet. -/

theorem run_base {s s' : State} {acts : List Action} (h : run (step parse) s acts = some s') :
    ∃ acts', run SessionModel.step s.base acts' = some s'.base ∧ ∀ x ∈ acts', isHandshake x = true ∨ .base x ∈ acts := by
  induction acts generalizing s with
  | nil => simp only [run, Option.some.injEq] at h; subst h; exact ⟨[], rfl, by simp⟩
  | cons a as ih =>
    simp only [run] at h
    cases hx : step parse s a with
    | none => rw [hx] at h; simp at h
    | some s1 =>
      rw [hx] at h
      obtain ⟨b1, h1, h2⟩ := step_base hx
      obtain ⟨b2, h3, h4⟩ := ih h
      refine ⟨b1 ++ b2, by rw [run_append, h1]; exact h3, fun x hm => ?_⟩
      rcases List.mem_append.mp hm with hm | hm
      · rcases h2 x hm with g | g
        · exact .inl g
        · exact .inr (by rw [g]; simp)
      · rcases h4 x hm with g | g
        · exact .inl g
        · exact .inr (by simp [g])

/-- A startup packet: protocol 3.0, database "app". -/
def exampleStartup : StartupMessage := ⟨196608, [⟨ascii "database", ascii "app"⟩]⟩

/-- Some client: an SSL request, then the startup packet. -/
def opening : List Action :=
  [.base (.peerSends .client (Spec.sslRequestPacket ++ Spec.wire (.startup exampleStartup))), .base .callStart, .recvStartup,
    .reply true, .recvStartup, .getConfig (some (ascii "postgres://db.example/app"))]

/-- The session gets through its handshake. -/
def opened : List Action := opening ++ [.dial true, .assign, .startup none]

def exampleParse : Bytes → Option ConnectionParams := fun _ => some exampleSettings

/-- The state after some steps. -/
def after (acts : List Action) : State := (run (step exampleParse) init acts).getD init

theorem after_reachable (acts : List Action) (h : (run (step exampleParse) init acts).isSome) :
    Reachable (step exampleParse) init (after acts) := by
  obtain ⟨s, hs⟩ := Option.isSome_iff_exists.mp h
  exact ⟨acts, by rw [after, hs]; rfl⟩

theorem after_append (as bs : List Action) (h1 : (run (step exampleParse) init as).isSome)
    (h2 : (run (step exampleParse) init (as ++ bs)).isSome) : run (step exampleParse) (after as) bs = some (after (as ++ bs)) := by
  obtain ⟨s, hs⟩ := Option.isSome_iff_exists.mp h1
  obtain ⟨s', hs'⟩ := Option.isSome_iff_exists.mp h2
  simp only [after, hs']
  rw [run_append, hs] at hs'
  rw [hs]
  exact hs'

/-- C37 is false for whole sessions: both peers have hung up and both pumps have noticed, and yet `Start` does not return and
neither connection gets closed until somebody calls `Close`. -/
theorem C37_refuted_full : ∃ (parse : Bytes → Option ConnectionParams) (s : State), Reachable (step parse) init s ∧
    s.base.crashed = false ∧ (∀ p, (s.base.conn p).ended ≠ none) ∧ (∀ p, ∃ e, s.base.inPump p = .exited e) ∧
    ∀ acts s', .base .callClose ∉ acts → run (step parse) s acts = some s' →
      s'.base.start = .waiting ∧ ∀ p, (s'.base.conn p).isOpen = true := by
  refine ⟨exampleParse,
    after (opened ++ [.base (.peerEnds .client .eof), .base (.inRecv .client), .base (.peerEnds .db .eof), .base (.inRecv .db)]),
    after_reachable _ (by decide +kernel), by decide +kernel, fun p => by cases p <;> decide +kernel,
    fun p => ⟨.eof, by cases p <;> decide +kernel⟩, ?_⟩
  intro acts s' hacts hr
  obtain ⟨acts', h1, h2⟩ := run_base hr
  refine SessionModel.C37_only_close _ (base_reachable (after_reachable _ (by decide +kernel))) (by decide +kernel)
    (by decide +kernel) acts' s'.base (fun hm => ?_) h1
  rcases h2 _ hm with g | g
  · simp [isHandshake] at g
  · exact hacts g

/-- C38 is false for whole sessions: the client has sent a query, the pump has received it, `Close` is called and closes the
queue, and then the pump sends on the closed queue: the process is gone. -/
theorem C38_refuted_full : ∃ (parse : Bytes → Option ConnectionParams) (s s' : State), Reachable (step parse) init s ∧
    s.base.fired = false ∧ s.base.crashed = false ∧
    run (step parse) s [.base .callClose, .base .closeStep, .base .closeStep, .base .closeStep, .base (.inSend .client)] = some s' ∧
    s'.base.crashed = true := by
  refine ⟨exampleParse, after (opened ++ [.base (.peerSends .client SessionModel.queryBytes), .base (.inRecv .client)]),
    after (opened ++ [.base (.peerSends .client SessionModel.queryBytes), .base (.inRecv .client)] ++
      [.base .callClose, .base .closeStep, .base .closeStep, .base .closeStep, .base (.inSend .client)]),
    after_reachable _ (by decide +kernel), by decide +kernel, by decide +kernel, ?_, by decide +kernel⟩
  exact after_append _ _ (by decide +kernel) (by decide +kernel)

/-- C40 is false for whole sessions: `Close` is called while the session is dialling the database; `Start` returns, and the
connection to the database stays open for ever. -/
theorem C40_refuted_full : ∃ (parse : Bytes → Option ConnectionParams) (s : State), Reachable (step parse) init s ∧
    s.base.crashed = false ∧ s.base.start = .returned ∧ s.base.closer = .done ∧
    ∀ acts s', run (step parse) s acts = some s' → (s'.base.conn .db).isOpen = true := by
  have hr : Reachable (step exampleParse) init (after (opening ++ [.dial true, .base .callClose] ++
      List.replicate 6 (.base .closeStep) ++ [.assign, .startup (some 0), .base .startFinish])) := after_reachable _ (by decide +kernel)
  refine ⟨exampleParse, _, hr, by decide +kernel, by decide +kernel, by decide +kernel, fun acts s' h => ?_⟩
  obtain ⟨acts', h1, _⟩ := run_base h
  have : SessionModel.Inv s'.base ∧ SessionModel.Leaked s'.base := by
    refine run_invariant (fun s => SessionModel.Inv s ∧ SessionModel.Leaked s)
      ⟨SessionModel.inv_of_reachable (base_reachable hr), ?_⟩ ?_ h1
    · refine ⟨by decide +kernel, by decide +kernel, by decide +kernel, by decide +kernel, ?_⟩
      have : ∀ s : SessionModel.State, s.start = .returned → ∀ b, s.start = .deferred b → s.fired = true := by
        intro s h b hb; rw [h] at hb; simp at hb
      exact this _ (by decide +kernel)
    · intro s a s' hi hs
      exact ⟨SessionModel.inv_step hi.1 hs, SessionModel.leaked_step hi.1 hi.2 hs⟩
  exact this.2.1

/-! ## Examples -/

/-- C67, C68: the session above, then a query in one direction, two in the other and the beginning of a further one; all
that can be delivered is delivered. -/
def traffic : List Action :=
  opened ++ [.base (.peerSends .client SessionModel.queryBytes), .base (.inRecv .client),
    .base (.peerSends .db (SessionModel.queryBytes ++ SessionModel.queryBytes)), .base (.inRecv .db), .base (.inSend .db),
    .base (.inRecv .db), .base (.inSend .client), .base (.procRecv .db), .base .procSend, .base (.procRecv .client),
    .base (.inSend .db), .base (.outRecv .client), .base .procSend, .base (.outRecv .db), .base (.outWrite .client none),
    .base (.outWrite .db none), .base (.procRecv .db), .base .procSend, .base (.outRecv .client),
    .base (.outWrite .client none), .base (.peerSends .client [0x51, 0, 0])]

example : let s := after traffic
    Reachable (step exampleParse) init s ∧ s.dialed = [ascii "db.example:5432"] ∧
    (s.base.conn .db).written = Spec.wire (.startup exampleStartup) ++ SessionModel.queryBytes ∧
    (s.base.conn .client).written = Spec.no :: (SessionModel.queryBytes ++ SessionModel.queryBytes) ∧
    (s.base.conn .client).sent = Spec.sslRequestPacket ++ Spec.wire (.startup exampleStartup) ++ SessionModel.queryBytes ++ [0x51, 0, 0] ∧
    (s.base.conn .client).unread = [0x51, 0, 0] :=
  ⟨after_reachable _ (by decide +kernel), by decide +kernel, by decide +kernel, by decide +kernel, by decide +kernel, by decide +kernel⟩

/-- C68, its other hypotheses -/
example : Spec.WellFormed (.startup exampleStartup) ∧ exampleStartup.protocolVersion.toNat ≠ 80877103 ∧
    Ordinary (.query (ascii "hi")) ∧ SessionModel.queryBytes = Spec.wire (.query (ascii "hi")) := by
  refine ⟨by decide +kernel, by decide, ⟨by decide +kernel, by simp, by decide⟩, by decide +kernel⟩

example : let s := (after traffic).base
    s.crashed = false ∧ s.fired = false ∧ s.proc ≠ .notStarted ∧ (∀ p x, s.outPump p ≠ .exited x) ∧
    (∀ p e, s.inPump p ≠ .exited e) ∧ SessionModel.AtRest s := by
  refine ⟨by decide +kernel, by decide +kernel, by decide +kernel, ?_, ?_, fun p => ?_, ?_⟩
  · intro p x
    have : (after traffic).base.outPump p = .recv := by cases p <;> decide +kernel
    rw [this]; simp
  · intro p x
    have : (after traffic).base.inPump p = .recv := by cases p <;> decide +kernel
    rw [this]; simp
  · cases p <;> decide +kernel
  · decide +kernel

/-- C69: a client that asks for another database. -/
def otherStartup : StartupMessage := ⟨196608, [⟨ascii "database", ascii "postgres"⟩]⟩

def refused : List Action :=
  [.base (.peerSends .client (Spec.wire (.startup otherStartup))), .base .callStart, .recvStartup,
    .getConfig (some (ascii "postgres://db.example/app")), .base .startFinish] ++ List.replicate 6 (.base .closeStep) ++
  [.base .startFinish]

example : let s := after refused
    Reachable (step exampleParse) init s ∧ (s.base.conn .client).sent = [].flatten ++ Spec.wire (.startup otherStartup) ++ [] ∧
    Spec.StartupPacket (Spec.wire (.startup otherStartup)) otherStartup ∧
    (∀ url settings, some url ∈ s.configs → exampleParse url = some settings → ¬ Spec.Admitted otherStartup settings) ∧
    s.base.crashed = false ∧ s.base.start = .returned ∧ (s.base.conn .client).isOpen = false ∧ Settled exampleParse s := by
  refine ⟨after_reachable _ (by decide +kernel), by decide +kernel, ?_, ?_, by decide +kernel, by decide +kernel, by decide +kernel, ?_⟩
  · rw [← sendMessage_eq_wire]
    exact packet_of_message (by decide +kernel)
  · intro url settings _ hs
    simp only [exampleParse, Option.some.injEq] at hs
    subst hs
    rintro ⟨_, h⟩
    revert h
    decide +kernel
  · generalize hs : after _ = s
    have h0 : s.hs = .idle := by subst hs; rfl
    have h1 : s.base.inPump .client = .notStarted ∧ s.base.inPump .db = .notStarted ∧
        s.base.outPump .client = .notStarted ∧ s.base.outPump .db = .notStarted ∧ s.base.proc = .notStarted ∧
        s.base.start = .returned ∧ s.base.closer = .done ∧ s.base.crashed = false := by
      subst hs
      refine ⟨?_, ?_, ?_, ?_, ?_, ?_, ?_, ?_⟩ <;> decide +kernel
    obtain ⟨h1, h2, h3, h4, h5, h6, h7, h8⟩ := h1
    intro a ha
    cases a with
    | base a =>
      cases a with
      | inRecv p => cases p <;> simp [step, isHandshake, SessionModel.step, h8, h1, h2]
      | inSend p => cases p <;> simp [step, isHandshake, SessionModel.step, h8, h1, h2]
      | procRecv p => simp [step, isHandshake, SessionModel.step, h8, h5]
      | procSend => simp [step, isHandshake, SessionModel.step, h8, h5]
      | outRecv p => cases p <;> simp [step, isHandshake, SessionModel.step, h8, h3, h4]
      | outWrite p f => cases p <;> simp [step, isHandshake, SessionModel.step, h8, h3, h4]
      | closeStep => simp [step, isHandshake, SessionModel.step, h8, h7]
      | join => simp [step, isHandshake, SessionModel.step, h8, h6]
      | startFinish => simp [step, isHandshake, SessionModel.step, h8, h6]
      | _ => simp [Internal, SessionModel.Action.isSession] at ha
    | _ => simp [step, h0]

end Gevulot.FullSession
