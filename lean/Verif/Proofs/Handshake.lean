import Verif.Props.Conn
import Verif.Spec.Handshake

namespace Gevulot

theorem HS.bind_apply {α β : Type} (x : HS α) (f : α → HS β) (s : HandshakeState) : (x >>= f) s =
    (match x s with
    | (.ok a, s) => f a s
    | (.err e, s) => (.err e, s)
    | (.panic p, s) => (.panic p, s)) := rfl

theorem HS.bind_of_ok {α β : Type} {x : HS α} {f : α → HS β} {s s' : HandshakeState} {a : α} (h : x s = (.ok a, s')) :
    (x >>= f) s = f a s' := by rw [HS.bind_apply, h]
theorem HS.bind_of_err {α β : Type} {x : HS α} {f : α → HS β} {s s' : HandshakeState} {e : Err}
    (h : x s = (.err e, s')) : (x >>= f) s = (.err e, s') := by rw [HS.bind_apply, h]
theorem HS.bind_of_panic {α β : Type} {x : HS α} {f : α → HS β} {s s' : HandshakeState} {p : Panic}
    (h : x s = (.panic p, s')) : (x >>= f) s = (.panic p, s') := by rw [HS.bind_apply, h]

theorem ssl_magic_iff (m : StartupMessage) :
    m.protocolVersion = sslRequestMagic ↔ m.protocolVersion.toNat = 80877103 := by
  constructor
  · intro h; rw [h]; rfl
  · intro h; exact BitVec.eq_of_toNat_eq h

theorem version3_iff (m : StartupMessage) :
    m.protocolVersion = defaultProtocolVersion ↔ m.protocolVersion.toNat = 196608 := by
  constructor
  · intro h; rw [h]; rfl
  · intro h; exact BitVec.eq_of_toNat_eq h

/-- A received startup packet takes at least 8 bytes of the stream. -/
theorem recvStartup_consumes {r r' : Reader} {m : StartupMessage} (h : recvStartupMessage r = (.ok m, r')) :
    ∃ packet : Bytes, r.bytes = packet ++ r'.bytes ∧ 8 ≤ packet.length := by
  have h1 : (recvStartupMessage r).1 = .ok m := by rw [h]
  obtain ⟨len, body, hb, _, _, _, hk⟩ := recvStartup_ok h1
  rw [h] at hb
  refine ⟨putUint32 len ++ body, hb, ?_⟩
  have h4 : ∀ v : BitVec 32, (putUint32 v).length = 4 := fun _ => rfl
  have : 4 ≤ body.length := by
    rcases hk with ⟨_, rfl⟩ | ⟨extra, rfl⟩
    · rw [int32_toInt, h4]; omega
    · rw [int32_toInt]; simp [h4]
  simp [h4]
  omega

theorem SSLRequests_consumes {r r' : Reader} {n : Nat} (h : Spec.SSLRequests r n r') :
    ∃ packets : Bytes, r.bytes = packets ++ r'.bytes ∧ 8 * n ≤ packets.length := by
  induction h with
  | none r => exact ⟨[], rfl, by simp⟩
  | one h1 _ _ ih =>
    obtain ⟨p, hp, hl⟩ := recvStartup_consumes h1
    obtain ⟨q, hq, hl'⟩ := ih
    exact ⟨p ++ q, by rw [hp, hq]; simp, by simp; omega⟩

/-- The settings come from the answer to the first call of `Get`. -/
def Snapshot (env : HandshakeEnv) (settings : ConnectionParams) : Prop :=
  ∃ url, env.getConfig 0 = .ok url ∧ env.parseURI url = .ok settings

/-- The state in which the handshake waits for a startup packet. -/
def Waiting (s : HandshakeState) : Prop :=
  s.params = none ∧ s.getCalls = 0 ∧ s.dialed = [] ∧ s.dbConn = false ∧ s.toDB = []

/-- The database is not touched. -/
def Untouched (s : HandshakeState) : Prop := s.dialed = [] ∧ s.dbConn = false ∧ s.toDB = []

theorem getParam_first {env : HandshakeEnv} {s : HandshakeState} (name : Bytes) (h1 : s.params = none)
    (h2 : s.getCalls = 0) :
    (∃ settings, Snapshot env settings ∧
      getDBConnectionParam env name s = (.ok (settings.get name), { s with getCalls := 1, params := some settings })) ∨
    (((∃ e, (getDBConnectionParam env name s).1 = .err e) ∨ ∃ p, (getDBConnectionParam env name s).1 = .panic p) ∧
      (getDBConnectionParam env name s).2 = { s with getCalls := 1 } ∧
      ((∀ p, env.getConfig 0 ≠ .panic p) → (∀ u p, env.parseURI u ≠ .panic p) →
        ∀ p, (getDBConnectionParam env name s).1 ≠ .panic p)) := by
  unfold getDBConnectionParam
  simp only [h1, h2]
  cases hc : env.getConfig 0 with
  | err e => exact .inr ⟨.inl ⟨e, rfl⟩, rfl, by simp⟩
  | panic p => exact .inr ⟨.inr ⟨p, rfl⟩, rfl, fun h => absurd rfl (h p)⟩
  | ok url =>
    simp only
    cases hp : env.parseURI url with
    | err e => exact .inr ⟨.inl ⟨e, rfl⟩, rfl, by simp⟩
    | panic p => exact .inr ⟨.inr ⟨p, rfl⟩, rfl, fun _ h => absurd hp (h url p)⟩
    | ok settings => exact .inl ⟨settings, ⟨url, hc, hp⟩, rfl⟩

theorem getParam_cached {env : HandshakeEnv} {s : HandshakeState} {settings : ConnectionParams} (name : Bytes)
    (h : s.params = some settings) : getDBConnectionParam env name s = (.ok (settings.get name), s) := by
  unfold getDBConnectionParam
  simp only [h]

/-- What the session does once it has a startup packet that is not an SSL request. -/
theorem acceptStartup_cases (env : HandshakeEnv) (m : StartupMessage) (s : HandshakeState) (hw : Waiting s)
    (out : Res Unit × HandshakeState) (ho : acceptStartup env m s = out) :
    out.2.client = s.client ∧ out.2.toClient = s.toClient ∧ out.2.clientWrites = s.clientWrites ∧
      out.2.getCalls ≤ 1 ∧
      ((Untouched out.2 ∧ out.1 ≠ .ok ()) ∨
        ∃ settings, Snapshot env settings ∧ m.protocolVersion.toNat = 196608 ∧
          m.getParameter (ascii "database") = settings.get (ascii "database") ∧
          out.2.dialed = [joinHostPort (settings.get (ascii "host")) (settings.get (ascii "port"))] ∧
          ((out.2.toDB = [] ∧ out.2.dbConn = false ∧ out.1 ≠ .ok ()) ∨
            (out.2.dbConn = true ∧
              ((out.1 = .ok () ∧ out.2.toDB = sendMessage (.startup m)) ∨
                ((∃ e, out.1 = .err e) ∧ ∃ k, out.2.toDB = (sendMessage (.startup m)).take k))))) := by
  obtain ⟨w1, w2, w3, w4, w5⟩ := hw
  unfold acceptStartup at ho
  split at ho
  · subst ho
    exact ⟨rfl, rfl, rfl, by simp [failWith, w2], .inl ⟨⟨w3, w4, w5⟩, by simp [failWith]⟩⟩
  · rename_i hv
    have hv : m.protocolVersion.toNat = 196608 := (version3_iff m).mp (Decidable.not_not.mp hv)
    rcases getParam_first (env := env) (s := s) (ascii "database") w1 w2 with ⟨settings, hs, hg⟩ | ⟨hbad, hst, _⟩
    · rw [HS.bind_of_ok hg] at ho
      split at ho
      · subst ho
        exact ⟨rfl, rfl, rfl, by simp [failWith], .inl ⟨⟨w3, w4, w5⟩, by simp [failWith]⟩⟩
      · rename_i hdb
        have hdb := Decidable.not_not.mp hdb
        unfold establishDBConnection at ho
        rw [HS.bind_of_ok (getParam_cached _ rfl), HS.bind_of_ok (getParam_cached _ rfl)] at ho
        generalize haddr : joinHostPort (settings.get (ascii "host")) (settings.get (ascii "port")) = addr at ho
        cases hd : env.dial addr with
        | err e =>
          rw [HS.bind_of_err (show dialDB env addr _ = (.err e, _) by unfold dialDB; simp only [hd]; rfl)] at ho
          subst ho
          exact ⟨rfl, rfl, rfl, by simp, .inr ⟨settings, hs, hv, hdb, by simp [w3, haddr], .inl ⟨w5, w4, by simp⟩⟩⟩
        | panic p =>
          rw [HS.bind_of_panic (show dialDB env addr _ = (.panic p, _) by unfold dialDB; simp only [hd]; rfl)] at ho
          subst ho
          exact ⟨rfl, rfl, rfl, by simp, .inr ⟨settings, hs, hv, hdb, by simp [w3, haddr], .inl ⟨w5, w4, by simp⟩⟩⟩
        | ok u =>
          rw [HS.bind_of_ok (show dialDB env addr _ = (.ok (), _) by unfold dialDB; simp only [hd]; rfl)] at ho
          unfold sendToDB at ho
          cases hw : env.dbWrite (sendMessage (.startup m)) with
          | none =>
            simp only [hw] at ho
            subst ho
            exact ⟨by rfl, by rfl, by rfl, by simp, .inr ⟨settings, hs, hv, hdb, by simp [w3, haddr], .inr ⟨by rfl, .inl ⟨by rfl,
              by simp [w5]⟩⟩⟩⟩
          | some ne =>
            obtain ⟨k, e⟩ := ne
            simp only [hw] at ho
            subst ho
            exact ⟨by rfl, by rfl, by rfl, by simp, .inr ⟨settings, hs, hv, hdb, by simp [w3, haddr], .inr ⟨by rfl, .inr ⟨⟨e, by rfl⟩,
              k, by simp [w5]⟩⟩⟩⟩
    · have : (getDBConnectionParam env (ascii "database") >>= fun allowedDB =>
          if m.getParameter (ascii "database") ≠ allowedDB then failWith Err.databaseMismatch
          else establishDBConnection env m) s = ((match (getDBConnectionParam env (ascii "database") s).1 with
            | .ok _ => .ok () | .err e => .err e | .panic p => .panic p), { s with getCalls := 1 }) := by
        rcases hx : getDBConnectionParam env (ascii "database") s with ⟨o, s1⟩
        rw [hx] at hbad hst
        simp only at hbad hst
        subst hst
        rcases hbad with ⟨e, rfl⟩ | ⟨p, rfl⟩
        · rw [HS.bind_of_err hx]
        · rw [HS.bind_of_panic hx]
      rw [this] at ho
      subst ho
      refine ⟨rfl, rfl, rfl, by simp, .inl ⟨⟨w3, w4, w5⟩, ?_⟩⟩
      rcases hbad with ⟨e, he⟩ | ⟨p, he⟩ <;> simp [he]

/-- Everything the handshake can do. -/
theorem negotiate_cases (env : HandshakeEnv) (fuel : Nat) (s : HandshakeState) (hw : Waiting s)
    (hf : s.client.bytes.length < fuel)
    (out : Res Unit × HandshakeState) (ho : negotiateSessionParams env fuel s = out) :
    out.2.getCalls ≤ 1 ∧ ∃ n r1, Spec.SSLRequests s.client n r1 ∧
      ((∃ m, recvStartupMessage r1 = (.ok m, out.2.client) ∧ m.protocolVersion.toNat ≠ 80877103 ∧
          out.2.toClient = s.toClient ++ List.replicate n (BitVec.ofNat 8 'N'.toNat) ∧
          out.2.clientWrites = s.clientWrites + n ∧ (∀ i < n, env.clientWrite (s.clientWrites + i) = none) ∧
          ∃ s1, Waiting s1 ∧ s1.client = out.2.client ∧ s1.toClient = out.2.toClient ∧ out = acceptStartup env m s1) ∨
        (Untouched out.2 ∧ ((∃ e, (recvStartupMessage r1).1 = .err e ∧ out.1 = .err e) ∨
            ∃ p, (recvStartupMessage r1).1 = .panic p ∧ out.1 = .panic p) ∧
          out.2.client = (recvStartupMessage r1).2 ∧
          out.2.toClient = s.toClient ++ List.replicate n (BitVec.ofNat 8 'N'.toNat)) ∨
        (Untouched out.2 ∧ ∃ k e, n = k + 1 ∧ env.clientWrite (s.clientWrites + k) = some e ∧ out.1 = .err e ∧
          out.2.client = r1 ∧ out.2.toClient = s.toClient ++ List.replicate k (BitVec.ofNat 8 'N'.toNat))) := by
  induction fuel generalizing s out with
  | zero => omega
  | succ fuel ih =>
    obtain ⟨w1, w2, w3, w4, w5⟩ := hw
    rw [negotiateSessionParams] at ho
    rcases hr : recvStartupMessage s.client with ⟨o, r1⟩
    have hrecv : recvFromClient s = (o, { s with client := r1 }) := by unfold recvFromClient; rw [hr]
    cases o with
    | err e =>
      rw [HS.bind_of_err hrecv] at ho
      subst ho
      exact ⟨by simp [w2], 0, s.client, .none _, .inr (.inl ⟨⟨w3, w4, w5⟩, .inl ⟨e, by rw [hr], rfl⟩, by rw [hr],
        by simp⟩)⟩
    | panic p =>
      rw [HS.bind_of_panic hrecv] at ho
      subst ho
      exact ⟨by simp [w2], 0, s.client, .none _, .inr (.inl ⟨⟨w3, w4, w5⟩, .inr ⟨p, by rw [hr], rfl⟩, by rw [hr],
        by simp⟩)⟩
    | ok m =>
      rw [HS.bind_of_ok hrecv] at ho
      split at ho
      · rename_i hm
        have hm := (ssl_magic_iff m).mp hm
        cases hwr : env.clientWrite s.clientWrites with
        | some e =>
          rw [HS.bind_of_err (show sendByteToClient env _ { s with client := r1 } = (.err e, _) by
            unfold sendByteToClient; simp only [hwr]; rfl)] at ho
          subst ho
          exact ⟨by simp [w2], 1, r1, .one hr hm (.none _), .inr (.inr ⟨⟨w3, w4, w5⟩, 0, e, rfl, by simpa using hwr, rfl, rfl,
            by simp⟩)⟩
        | none =>
          rw [HS.bind_of_ok (show sendByteToClient env _ { s with client := r1 } = (.ok (), _) by
            unfold sendByteToClient; simp only [hwr]; rfl)] at ho
          obtain ⟨packet, hp, hl⟩ := recvStartup_consumes hr
          have hlen : r1.bytes.length < fuel := by rw [hp] at hf; simp at hf; omega
          obtain ⟨g1, n, r2, hssl, hcase⟩ := ih _ (by exact ⟨w1, w2, w3, w4, w5⟩) (by exact hlen) out ho
          have hrep : ∀ k, s.toClient ++ sendByte (BitVec.ofNat 8 'N'.toNat) ++
              List.replicate k (BitVec.ofNat 8 'N'.toNat) =
              s.toClient ++ List.replicate (k + 1) (BitVec.ofNat 8 'N'.toNat) := by
            intro k; rw [List.replicate_succ]; simp [sendByte]
          refine ⟨g1, n + 1, r2, .one hr hm hssl, ?_⟩
          rcases hcase with ⟨m', a1, a2, a3, a4, a5, s1, b1, b2, b3, b4⟩ | ⟨a1, a2, a3, a4⟩ |
              ⟨a1, k, e, a2, a3, a4, a5, a6⟩
          · left
            refine ⟨m', a1, a2, by rw [a3, hrep], by rw [a4]; simp only; omega, ?_, s1, b1, b2, b3, b4⟩
            intro i hi
            cases i with
            | zero => simpa using hwr
            | succ i =>
              have := a5 i (by omega)
              simp only at this
              rwa [show s.clientWrites + (i + 1) = s.clientWrites + 1 + i by omega]
          · right; left
            exact ⟨a1, a2, a3, by rw [a4, hrep]⟩
          · right; right
            refine ⟨a1, k + 1, e, by omega, ?_, a4, a5, by rw [a6, hrep]⟩
            simp only at a3
            rwa [show s.clientWrites + (k + 1) = s.clientWrites + 1 + k by omega]
      · rename_i hm
        have hm : m.protocolVersion.toNat ≠ 80877103 := fun h => hm ((ssl_magic_iff m).mpr h)
        obtain ⟨c1, c2, c3, c4, _⟩ := acceptStartup_cases env m { s with client := r1 } ⟨w1, w2, w3, w4, w5⟩ out ho
        refine ⟨c4, 0, s.client, .none _, .inl ⟨m, by rw [hr, c1], hm, by rw [c2]; simp, by rw [c3]; simp, by simp,
          { s with client := r1 }, ⟨w1, w2, w3, w4, w5⟩, c1.symm, c2.symm, ho.symm⟩⟩

theorem getParameter_eq (m : StartupMessage) (name : Bytes) :
    m.getParameter name = Spec.firstValue m.parameters name := by
  unfold StartupMessage.getParameter Spec.firstValue
  induction m.parameters with
  | nil => rfl
  | cons p ps ih =>
    rw [StartupMessage.getParameter.go]
    by_cases h : p.name = name
    · simp [h]
    · rw [if_neg h, ih, List.find?_cons_of_neg (by simpa using h)]

/-! ### The successful path -/

theorem acceptStartup_ok {env : HandshakeEnv} {m : StartupMessage} {s : HandshakeState} {settings : ConnectionParams}
    (hw : Waiting s) (hs : Snapshot env settings) (hv : m.protocolVersion.toNat = 196608)
    (hdb : m.getParameter (ascii "database") = settings.get (ascii "database"))
    (hd : env.dial (joinHostPort (settings.get (ascii "host")) (settings.get (ascii "port"))) = .ok ())
    (hwr : env.dbWrite (sendMessage (.startup m)) = none) :
    (acceptStartup env m s).1 = .ok () := by
  obtain ⟨w1, w2, w3, w4, w5⟩ := hw
  have hg : getDBConnectionParam env (ascii "database") s =
      (.ok (settings.get (ascii "database")), { s with getCalls := 1, params := some settings }) := by
    obtain ⟨url, h1, h2⟩ := hs
    unfold getDBConnectionParam
    simp only [w1, w2, h1, h2]
  unfold acceptStartup
  rw [if_neg (not_not_intro ((version3_iff m).mpr hv)), HS.bind_of_ok hg, if_neg (not_not_intro hdb)]
  unfold establishDBConnection
  rw [HS.bind_of_ok (getParam_cached _ rfl), HS.bind_of_ok (getParam_cached _ rfl)]
  rw [HS.bind_of_ok (show dialDB env _ _ = (.ok (), _) by unfold dialDB; simp only [hd]; rfl)]
  unfold sendToDB
  simp only [hwr]

theorem negotiate_forward {env : HandshakeEnv} {r r1 r2 : Reader} {n : Nat} {m : StartupMessage}
    (h : Spec.SSLRequests r n r1) (hm : recvStartupMessage r1 = (.ok m, r2))
    (hv : m.protocolVersion.toNat ≠ 80877103) (s : HandshakeState) (hs : s.client = r) (hw : Waiting s)
    (hwr : ∀ i < n, env.clientWrite (s.clientWrites + i) = none) (fuel : Nat) (hf : n < fuel) :
    ∃ s1, Waiting s1 ∧ s1.client = r2 ∧
      s1.toClient = s.toClient ++ List.replicate n (BitVec.ofNat 8 'N'.toNat) ∧
      negotiateSessionParams env fuel s = acceptStartup env m s1 := by
  induction h generalizing s fuel with
  | none r =>
    obtain ⟨w1, w2, w3, w4, w5⟩ := hw
    cases fuel with
    | zero => omega
    | succ fuel =>
      subst hs
      have hrecv : recvFromClient s = (.ok m, { s with client := r2 }) := by unfold recvFromClient; rw [hm]
      refine ⟨{ s with client := r2 }, ⟨w1, w2, w3, w4, w5⟩, rfl, by simp, ?_⟩
      rw [negotiateSessionParams, HS.bind_of_ok hrecv, if_neg (fun h => hv ((ssl_magic_iff m).mp h))]
  | @one r r1' r' m' n h1 hv1 _ ih =>
    obtain ⟨w1, w2, w3, w4, w5⟩ := hw
    cases fuel with
    | zero => omega
    | succ fuel =>
      subst hs
      have hrecv : recvFromClient s = (.ok m', { s with client := r1' }) := by unfold recvFromClient; rw [h1]
      have h0 : env.clientWrite s.clientWrites = none := hwr 0 (by omega)
      have hsend : sendByteToClient env (BitVec.ofNat 8 'N'.toNat) { s with client := r1' } =
          (.ok (), { s with client := r1', clientWrites := s.clientWrites + 1, toClient := s.toClient ++ sendByte (BitVec.ofNat 8 'N'.toNat) }) := by
        unfold sendByteToClient; simp only [h0]
      rw [negotiateSessionParams, HS.bind_of_ok hrecv, if_pos ((ssl_magic_iff m').mpr hv1), HS.bind_of_ok hsend]
      obtain ⟨s1, a, b, c, d⟩ := ih hm { s with client := r1', clientWrites := s.clientWrites + 1, toClient := s.toClient ++ sendByte (BitVec.ofNat 8 'N'.toNat) } rfl ⟨w1, w2, w3, w4, w5⟩ (by
        intro i hi
        have := hwr (i + 1) (by omega)
        rwa [show s.clientWrites + (i + 1) = s.clientWrites + 1 + i by omega] at this) fuel (by omega)
      refine ⟨s1, a, b, ?_, d⟩
      rw [c, List.replicate_succ]
      simp [sendByte]

theorem sslRequestPacket_eq : Spec.sslRequestPacket = sendMessage (.startup ⟨80877103, []⟩) := by decide

/-- Copies of the SSL request packet are SSL requests, however they are segmented. -/
theorem SSLRequests_of_bytes (n : Nat) (r : Reader) (rest : Bytes)
    (h : r.bytes = (List.replicate n Spec.sslRequestPacket).flatten ++ rest) :
    ∃ r', Spec.SSLRequests r n r' ∧ r'.bytes = rest ∧ r'.final = r.final := by
  induction n generalizing r with
  | zero => exact ⟨r, .none r, by simpa using h, rfl⟩
  | succ n ih =>
    rw [List.replicate_succ, List.flatten_cons, sslRequestPacket_eq, List.append_assoc, ← sslRequestPacket_eq] at h
    have hwf : Spec.WellFormed (.startup ⟨80877103, []⟩) := by decide
    obtain ⟨h1, h2, h3⟩ := startup_roundtrip hwf (by rw [h, sslRequestPacket_eq])
    obtain ⟨r', a, b, c⟩ := ih (recvStartupMessage r).2 (by rw [h2, sslRequestPacket_eq])
    exact ⟨r', .one (Prod.ext h1 rfl) rfl a, b, by rw [c, h3]⟩

/-! ### No panics, no dependence on fuel -/

def HS.NoPanic {α : Type} (x : HS α) : Prop := ∀ s p, (x s).1 ≠ .panic p

theorem HS.NoPanic.bind {α β : Type} {x : HS α} {f : α → HS β} (hx : x.NoPanic) (hf : ∀ a, (f a).NoPanic) :
    HS.NoPanic (x >>= f) := by
  intro s p
  rcases h : x s with ⟨o, s'⟩
  cases o with
  | ok a => rw [HS.bind_of_ok h]; exact hf a s' p
  | err e => rw [HS.bind_of_err h]; simp
  | panic q => exact absurd (by rw [h]) (hx s q)

theorem getParam_noPanic {env : HandshakeEnv} (h1 : ∀ i p, env.getConfig i ≠ .panic p)
    (h2 : ∀ u p, env.parseURI u ≠ .panic p) (name : Bytes) : (getDBConnectionParam env name).NoPanic := by
  intro s p
  unfold getDBConnectionParam
  cases s.params with
  | some ps => simp
  | none =>
    simp only
    cases hc : env.getConfig s.getCalls with
    | err e => simp
    | panic q => exact absurd hc (h1 _ q)
    | ok u =>
      simp only
      cases hp : env.parseURI u with
      | err e => simp
      | panic q => exact absurd hp (h2 u q)
      | ok ps => simp

theorem acceptStartup_noPanic {env : HandshakeEnv} (h1 : ∀ i p, env.getConfig i ≠ .panic p)
    (h2 : ∀ u p, env.parseURI u ≠ .panic p) (h3 : ∀ a p, env.dial a ≠ .panic p) (m : StartupMessage) :
    (acceptStartup env m).NoPanic := by
  unfold acceptStartup
  split
  · intro s p; simp [failWith]
  · refine (getParam_noPanic h1 h2 _).bind fun db => ?_
    split
    · intro s p; simp [failWith]
    · unfold establishDBConnection
      refine (getParam_noPanic h1 h2 _).bind fun host => (getParam_noPanic h1 h2 _).bind fun port =>
        HS.NoPanic.bind ?_ fun _ => ?_
      · intro s p
        unfold dialDB
        cases hd : env.dial (joinHostPort host port) with
        | ok u => simp
        | err e => simp
        | panic q => exact absurd hd (h3 _ q)
      · intro s p
        unfold sendToDB
        cases env.dbWrite (sendMessage (.startup m)) <;> simp

theorem negotiate_fuel (env : HandshakeEnv) (fuel fuel' : Nat) (s : HandshakeState)
    (h : s.client.bytes.length < fuel) (h' : s.client.bytes.length < fuel') :
    negotiateSessionParams env fuel s = negotiateSessionParams env fuel' s := by
  induction fuel generalizing s fuel' with
  | zero => omega
  | succ fuel ih =>
    cases fuel' with
    | zero => omega
    | succ fuel' =>
      rw [negotiateSessionParams, negotiateSessionParams]
      rcases hr : recvStartupMessage s.client with ⟨o, r1⟩
      have hrecv : recvFromClient s = (o, { s with client := r1 }) := by unfold recvFromClient; rw [hr]
      cases o with
      | err e => rw [HS.bind_of_err hrecv, HS.bind_of_err hrecv]
      | panic p => rw [HS.bind_of_panic hrecv, HS.bind_of_panic hrecv]
      | ok m =>
        rw [HS.bind_of_ok hrecv, HS.bind_of_ok hrecv]
        obtain ⟨packet, hp, hl⟩ := recvStartup_consumes hr
        have hlen : s.client.bytes.length = packet.length + r1.bytes.length := by rw [hp]; simp
        split
        · cases hwr : env.clientWrite s.clientWrites with
          | some e =>
            have : ∀ c, sendByteToClient env c { s with client := r1 } =
                (.err e, { s with client := r1, clientWrites := s.clientWrites + 1 }) := by
              intro c; unfold sendByteToClient; simp only [hwr]
            rw [HS.bind_of_err (this _), HS.bind_of_err (this _)]
          | none =>
            have : ∀ c, sendByteToClient env c { s with client := r1 } =
                (.ok (), { s with client := r1, clientWrites := s.clientWrites + 1, toClient := s.toClient ++ sendByte c }) := by
              intro c; unfold sendByteToClient; simp only [hwr]
            rw [HS.bind_of_ok (this _), HS.bind_of_ok (this _)]
            exact ih _ _ (by simp only; omega) (by simp only; omega)
        · rfl

end Gevulot
