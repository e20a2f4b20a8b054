import Verif.Proofs.Handshake
import Verif.Props.DSN

/-!
# C27–C32: the handshake of a session

`env` is everything outside: the configurations returned by successive calls of the store, URI parsing, dialling, the
outcomes of writes. `client` is what the client sends, in any segmentation, and how its stream ends. Both are arbitrary.
`(handshake env client).1` is what the handshake returns and `.2` what it did.
-/

namespace Gevulot

/-! ## C27 The database is contacted only for the configured database name -/

/-- C27. If the database was dialled, a connection exists or bytes were sent to it, then the client had sent `n ≥ 0` SSL
requests and a version 3.0 startup message `m` whose first `database` parameter is the configured database, and the only
address dialled is the configured one. -/
theorem C27_gate (env : HandshakeEnv) (client : Reader)
    (h : (handshake env client).2.dialed ≠ [] ∨ (handshake env client).2.dbConn = true ∨
      (handshake env client).2.toDB ≠ []) :
    ∃ n m url settings, Spec.Opening client n m (handshake env client).2.client ∧
      m.protocolVersion.toNat = 196608 ∧ env.getConfig 0 = .ok url ∧ env.parseURI url = .ok settings ∧
      Spec.firstValue m.parameters (ascii "database") = settings.get (ascii "database") ∧
      (handshake env client).2.dialed = [joinHostPort (settings.get (ascii "host")) (settings.get (ascii "port"))] := by
  obtain ⟨_, n, r1, hssl, hc⟩ := negotiate_cases env (client.bytes.length + 1) { client := client }
    ⟨rfl, rfl, rfl, rfl, rfl⟩ (Nat.lt_succ_self _) (handshake env client) rfl
  have no : ¬ Untouched (handshake env client).2 := by
    rintro ⟨a, b, c⟩
    rw [a, b, c] at h
    simp at h
  rcases hc with ⟨m, hm, hv, _, _, _, s1, hw, _, _, ho⟩ | ⟨hu, _⟩ | ⟨hu, _⟩
  · obtain ⟨_, _, _, _, ⟨hu, _⟩ | ⟨settings, ⟨url, h1, h2⟩, h3, h4, h5, _⟩⟩ := acceptStartup_cases env m s1 hw _ ho.symm
    · exact absurd hu no
    · exact ⟨n, m, url, settings, ⟨r1, hssl, hm, hv⟩, h3, h1, h2, by rw [← getParameter_eq]; exact h4, h5⟩
  · exact absurd hu no
  · exact absurd hu no

/-- C27, the other direction: such a client is let in (if the database can be dialled and written to). -/
theorem C27_accepted (env : HandshakeEnv) (client rest : Reader) (n : Nat) (m : StartupMessage) (url : Bytes)
    (settings : ConnectionParams) (ho : Spec.Opening client n m rest) (hv : m.protocolVersion.toNat = 196608)
    (hu : env.getConfig 0 = .ok url) (hs : env.parseURI url = .ok settings)
    (hdb : Spec.firstValue m.parameters (ascii "database") = settings.get (ascii "database"))
    (hd : env.dial (joinHostPort (settings.get (ascii "host")) (settings.get (ascii "port"))) = .ok ())
    (hc : ∀ i < n, env.clientWrite i = none) (hw : env.dbWrite (sendMessage (.startup m)) = none) :
    (handshake env client).1 = .ok () := by
  obtain ⟨r1, h1, h2, h3⟩ := ho
  obtain ⟨p, hp, hl⟩ := SSLRequests_consumes h1
  have hlen : n < client.bytes.length + 1 := by rw [hp]; simp; omega
  obtain ⟨s1, a, b, c, d⟩ := negotiate_forward h1 h2 h3 { client := client } rfl ⟨rfl, rfl, rfl, rfl, rfl⟩
    (by simpa using hc) (client.bytes.length + 1) hlen
  unfold handshake
  rw [d]
  exact acceptStartup_ok a ⟨url, hu, hs⟩ hv (by rw [getParameter_eq]; exact hdb) hd hw

/-- Settings of `postgres://db.example/app`. -/
def exampleSettings : ConnectionParams :=
  ConnectionParams.set (ConnectionParams.set (ConnectionParams.set (fun _ => none) (ascii "host") (ascii "db.example"))
    (ascii "port") (ascii "5432")) (ascii "database") (ascii "app")

/-- A world in which the second configuration differs from the first and every write succeeds. -/
def exampleEnv : HandshakeEnv :=
  { getConfig := fun i => .ok (if i = 0 then ascii "one" else ascii "two")
    parseURI := fun u => if u = ascii "one" then .ok exampleSettings else .ok fun _ => none
    dial := fun _ => .ok ()
    clientWrite := fun _ => none
    dbWrite := fun _ => none }

/-- A client that asks for SSL twice, in odd segments, and then for database `app`; `[81]` follows. -/
def exampleClient : Reader :=
  ⟨[[0, 0, 0], [8, 4, 210, 22, 47], Spec.sslRequestPacket ++
    sendMessage (.startup ⟨196608, [⟨ascii "user", ascii "u"⟩, ⟨ascii "database", ascii "app"⟩]⟩) ++ [81]], .eof⟩

set_option maxRecDepth 100000 in
example : (handshake exampleEnv exampleClient).1 = .ok () ∧
    (handshake exampleEnv exampleClient).2.dialed = [ascii "db.example:5432"] ∧
    (handshake exampleEnv exampleClient).2.toClient = ascii "NN" ∧
    (handshake exampleEnv exampleClient).2.client.bytes = [81] := by decide

/-- C27 with the URI parser of pkg/pg/dsn.go: in terms of the URL of the first configuration. -/
theorem C27_url (env : HandshakeEnv) (client : Reader) (parse : Bytes → Res URL) (osUser : Option Bytes)
    (order : List (Bytes × List Bytes) → List (Bytes × List Bytes)) (horder : ∀ l, (order l).Perm l)
    (hp : env.parseURI = parseDatabaseURI parse osUser order) (h : (handshake env client).2.dialed ≠ []) :
    ∃ n m s u, Spec.Opening client n m (handshake env client).2.client ∧ env.getConfig 0 = .ok s ∧ parse s = .ok u ∧
      (u.scheme = ascii "postgres" ∨ u.scheme = ascii "postgresql") ∧
      some (Spec.firstValue m.parameters (ascii "database")) = Spec.setting u osUser (ascii "database") ∧
      ∃ host port, Spec.setting u osUser (ascii "host") = some host ∧ Spec.setting u osUser (ascii "port") = some port ∧
        (handshake env client).2.dialed = [joinHostPort host port] := by
  obtain ⟨n, m, url, settings, h1, _, h3, h4, h5, h6⟩ := C27_gate env client (.inl h)
  rw [hp] at h4
  obtain ⟨u, hu, hs⟩ := (C24_scheme parse osUser order horder url).1.mp ⟨settings, h4⟩
  have hset := C25_settings parse osUser order horder url u settings hu h4
  have ex : ∀ key, key = ascii "host" ∨ key = ascii "port" ∨ key = ascii "database" →
      Spec.setting u osUser key = some (settings.get key) := by
    intro key hk
    rw [ConnectionParams.get, hset]
    have : ∃ v, Spec.setting u osUser key = some v := by
      unfold Spec.setting
      cases Spec.firstQueryValue u key with
      | some v => exact ⟨v, rfl⟩
      | none =>
        rcases hk with rfl | rfl | rfl
        · exact ⟨_, if_pos rfl⟩
        · exact ⟨_, by rw [if_neg (by decide), if_pos rfl]⟩
        · exact ⟨_, by rw [if_neg (by decide), if_neg (by decide), if_neg (by decide), if_neg (by decide), if_pos rfl]⟩
    obtain ⟨v, hv⟩ := this
    rw [hv]; rfl
  exact ⟨n, m, url, u, h1, h3, hu, hs, by rw [h5, ex _ (.inr (.inr rfl))], _, _, ex _ (.inl rfl), ex _ (.inr (.inl rfl)), h6⟩

/-! ## C28 A client cannot reach another database -/

/-- A startup message that names two databases. -/
def twoDatabases : StartupMessage :=
  ⟨196608, [⟨ascii "user", ascii "u"⟩, ⟨ascii "database", ascii "app"⟩, ⟨ascii "database", ascii "secret"⟩]⟩

set_option maxRecDepth 100000 in
/-- C28 is false: a client that names the configured database first and another one second is let in, its startup message
is forwarded as it is, and PostgreSQL connects it to the other one. -/
theorem C28_refuted : ∃ (env : HandshakeEnv) (client : Reader) (settings : ConnectionParams),
    (handshake env client).1 = .ok () ∧ Snapshot env settings ∧
    (handshake env client).2.toDB = sendMessage (.startup twoDatabases) ∧
    settings.get (ascii "database") = ascii "app" ∧ Spec.pgDatabase twoDatabases = ascii "secret" :=
  ⟨exampleEnv, ⟨[sendMessage (.startup twoDatabases)], .eof⟩, exampleSettings, by decide,
    ⟨ascii "one", rfl, rfl⟩, by decide, by decide, by decide⟩

theorem firstValue_eq_last {params : List StartupParameter} {name : Bytes}
    (h : (params.filter (fun p => p.name == name)).length ≤ 1) :
    Spec.lastValue params name = (params.find? (fun p => p.name == name)).map StartupParameter.value := by
  unfold Spec.lastValue
  congr 1
  rw [← List.head?_filter, ← List.head?_filter, List.filter_reverse, List.head?_reverse]
  match hl : params.filter (fun p => p.name == name) with
  | [] => rw [hl]; rfl
  | [x] => rw [hl]; rfl
  | x :: y :: zs => rw [hl] at h; simp at h

/-- An accepted client: its startup message is forwarded, and the first `database` in it is the configured one. -/
theorem accepted_first (env : HandshakeEnv) (client : Reader) (h : (handshake env client).1 = .ok ())
    (settings : ConnectionParams) (hs : Snapshot env settings) :
    ∃ n m, Spec.Opening client n m (handshake env client).2.client ∧
      (handshake env client).2.toDB = sendMessage (.startup m) ∧
      Spec.firstValue m.parameters (ascii "database") = settings.get (ascii "database") := by
  obtain ⟨_, n, r1, hssl, hc⟩ := negotiate_cases env (client.bytes.length + 1) { client := client }
    ⟨rfl, rfl, rfl, rfl, rfl⟩ (Nat.lt_succ_self _) (handshake env client) rfl
  rcases hc with ⟨m, hm, hv, _, _, _, s1, hw, _, _, ho⟩ | ⟨_, hu, _⟩ | ⟨_, k, e, _, _, hu, _⟩
  · obtain ⟨_, _, _, _, hcase⟩ := acceptStartup_cases env m s1 hw _ ho.symm
    rcases hcase with ⟨_, hu⟩ | ⟨settings', ⟨url', g1, g2⟩, h3, h4, h5, hrest⟩
    · exact absurd h hu
    · obtain ⟨url, f1, f2⟩ := hs
      have : settings' = settings := by
        rw [f1, Res.ok.injEq] at g1
        rw [← g1, f2, Res.ok.injEq] at g2
        exact g2.symm
      subst this
      rcases hrest with ⟨_, _, hu⟩ | ⟨_, ⟨_, hdb⟩ | ⟨⟨e, he⟩, _⟩⟩
      · exact absurd h hu
      · rw [getParameter_eq] at h4
        exact ⟨n, m, ⟨r1, hssl, hm, hv⟩, hdb, h4⟩
      · rw [he] at h; simp at h
  · rcases hu with ⟨e, _, hu⟩ | ⟨p, _, hu⟩ <;> rw [hu] at h <;> simp at h
  · rw [hu] at h; simp at h

/-- C28, for clients that name at most one database, when the configured name is not empty: the startup message that
reaches PostgreSQL connects to the configured database. Missing for the full statement: messages that repeat the
parameter (false, see `C28_refuted`). -/
theorem C28_partial (env : HandshakeEnv) (client : Reader) (h : (handshake env client).1 = .ok ())
    (settings : ConnectionParams) (hs : Snapshot env settings) (hne : settings.get (ascii "database") ≠ []) :
    ∃ n m, Spec.Opening client n m (handshake env client).2.client ∧
      (handshake env client).2.toDB = sendMessage (.startup m) ∧
      ((m.parameters.filter (fun p => p.name == ascii "database")).length ≤ 1 →
        Spec.pgDatabase m = settings.get (ascii "database")) := by
  obtain ⟨n, m, h1, h2, h4⟩ := accepted_first env client h settings hs
  refine ⟨n, m, h1, h2, fun hone => ?_⟩
  unfold Spec.firstValue at h4
  unfold Spec.pgDatabase
  rw [firstValue_eq_last hone]
  generalize (m.parameters.find? (fun p => p.name == ascii "database")).map StartupParameter.value = o at h4
  cases o with
  | none => exact absurd h4.symm hne
  | some v =>
    cases v with
    | nil => exact absurd h4.symm hne
    | cons c cs => exact h4

/-- C28, exactly when it holds, when the configured name is not empty: PostgreSQL connects an accepted client to the configured
database if the last `database` parameter names it, or is empty and the user has that name, and only then. (Its first
`database` parameter is the configured name.) -/
theorem C28_exact_partial (env : HandshakeEnv) (client : Reader) (h : (handshake env client).1 = .ok ())
    (settings : ConnectionParams) (hs : Snapshot env settings) (hne : settings.get (ascii "database") ≠ []) :
    ∃ n m, Spec.Opening client n m (handshake env client).2.client ∧
      (handshake env client).2.toDB = sendMessage (.startup m) ∧
      Spec.firstValue m.parameters (ascii "database") = settings.get (ascii "database") ∧
      (Spec.pgDatabase m = settings.get (ascii "database") ↔
        Spec.lastValue m.parameters (ascii "database") = some (settings.get (ascii "database")) ∨
        (Spec.lastValue m.parameters (ascii "database") = some [] ∧
          Spec.lastValue m.parameters (ascii "user") = some (settings.get (ascii "database")))) := by
  obtain ⟨n, m, h1, h2, h4⟩ := accepted_first env client h settings hs
  refine ⟨n, m, h1, h2, h4, ?_⟩
  have hsome : ∃ v, Spec.lastValue m.parameters (ascii "database") = some v := by
    unfold Spec.firstValue at h4
    unfold Spec.lastValue
    cases hf : m.parameters.find? (fun p => p.name == ascii "database") with
    | none => rw [hf] at h4; exact absurd h4.symm hne
    | some p =>
      have hp := List.mem_of_find?_eq_some hf
      have hq := List.find?_some hf
      cases hg : m.parameters.reverse.find? (fun p => p.name == ascii "database") with
      | none => exact absurd hq (List.find?_eq_none.mp hg p (List.mem_reverse.mpr hp))
      | some q => exact ⟨q.value, rfl⟩
  obtain ⟨v, hv⟩ := hsome
  generalize settings.get (ascii "database") = d at hne
  unfold Spec.pgDatabase
  rw [hv]
  cases v with
  | nil =>
    cases Spec.lastValue m.parameters (ascii "user") with
    | none => simp [Ne.symm hne]
    | some u => simp [Ne.symm hne]
  | cons c cs => simp

example : Snapshot exampleEnv exampleSettings ∧ exampleSettings.get (ascii "database") ≠ [] :=
  ⟨⟨ascii "one", rfl, rfl⟩, by decide⟩

/-! ## C29 SSL requests are denied with exactly one 'N' each -/

/-- C29. The client's stream starts with exactly `n` SSL requests that the handshake received (what comes next is not one),
the client got `n` bytes `N` and nothing else; or sending the `N` for the last one failed, which ends the handshake with
that error. -/
theorem C29_one_each (env : HandshakeEnv) (client : Reader) :
    ∃ n r1, Spec.SSLRequests client n r1 ∧
      (((∀ m, (recvStartupMessage r1).1 = .ok m → m.protocolVersion.toNat ≠ 80877103) ∧
          (handshake env client).2.client = (recvStartupMessage r1).2 ∧
          (handshake env client).2.toClient = List.replicate n (BitVec.ofNat 8 'N'.toNat)) ∨
        ∃ k e, n = k + 1 ∧ env.clientWrite k = some e ∧ (handshake env client).1 = .err e ∧
          (handshake env client).2.client = r1 ∧
          (handshake env client).2.toClient = List.replicate k (BitVec.ofNat 8 'N'.toNat)) := by
  obtain ⟨_, n, r1, hssl, hc⟩ := negotiate_cases env (client.bytes.length + 1) { client := client }
    ⟨rfl, rfl, rfl, rfl, rfl⟩ (Nat.lt_succ_self _) (handshake env client) rfl
  refine ⟨n, r1, hssl, ?_⟩
  rcases hc with ⟨m, hm, hv, h1, _⟩ | ⟨_, hu, h1, h2⟩ | ⟨_, k, e, h1, h2, h3, h4, h5⟩
  · left
    refine ⟨fun m' hm' => ?_, by rw [hm], by simpa using h1⟩
    rw [hm] at hm'
    simp only [Res.ok.injEq] at hm'
    rw [← hm']; exact hv
  · left
    refine ⟨fun m' hm' => ?_, h1, by simpa using h2⟩
    rcases hu with ⟨e, he, _⟩ | ⟨p, he, _⟩ <;> rw [he] at hm' <;> simp at hm'
  · right
    exact ⟨k, e, h1, by simpa using h2, h3, h4, by simpa using h5⟩

/-- C29 on the wire: `n` SSL request packets followed by a startup message that is not one; `m` is then dealt with. -/
theorem C29_bytes (env : HandshakeEnv) (client : Reader) (n : Nat) (m : StartupMessage) (rest : Bytes)
    (hb : client.bytes = (List.replicate n Spec.sslRequestPacket).flatten ++ sendMessage (.startup m) ++ rest)
    (hm : Spec.WellFormed (.startup m)) (hv : m.protocolVersion.toNat ≠ 80877103)
    (hw : ∀ i < n, env.clientWrite i = none) :
    (handshake env client).2.toClient = List.replicate n (BitVec.ofNat 8 'N'.toNat) ∧
      (handshake env client).2.client.bytes = rest := by
  rw [List.append_assoc] at hb
  obtain ⟨r1, h1, h2, _⟩ := SSLRequests_of_bytes n client _ hb
  obtain ⟨g1, g2, _⟩ := startup_roundtrip hm h2
  obtain ⟨p, hp, hl⟩ := SSLRequests_consumes h1
  have hlen : n < client.bytes.length + 1 := by rw [hp]; simp; omega
  obtain ⟨s1, a, b, c, d⟩ := negotiate_forward (env := env) h1 (Prod.ext g1 rfl) hv { client := client } rfl
    ⟨rfl, rfl, rfl, rfl, rfl⟩ (by simpa using hw) (client.bytes.length + 1) hlen
  obtain ⟨e1, e2, _⟩ := acceptStartup_cases env m s1 a _ d.symm
  unfold handshake
  rw [e1, e2, c, b]
  exact ⟨by simp, g2⟩

example : Spec.WellFormed (.startup twoDatabases) ∧ twoDatabases.protocolVersion.toNat ≠ 80877103 := by decide
example : ∀ i < 2, exampleEnv.clientWrite i = none := fun _ _ => rfl

/-! ## C30 The client's startup message is forwarded intact -/

/-- C30. On success the database got exactly the encoding of the startup message the client sent. -/
theorem C30_forwarded (env : HandshakeEnv) (client : Reader) (h : (handshake env client).1 = .ok ()) :
    ∃ n m, Spec.Opening client n m (handshake env client).2.client ∧
      (handshake env client).2.toDB = sendMessage (.startup m) := by
  obtain ⟨_, n, r1, hssl, hc⟩ := negotiate_cases env (client.bytes.length + 1) { client := client }
    ⟨rfl, rfl, rfl, rfl, rfl⟩ (Nat.lt_succ_self _) (handshake env client) rfl
  rcases hc with ⟨m, hm, hv, _, _, _, s1, hw, _, _, ho⟩ | ⟨_, hu, _⟩ | ⟨_, k, e, _, _, hu, _⟩
  · obtain ⟨_, _, _, _, hcase⟩ := acceptStartup_cases env m s1 hw _ ho.symm
    rcases hcase with ⟨_, hu⟩ | ⟨settings', _, h3, h4, h5, hrest⟩
    · exact absurd h hu
    · rcases hrest with ⟨_, _, hu⟩ | ⟨_, ⟨_, hdb⟩ | ⟨⟨e, he⟩, _⟩⟩
      · exact absurd h hu
      · exact ⟨n, m, ⟨r1, hssl, hm, hv⟩, hdb⟩
      · rw [he] at h; simp at h
  · rcases hu with ⟨e, _, hu⟩ | ⟨p, _, hu⟩ <;> rw [hu] at h <;> simp at h
  · rw [hu] at h; simp at h

theorem Opening_bytes {client rest' : Reader} {n n' : Nat} {m m' : StartupMessage} {rest : Bytes}
    (hb : client.bytes = (List.replicate n Spec.sslRequestPacket).flatten ++ sendMessage (.startup m) ++ rest)
    (hm : Spec.WellFormed (.startup m)) (hv : m.protocolVersion.toNat ≠ 80877103)
    (ho : Spec.Opening client n' m' rest') : n' = n ∧ m' = m ∧ rest'.bytes = rest := by
  obtain ⟨r1', h1, h2, h3⟩ := ho
  induction h1 generalizing n with
  | none r =>
    cases n with
    | zero =>
      obtain ⟨g1, g2, _⟩ := startup_roundtrip hm (by simpa using hb)
      rw [h2] at g1 g2
      simp only [Res.ok.injEq] at g1
      exact ⟨rfl, g1, g2⟩
    | succ n =>
      rw [List.replicate_succ, List.flatten_cons, List.append_assoc, List.append_assoc] at hb
      have hwf : Spec.WellFormed (.startup ⟨80877103, []⟩) := by decide
      obtain ⟨g1, _, _⟩ := startup_roundtrip hwf (by rw [hb, ← sslRequestPacket_eq])
      rw [h2] at g1
      simp only [Res.ok.injEq] at g1
      rw [g1] at h3
      exact absurd rfl h3
  | @one r r1 r' m1 k g1 g2 _ ih =>
    cases n with
    | zero =>
      obtain ⟨f1, _, _⟩ := startup_roundtrip hm (by simpa using hb)
      rw [g1] at f1
      simp only [Res.ok.injEq] at f1
      rw [f1] at g2
      exact absurd g2 hv
    | succ n =>
      rw [List.replicate_succ, List.flatten_cons, List.append_assoc, List.append_assoc] at hb
      have hwf : Spec.WellFormed (.startup ⟨80877103, []⟩) := by decide
      obtain ⟨_, f2, _⟩ := startup_roundtrip hwf (by rw [hb, ← sslRequestPacket_eq])
      rw [g1] at f2
      obtain ⟨a, b, c⟩ := ih (n := n) (by rw [f2]; simp) h2
      exact ⟨by rw [a], b, c⟩

/-- C30 on the wire: a well-formed startup packet, after any number of SSL requests, reaches the database byte for byte. -/
theorem C30_bytes (env : HandshakeEnv) (client : Reader) (n : Nat) (m : StartupMessage) (rest : Bytes)
    (hb : client.bytes = (List.replicate n Spec.sslRequestPacket).flatten ++ sendMessage (.startup m) ++ rest)
    (hm : Spec.WellFormed (.startup m)) (hv : m.protocolVersion.toNat ≠ 80877103)
    (h : (handshake env client).1 = .ok ()) :
    (handshake env client).2.toDB = sendMessage (.startup m) ∧ (handshake env client).2.client.bytes = rest := by
  obtain ⟨n', m', ho, hdb⟩ := C30_forwarded env client h
  obtain ⟨_, rfl, hrest⟩ := Opening_bytes hb hm hv ho
  exact ⟨hdb, hrest⟩

set_option maxRecDepth 100000 in
example : exampleClient.bytes = (List.replicate 2 Spec.sslRequestPacket).flatten ++
    sendMessage (.startup ⟨196608, [⟨ascii "user", ascii "u"⟩, ⟨ascii "database", ascii "app"⟩]⟩) ++ [81] := by decide

/-! ## C31 A session uses one configuration snapshot -/

/-- C31. The store is asked at most once ... -/
theorem C31_asked_once (env : HandshakeEnv) (client : Reader) : (handshake env client).2.getCalls ≤ 1 :=
  (negotiate_cases env (client.bytes.length + 1) { client := client } ⟨rfl, rfl, rfl, rfl, rfl⟩ (Nat.lt_succ_self _)
    (handshake env client) rfl).1

theorem acceptStartup_config (env env' : HandshakeEnv) (h : env' = { env with getConfig := env'.getConfig })
    (h0 : env'.getConfig 0 = env.getConfig 0) (m : StartupMessage) (s : HandshakeState) (hw : Waiting s) :
    acceptStartup env m s = acceptStartup env' m s := by
  obtain ⟨w1, w2, _⟩ := hw
  have hp : env'.parseURI = env.parseURI := by rw [h]
  have hd : env'.dial = env.dial := by rw [h]
  have hwr : env'.dbWrite = env.dbWrite := by rw [h]
  have hget : ∀ name, getDBConnectionParam env name s = getDBConnectionParam env' name s := by
    intro name; unfold getDBConnectionParam; simp only [w1, w2, h0, hp]
  unfold acceptStartup
  split
  · rfl
  · rcases getParam_first (env := env) (s := s) (ascii "database") w1 w2 with ⟨settings, _, hg⟩ | ⟨hbad, hst, _⟩
    · rw [HS.bind_of_ok hg, HS.bind_of_ok ((hget _).symm.trans hg)]
      split
      · rfl
      · unfold establishDBConnection
        rw [HS.bind_of_ok (getParam_cached _ rfl), HS.bind_of_ok (getParam_cached _ rfl),
          HS.bind_of_ok (getParam_cached _ rfl), HS.bind_of_ok (getParam_cached _ rfl)]
        have e1 : dialDB env = dialDB env' := by funext a s; unfold dialDB; rw [hd]
        have e2 : sendToDB env = sendToDB env' := by funext a s; unfold sendToDB; rw [hwr]
        rw [e1, e2]
    · rcases hx : getDBConnectionParam env (ascii "database") s with ⟨o, s1⟩
      rw [hx] at hbad
      rcases hbad with ⟨e, he⟩ | ⟨p, he⟩
      · simp only at he; subst he
        rw [HS.bind_of_err hx, HS.bind_of_err ((hget _).symm.trans hx)]
      · simp only at he; subst he
        rw [HS.bind_of_panic hx, HS.bind_of_panic ((hget _).symm.trans hx)]

/-- ... and the handshake behaves the same whatever the store would have answered later. -/
theorem C31_snapshot (env : HandshakeEnv) (later : Nat → Res Bytes) (h : later 0 = env.getConfig 0) (client : Reader) :
    handshake { env with getConfig := later } client = handshake env client := by
  have main : ∀ fuel (s : HandshakeState), Waiting s →
      negotiateSessionParams { env with getConfig := later } fuel s = negotiateSessionParams env fuel s := by
    intro fuel
    induction fuel with
    | zero => intros; rfl
    | succ fuel ih =>
      intro s hw
      obtain ⟨w1, w2, w3, w4, w5⟩ := hw
      rw [negotiateSessionParams, negotiateSessionParams]
      rcases hr : recvFromClient s with ⟨o, s1⟩
      have hs1 : Waiting s1 := by
        have : s1 = { s with client := (recvStartupMessage s.client).2 } := by
          rw [show s1 = (recvFromClient s).2 by rw [hr]]; rfl
        rw [this]; exact ⟨w1, w2, w3, w4, w5⟩
      cases o with
      | err e => rw [HS.bind_of_err hr, HS.bind_of_err hr]
      | panic e => rw [HS.bind_of_panic hr, HS.bind_of_panic hr]
      | ok m =>
        rw [HS.bind_of_ok hr, HS.bind_of_ok hr]
        split
        · have e1 : ∀ c, sendByteToClient { env with getConfig := later } c = sendByteToClient env c := fun _ => rfl
          rw [e1]
          rcases hb : sendByteToClient env (BitVec.ofNat 8 'N'.toNat) s1 with ⟨o2, s2⟩
          cases o2 with
          | err e => rw [HS.bind_of_err hb, HS.bind_of_err hb]
          | panic e => rw [HS.bind_of_panic hb, HS.bind_of_panic hb]
          | ok u =>
            rw [HS.bind_of_ok hb, HS.bind_of_ok hb]
            refine ih s2 ?_
            obtain ⟨v1, v2, v3, v4, v5⟩ := hs1
            unfold sendByteToClient at hb
            cases hwr : env.clientWrite s1.clientWrites with
            | some e => simp [hwr] at hb
            | none =>
              simp only [hwr, Prod.mk.injEq] at hb
              rw [← hb.2]
              exact ⟨v1, v2, v3, v4, v5⟩
        · exact (acceptStartup_config env _ rfl h m s1 hs1).symm
  exact main _ _ ⟨rfl, rfl, rfl, rfl, rfl⟩

example : (fun _ => .ok (ascii "one") : Nat → Res Bytes) 0 = exampleEnv.getConfig 0 := rfl

/-! ## C32 The handshake finishes on every finite input -/

/-- C32. On every finite client stream the handshake returns success or an error: neither the recursion bound of the model
nor a panic is reached (provided the functions it calls return and do not panic). -/
theorem C32_finishes (env : HandshakeEnv) (client : Reader) (h1 : ∀ i p, env.getConfig i ≠ .panic p)
    (h2 : ∀ u p, env.parseURI u ≠ .panic p) (h3 : ∀ a p, env.dial a ≠ .panic p) :
    (handshake env client).1 = .ok () ∨ ∃ e, (handshake env client).1 = .err e := by
  obtain ⟨_, n, r1, hssl, hc⟩ := negotiate_cases env (client.bytes.length + 1) { client := client }
    ⟨rfl, rfl, rfl, rfl, rfl⟩ (Nat.lt_succ_self _) (handshake env client) rfl
  rcases hc with ⟨m, hm, hv, _, _, _, s1, hw, _, _, ho⟩ | ⟨_, hu, _⟩ | ⟨_, k, e, _, _, hu, _⟩
  · have := acceptStartup_noPanic h1 h2 h3 m s1
    rw [← ho] at this
    cases hr : (handshake env client).1 with
    | ok u => exact .inl rfl
    | err e => exact .inr ⟨e, rfl⟩
    | panic p => exact absurd hr (this p)
  · rcases hu with ⟨e, _, hu⟩ | ⟨p, hu, _⟩
    · exact .inr ⟨e, hu⟩
    · exact absurd ⟨p, hu⟩ (C19_recvStartupMessage_partial r1)
  · exact .inr ⟨e, hu⟩

/-- C32. The recursion of the code has no other bound: allowing it to go deeper changes nothing. -/
theorem C32_unbounded (env : HandshakeEnv) (client : Reader) (fuel : Nat) (h : client.bytes.length < fuel) :
    negotiateSessionParams env fuel { client := client } = handshake env client :=
  negotiate_fuel env _ _ _ h (Nat.lt_succ_self _)

/-- C32. On success, what the handshake took from the client is the SSL requests, at least 8 bytes each, and the startup
packet; the rest of the stream is left unread. -/
theorem C32_consumes (env : HandshakeEnv) (client : Reader) (h : (handshake env client).1 = .ok ()) :
    ∃ n r1 m, Spec.SSLRequests client n r1 ∧ recvStartupMessage r1 = (.ok m, (handshake env client).2.client) ∧
      ∃ ssl startup : Bytes, client.bytes = ssl ++ startup ++ (handshake env client).2.client.bytes ∧
        8 * n ≤ ssl.length ∧ 8 ≤ startup.length := by
  obtain ⟨n, m, ⟨r1, h1, h2, h3⟩, _⟩ := C30_forwarded env client h
  obtain ⟨p, hp, hl⟩ := SSLRequests_consumes h1
  obtain ⟨q, hq, hl'⟩ := recvStartup_consumes h2
  exact ⟨n, r1, m, h1, h2, p, q, by rw [hp, hq]; simp, hl, hl'⟩

example : (∀ i p, exampleEnv.getConfig i ≠ .panic p) ∧ (∀ a p, exampleEnv.dial a ≠ .panic p) ∧
    ∀ u p, exampleEnv.parseURI u ≠ .panic p := by
  refine ⟨by simp [exampleEnv], by simp [exampleEnv], ?_⟩
  intro u p
  simp only [exampleEnv]
  split <;> simp

end Gevulot
