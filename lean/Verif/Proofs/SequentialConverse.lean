import Verif.Proofs.Sequential

namespace Gevulot.FullSession

open SessionModel (Peer PeerConn StartPC)

variable {parse : Bytes → Option ConnectionParams} {env : HandshakeEnv}

/-- What a step of the handshake leaves alone. -/
structure Calm (b b' : SessionModel.State) : Prop where
  crashed : b'.crashed = b.crashed
  fired : b'.fired = b.fired
  sent : (b'.conn .client).sent = (b.conn .client).sent
  ended : (b'.conn .client).ended = (b.conn .client).ended

theorem calm_step {s s' : State} {a : Action} (ha : ∀ x, a ≠ .base x) (hs : step parse s a = some s') : Calm s.base s'.base := by
  obtain ⟨acts, h, hk⟩ := step_base hs
  refine run_invariant_of (fun x => isHandshake x = true) (fun b => Calm s.base b) ⟨rfl, rfl, rfl, rfl⟩ ?_
    (fun x hx => (hk x hx).resolve_right (ha x)) h
  intro b x b' hx ⟨h1, h2, h3, h4⟩ hb
  session_cases hb <;> first | (simp only [isHandshake] at hx; contradiction) | (constructor <;> grind [upd_apply])

/-- Without `Close`, the connection to the database stays open. -/
theorem db_open {b : SessionModel.State} (h : Reachable SessionModel.step SessionModel.init b) :
    b.fired = false → (b.start = .dialled ∨ b.start = .assigned) → (b.conn .db).isOpen = true := by
  have := h.invariant (fun b => b.fired = false → b.closer = .none ∧ ((b.start = .dialled ∨ b.start = .assigned) → (b.conn .db).isOpen = true))
    (fun _ => ⟨rfl, by simp [SessionModel.init]⟩)
    fun b a b' hi hs => by session_cases hs <;> grind [upd_apply, SessionModel.State.fire]
  exact fun hf => (this hf).2

/-- How far the handshake is from its end. -/
def togo (s : State) : Nat :=
  match s.hs with
  | .reply => 2 * (s.base.conn .client).unread.length + 6
  | .recv => 2 * (s.base.conn .client).unread.length + 5
  | .config _ => 4
  | .dial _ _ => 3
  | .assign _ => 2
  | .startup _ => 1
  | .idle => 0

/-- The outside world answers an action. -/
def Fits (env : HandshakeEnv) (fin : State) (h h' : HandshakeState) : Action → Prop
  | .reply ok => h'.clientWrites = h.clientWrites + 1 ∧ h'.getCalls = h.getCalls ∧
      (ok = true → env.clientWrite h.clientWrites = none) ∧ (ok = false → ∃ e, env.clientWrite h.clientWrites = some e)
  | .getConfig o => h'.clientWrites = h.clientWrites ∧ h'.getCalls = h.getCalls + 1 ∧
      (∀ u, o = some u → env.getConfig h.getCalls = .ok u) ∧ (o = none → ∃ e, env.getConfig h.getCalls = .err e)
  | .dial ok => h'.clientWrites = h.clientWrites ∧ h'.getCalls = h.getCalls ∧ ∀ addr ∈ fin.dialed,
      (ok = true → env.dial addr = .ok ()) ∧ (ok = false → ∃ e, env.dial addr = .err e)
  | .startup f => h'.clientWrites = h.clientWrites ∧ h'.getCalls = h.getCalls ∧ ∀ x, fin.packets.getLast? = some x →
      (f = none → env.dbWrite (sendMessage (.startup x.2)) = none) ∧ (∀ n, f = some n → ∃ e, env.dbWrite (sendMessage (.startup x.2)) = some (n, e))
  | _ => h'.clientWrites = h.clientWrites ∧ h'.getCalls = h.getCalls

theorem ahead_cons {fin : State} {h h' : HandshakeState} {a : Action} {acts : List Action} (hA : Ahead parse env fin h' acts)
    (hf : Fits env fin h h' a) : Ahead parse env fin h (a :: acts) := by
  obtain ⟨a1, a2, a3, a4, a5, a6, a7, a8, a9, a10⟩ := hA
  cases a with
  | reply ok =>
    obtain ⟨f1, f2, f3, f4⟩ := hf
    refine ⟨a1, a2, fun i hi => ?_, fun i hi => ?_, by rw [← f2]; exact a5, by rw [← f2]; exact a6, by simpa using a7, by simpa using a8,
      by simpa using a9, by simpa using a10⟩
    all_goals
      cases i with
      | zero => simp [Spec.replies] at hi; first | exact f3 hi | exact f4 hi
      | succ i =>
        rw [show h.clientWrites + (i + 1) = h'.clientWrites + i by omega]
        first | exact a3 i (by simpa [Spec.replies] using hi) | exact a4 i (by simpa [Spec.replies] using hi)
  | getConfig o =>
    obtain ⟨f1, f2, f3, f4⟩ := hf
    refine ⟨a1, a2, by rw [← f1]; exact a3, by rw [← f1]; exact a4, fun i u hi => ?_, fun i hi => ?_, by simpa using a7, by simpa using a8,
      by simpa using a9, by simpa using a10⟩
    all_goals
      cases i with
      | zero => simp [Spec.answers] at hi; first | exact f3 _ hi | exact f4 hi
      | succ i =>
        rw [show h.getCalls + (i + 1) = h'.getCalls + i by omega]
        first | exact a5 i _ (by simpa [Spec.answers] using hi) | exact a6 i (by simpa [Spec.answers] using hi)
  | dial ok =>
    obtain ⟨f1, f2, f3⟩ := hf
    refine ⟨a1, a2, by rw [← f1]; exact a3, by rw [← f1]; exact a4, by rw [← f2]; exact a5, by rw [← f2]; exact a6, fun hm addr hx => ?_,
      fun hm addr hx => ?_, by simpa using a9, by simpa using a10⟩
    · rcases List.mem_cons.mp hm with hm | hm
      · exact (f3 addr hx).1 (by simpa using hm.symm)
      · exact a7 hm addr hx
    · rcases List.mem_cons.mp hm with hm | hm
      · exact (f3 addr hx).2 (by simpa using hm.symm)
      · exact a8 hm addr hx
  | startup f =>
    obtain ⟨f1, f2, f3⟩ := hf
    refine ⟨a1, a2, by rw [← f1]; exact a3, by rw [← f1]; exact a4, by rw [← f2]; exact a5, by rw [← f2]; exact a6, by simpa using a7, by simpa using a8,
      fun hm x hx => ?_, fun n hm x hx => ?_⟩
    · rcases List.mem_cons.mp hm with hm | hm
      · exact (f3 x hx).1 (by simpa using hm.symm)
      · exact a9 hm x hx
    · rcases List.mem_cons.mp hm with hm | hm
      · exact (f3 x hx).2 n (by simpa using hm.symm)
      · exact a10 n hm x hx
  | base a | recvStartup | assign =>
    obtain ⟨f1, f2⟩ := hf
    exact ⟨a1, a2, by rw [← f1]; exact a3, by rw [← f1]; exact a4, by rw [← f2]; exact a5, by rw [← f2]; exact a6, by simpa using a7, by simpa using a8,
      by simpa using a9, by simpa using a10⟩

theorem fail_some {s : State} (hc : s.base.crashed = false) (hst : s.base.start = .negotiating) :
    ∃ s1, s.fail = some s1 ∧ s1.hs = .idle ∧ s1.base.start ≠ .notCalled := by
  obtain ⟨s1, h⟩ : ∃ s1, s.fail = some s1 := ⟨_, by simp [State.fail, SessionModel.step, hc, hst]; rfl⟩
  obtain ⟨h1, h2, -⟩ := fail_frame h
  exact ⟨s1, h, h1, h2⟩

/-- The outside world does not panic. -/
structure Civil (parse : Bytes → Option ConnectionParams) (env : HandshakeEnv) : Prop where
  parse_ok : ∀ u p, parse u = some p → env.parseURI u = .ok p
  parse_err : ∀ u, parse u = none → ∃ e, env.parseURI u = .err e
  config : ∀ i p, env.getConfig i ≠ .panic p
  dial : ∀ addr p, env.dial addr ≠ .panic p

/-- The handshake can go on as the outside world wants. -/
theorem next_step {s : State} (h : HandshakeState) (hE : Civil parse env) (hreach : Reachable (step parse) init s) (hc : s.base.crashed = false)
    (hf : s.base.fired = false) (he : (s.base.conn .client).ended ≠ none) (hne : s.hs ≠ .idle) :
    ∃ a s1 h1, step parse s a = some s1 ∧ (∀ x, a ≠ .base x) ∧ (s1.hs = .idle → s1.base.start ≠ .notCalled) ∧ togo s1 < togo s ∧
      ∀ fin, Reachable (step parse) s1 fin → Fits env fin h h1 a := by
  have hi := hinv_of_reachable hreach
  have hstage := hi.stage
  unfold Stage at hstage
  cases hhs : s.hs with
  | idle => exact absurd hhs hne
  | recv =>
    simp only [hhs] at hstage
    have hst := hstage.1
    have ho := (open_of_unfired (base_reachable hreach) hf).1
    obtain ⟨e, he⟩ := Option.ne_none_iff_exists'.mp he
    have htr : tryRecvStartup (s.base.conn .client) = some ((recvStartupMessage ⟨[(s.base.conn .client).unread], e⟩).1,
        (recvStartupMessage ⟨[(s.base.conn .client).unread], e⟩).2.bytes) := by
      unfold tryRecvStartup
      rw [if_neg (by simp [ho]), he]
    have hread : ∀ n, n ≤ (s.base.conn .client).unread.length → ∃ b, SessionModel.step s.base (.hsRead n) = some b ∧ b.crashed = false ∧
        b.start = .negotiating ∧ (b.conn .client).unread = (s.base.conn .client).unread.drop n := by
      intro n hn
      exact ⟨_, by simp [SessionModel.step, hc, hst, hn]; rfl, rfl, rfl, rfl⟩
    rcases hx : recvStartupMessage ⟨[(s.base.conn .client).unread], e⟩ with ⟨o, r⟩
    rw [hx] at htr
    simp only at htr
    cases o with
    | panic p => exact absurd htr tryRecvStartup_no_panic
    | err e' =>
      obtain ⟨b, hb, hbc, hbs, -⟩ := hread ((s.base.conn .client).unread.length - r.bytes.length) (by omega)
      obtain ⟨s1, g1, g2, g3⟩ := fail_some (s := { s with base := b }) hbc hbs
      have hstep : step parse s .recvStartup = some s1 := by
        simp only [step, hhs, htr, hb, Option.bind_some]
        rw [← hhs]
        exact g1
      exact ⟨_, s1, h, hstep, by simp, fun _ => g3, by simp [togo, g2, hhs], fun _ _ => ⟨rfl, rfl⟩⟩
    | ok m =>
      obtain ⟨pkt, hp, hl⟩ := recvStartup_consumes hx
      simp only [Reader.bytes, List.flatten_cons, List.flatten_nil, List.append_nil] at hp
      obtain ⟨b, hb, hbc, hbs, hbu⟩ := hread ((s.base.conn .client).unread.length - r.bytes.length) (by omega)
      by_cases hm : m.protocolVersion = sslRequestMagic
      · refine ⟨.recvStartup, _, h, by simp only [step, hhs, htr, hb, Option.bind_some, if_pos hm]; rfl, by simp, by simp, ?_, fun _ _ => ⟨rfl, rfl⟩⟩
        simp only [togo, hhs, hbu, List.length_drop]
        have : (s.base.conn .client).unread.length = pkt.length + r.bytes.length := by rw [hp]; simp [Reader.bytes]
        omega
      · by_cases hv : m.protocolVersion = defaultProtocolVersion
        · refine ⟨.recvStartup, _, h, by
              simp only [step, hhs, htr, hb, Option.bind_some, if_neg hm]
              rw [if_neg (not_not_intro hv)], by simp, by simp, ?_, fun _ _ => ⟨rfl, rfl⟩⟩
          simp only [togo, hhs]; omega
        · obtain ⟨s1, g1, g2, g3⟩ := fail_some
            (s := { s with base := b, packets := s.packets ++ [((s.base.conn .client).unread.take ((s.base.conn .client).unread.length - r.bytes.length), m)] }) hbc hbs
          have hstep : step parse s .recvStartup = some s1 := by
            simp only [step, hhs, htr, hb, Option.bind_some, if_neg hm]
            rw [if_pos hv, ← hhs]
            exact g1
          exact ⟨_, s1, h, hstep, by simp, fun _ => g3, by simp [togo, g2, hhs], fun _ _ => ⟨rfl, rfl⟩⟩
  | reply =>
    simp only [hhs] at hstage
    have hst := hstage.1
    have ho := (open_of_unfired (base_reachable hreach) hf).1
    cases hw : env.clientWrite h.clientWrites with
    | none =>
      refine ⟨.reply true, _, { h with clientWrites := h.clientWrites + 1 }, by simp [step, hhs, SessionModel.step, hc, hst, ho]; rfl, by simp, by simp,
        by simp [togo, hhs], fun _ _ => ⟨rfl, rfl, fun _ => hw, by simp⟩⟩
    | some e =>
      obtain ⟨s1, g1, g2, g3⟩ := fail_some hc hst
      exact ⟨.reply false, s1, { h with clientWrites := h.clientWrites + 1 }, by simpa [step, hhs] using g1, by simp, fun _ => g3, by simp [togo, g2, hhs],
        fun _ _ => ⟨rfl, rfl, by simp, fun _ => ⟨e, hw⟩⟩⟩
  | config m =>
    simp only [hhs] at hstage
    have hst := hstage.1
    have hfail : ∀ o, (∀ p, o.bind parse = some p → m.getParameter (ascii "database") ≠ p.get (ascii "database")) →
        ∃ s1, step parse s (.getConfig o) = some s1 ∧ s1.hs = .idle ∧ s1.base.start ≠ .notCalled := by
      intro o ho
      obtain ⟨s1, g1, g2, g3⟩ := fail_some (s := { s with configs := s.configs ++ [o] }) hc hst
      refine ⟨s1, ?_, g2, g3⟩
      simp only [step, hhs]
      split
      · rename_i p hp
        rw [if_pos (ho p hp)]; exact g1
      · exact g1
    cases hg : env.getConfig h.getCalls with
    | panic p => exact absurd hg (hE.config _ _)
    | err e =>
      obtain ⟨s1, g1, g2, g3⟩ := hfail none (by simp)
      exact ⟨_, s1, { h with getCalls := h.getCalls + 1 }, g1, by simp, fun _ => g3, by simp [togo, g2, hhs],
        fun _ _ => ⟨rfl, rfl, by simp, fun _ => ⟨e, hg⟩⟩⟩
    | ok u =>
      by_cases hok : ∀ p, (some u).bind parse = some p → m.getParameter (ascii "database") ≠ p.get (ascii "database")
      · obtain ⟨s1, g1, g2, g3⟩ := hfail (some u) hok
        exact ⟨_, s1, { h with getCalls := h.getCalls + 1 }, g1, by simp, fun _ => g3, by simp [togo, g2, hhs],
          fun _ _ => ⟨rfl, rfl, by simp [hg], by simp⟩⟩
      · obtain ⟨p, hp⟩ := Classical.not_forall.mp hok
        obtain ⟨hp, hdb⟩ := Classical.not_imp.mp hp
        refine ⟨.getConfig (some u), _, { h with getCalls := h.getCalls + 1 }, by
            simp only [step, hhs, hp]
            rw [if_neg hdb, if_neg (by simp [hc])], by simp, by simp, by simp [togo, hhs],
          fun _ _ => ⟨rfl, rfl, by simp [hg], by simp⟩⟩
  | dial m params =>
    simp only [hhs] at hstage
    have hst := hstage.1
    have hd0 : s.dialed = [] := hstage.2.2.2.2.1
    cases hd : env.dial (address params) with
    | panic p => exact absurd hd (hE.dial _ _)
    | ok x =>
      have hstep : step parse s (.dial true) = some { s with base := { s.base with conn := upd s.base.conn .db { s.base.conn .db with isOpen := true }, start := .dialled }, hs := .assign m, dialed := s.dialed ++ [address params] } := by
        simp [step, hhs, SessionModel.step, hc, hst, address]
      refine ⟨.dial true, _, h, hstep, by simp, by simp, by simp [togo, hhs], fun fin hr => ⟨rfl, rfl, fun addr ha => ?_⟩⟩
      have := (late (hinv_of_reachable (hreach.next hstep)) hr).2.1 (by simp [Dialled])
      rw [this, hd0] at ha
      simp only [List.nil_append, List.mem_singleton] at ha
      subst ha
      exact ⟨fun _ => hd, by simp⟩
    | err e =>
      obtain ⟨s1, g1, g2, g3⟩ := fail_some (s := { s with dialed := s.dialed ++ [address params] }) hc hst
      have hstep : step parse s (.dial false) = some s1 := by simp only [step, hhs]; exact g1
      refine ⟨.dial false, s1, h, hstep, by simp, fun _ => g3, by simp [togo, g2, hhs], fun fin hr => ⟨rfl, rfl, fun addr ha => ?_⟩⟩
      have := (late (hinv_of_reachable (hreach.next hstep)) hr).2.1 (by simp [Dialled, g2, g3])
      rw [this, (fail_frame g1).2.2.2, hd0] at ha
      simp only [List.nil_append, List.mem_singleton] at ha
      subst ha
      exact ⟨by simp, fun _ => ⟨e, hd⟩⟩
  | assign m =>
    simp only [hhs] at hstage
    have hst := hstage.1
    exact ⟨.assign, _, h, by simp [step, hhs, SessionModel.step, hc, hst]; rfl, by simp, by simp, by simp [togo, hhs], fun _ _ => ⟨rfl, rfl⟩⟩
  | startup m =>
    simp only [hhs] at hstage
    have hst := hstage.1
    obtain ⟨ssl, pkt, hp, -⟩ := hstage.2.1
    have ho := db_open (base_reachable hreach) hf (.inr hst)
    have hlast : ∀ {a s1 fin}, step parse s a = some s1 → Reachable (step parse) s1 fin → ∀ x, fin.packets.getLast? = some x → x.2 = m := by
      intro a s1 fin hs hr x hx
      rw [(late hi (((Reachable.refl s).next hs).trans hr)).1 (by simp [Opened', hhs]), hp] at hx
      simp at hx
      rw [← hx]
    cases hw : env.dbWrite (sendMessage (.startup m)) with
    | none =>
      obtain ⟨s1, hs1, h1, h2⟩ : ∃ s1, step parse s (.startup none) = some s1 ∧ s1.hs = .idle ∧ s1.base.start ≠ .notCalled :=
        ⟨_, by simp [step, hhs, SessionModel.step, hc, hst, ho]; rfl, rfl, by simp⟩
      refine ⟨.startup none, s1, h, hs1, by simp, fun _ => h2, by simp [togo, h1, hhs], fun fin hr => ⟨rfl, rfl, fun x hx => ?_⟩⟩
      rw [hlast hs1 hr x hx]
      exact ⟨fun _ => hw, by simp⟩
    | some ne =>
      obtain ⟨n, e⟩ := ne
      obtain ⟨s1, hs1, h1, h2⟩ : ∃ s1, step parse s (.startup (some n)) = some s1 ∧ s1.hs = .idle ∧ s1.base.start ≠ .notCalled :=
        ⟨_, by simp [step, hhs, SessionModel.step, hc, hst, ho]; rfl, rfl, by simp⟩
      refine ⟨.startup (some n), s1, h, hs1, by simp, fun _ => h2, by simp [togo, h1, hhs], fun fin hr => ⟨rfl, rfl, fun x hx => ?_⟩⟩
      rw [hlast hs1 hr x hx]
      exact ⟨by simp, fun k hk => ⟨e, by simp at hk; rw [hw, hk]⟩⟩

/-- The handshake can be brought to its end as the outside world wants. -/
theorem finish (hE : Civil parse env) : ∀ (k : Nat) (s : State) (h : HandshakeState), togo s < k → Reachable (step parse) init s →
    s.base.crashed = false → s.base.fired = false → (s.base.conn .client).ended ≠ none → (s.hs = .idle → s.base.start ≠ .notCalled) →
    ∃ acts fin, run (step parse) s acts = some fin ∧ fin.hs = .idle ∧ fin.base.start ≠ .notCalled ∧ Calm s.base fin.base ∧ Ahead parse env fin h acts
  | 0, _, _, hk, _, _, _, _, _ => absurd hk (by omega)
  | k + 1, s, h, hk, hreach, hc, hf, he, hst => by
    by_cases hne : s.hs = .idle
    · exact ⟨[], s, rfl, hne, hst hne, ⟨rfl, rfl, rfl, rfl⟩, hE.parse_ok, hE.parse_err, by simp [Spec.replies], by simp [Spec.replies],
        by simp [Spec.answers], by simp [Spec.answers], by simp, by simp, by simp, by simp⟩
    · obtain ⟨a, s1, h1, g1, g2, g3, g4, g5⟩ := next_step h hE hreach hc hf he hne
      obtain ⟨c1, c2, c3, c4⟩ := calm_step g2 g1
      obtain ⟨acts, fin, f1, f2, f3, ⟨d1, d2, d3, d4⟩, f5⟩ := finish hE k s1 h1 (by omega) (hreach.next g1) (c1.trans hc) (c2.trans hf) (by rw [c4]; exact he) g3
      exact ⟨a :: acts, fin, by simp [run, g1, f1], f2, f3, ⟨d1.trans c1, d2.trans c2, d3.trans c3, d4.trans c4⟩, ahead_cons f5 (g5 fin ⟨acts, f1⟩)⟩

/-- Whatever the sequential program can meet, a session can meet. -/
theorem met (hE : Civil parse env) (given : Bytes) (e : Err) :
    ∃ acts s, run (step parse) init acts = some s ∧ s.hs = .idle ∧ s.base.start ≠ .notCalled ∧ s.base.fired = false ∧
      (s.base.conn .client).sent = given ∧ (s.base.conn .client).ended = some e ∧ Spec.Outside parse env acts s := by
  obtain ⟨s0, h0, a1, a2, a3, a4, a5⟩ : ∃ s0, run (step parse) init [.base (.peerSends .client given), .base (.peerEnds .client e), .base .callStart] = some s0 ∧
      s0.base.crashed = false ∧ s0.base.fired = false ∧ (s0.base.conn .client).sent = given ∧ (s0.base.conn .client).ended = some e ∧ s0.hs = .recv :=
    ⟨_, rfl, rfl, rfl, rfl, rfl, rfl⟩
  obtain ⟨acts, fin, f1, f2, f3, ⟨d1, d2, d3, d4⟩, f5⟩ := finish hE (togo s0 + 1) s0 { client := ⟨[given], e⟩ } (Nat.lt_succ_self _) ⟨_, h0⟩ a1 a2 (by simp [a4]) (by simp [a5])
  refine ⟨_, fin, run_append_some h0 f1, f2, f3, d2.trans a2, d3.trans a3, d4.trans a4, ?_⟩
  obtain ⟨b1, b2, b3, b4, b5, b6, b7, b8, b9, b10⟩ := f5
  exact ⟨b1, b2, by simpa [Spec.replies] using b3, by simpa [Spec.replies] using b4, by simpa [Spec.answers] using b5, by simpa [Spec.answers] using b6,
    by simpa using b7, by simpa using b8, by simpa using b9, by simpa using b10⟩

/-! ### The outside world of an execution -/

theorem no_dial : ∀ (acts : List Action) (s s' : State), run (step parse) s acts = some s' → HInv parse s → Dialled s → ∀ ok, .dial ok ∉ acts
  | [], _, _, _, _, _ => by simp
  | a :: acts, s, s', h, hi, hd => by
    simp only [run] at h
    cases hs : step parse s a with
    | none => rw [hs] at h; simp at h
    | some s1 =>
      rw [hs] at h
      intro ok hm
      rcases List.mem_cons.mp hm with rfl | hm
      · unfold Dialled at hd
        simp only [step] at hs
        split at hs
        · rename_i hh; rw [hh] at hd; exact hd
        · simp at hs
      · exact no_dial acts s1 s' h (hinv_step hi hs) ((late_step hi hs).2.1 hd).1 ok hm

theorem one_dial : ∀ (acts : List Action) (s s' : State), run (step parse) s acts = some s' → HInv parse s →
    ∀ x y, .dial x ∈ acts → .dial y ∈ acts → x = y
  | [], _, _, _, _ => by simp
  | a :: acts, s, s', h, hi => by
    simp only [run] at h
    cases hs : step parse s a with
    | none => rw [hs] at h; simp at h
    | some s1 =>
      rw [hs] at h
      have key : ∀ ok, a = .dial ok → ∀ x, .dial x ∉ acts := by
        rintro ok rfl
        refine no_dial acts s1 s' h (hinv_step hi hs) ?_
        simp only [step] at hs
        split at hs
        · split at hs
          · obtain ⟨b, hb, rfl⟩ := Option.map_eq_some_iff.mp hs
            simp [Dialled]
          · obtain ⟨f1, f2, -⟩ := fail_frame hs
            simp [Dialled, f1, f2]
        · simp at hs
      intro x y hx hy
      rcases List.mem_cons.mp hx with hx | hx
      · rcases List.mem_cons.mp hy with hy | hy
        · rw [← hx] at hy; simpa using hy.symm
        · exact absurd hy (key x hx.symm y)
      · rcases List.mem_cons.mp hy with hy | hy
        · exact absurd hx (key y hy.symm x)
        · exact one_dial acts s1 s' h (hinv_step hi hs) x y hx hy

theorem no_startup : ∀ (acts : List Action) (s s' : State), run (step parse) s acts = some s' → HInv parse s → s.hs = .idle →
    s.base.start ≠ .notCalled → ∀ f, .startup f ∉ acts
  | [], _, _, _, _, _, _ => by simp
  | a :: acts, s, s', h, hi, hd, hst => by
    simp only [run] at h
    cases hs : step parse s a with
    | none => rw [hs] at h; simp at h
    | some s1 =>
      rw [hs] at h
      cases a with
      | base a =>
        obtain ⟨-, -, b⟩ := base_called hi hs
        obtain ⟨b1, b2⟩ := b (.inr hst)
        intro f hm
        exact no_startup acts s1 s' h (hinv_step hi hs) (b1.trans hd) (b2 hst) f (by simpa using hm)
      | _ => simp [step, hd] at hs

theorem one_startup : ∀ (acts : List Action) (s s' : State), run (step parse) s acts = some s' → HInv parse s →
    ∀ x y, .startup x ∈ acts → .startup y ∈ acts → x = y
  | [], _, _, _, _ => by simp
  | a :: acts, s, s', h, hi => by
    simp only [run] at h
    cases hs : step parse s a with
    | none => rw [hs] at h; simp at h
    | some s1 =>
      rw [hs] at h
      have key : ∀ f, a = .startup f → ∀ x, .startup x ∉ acts := by
        rintro f rfl
        have : s1.hs = .idle ∧ s1.base.start ≠ .notCalled := by
          simp only [step] at hs
          split at hs
          · split at hs
            all_goals
              obtain ⟨b, hb, rfl⟩ := Option.map_eq_some_iff.mp hs
              exact ⟨rfl, by session_case hb <;> simp_all⟩
          · simp at hs
        exact no_startup acts s1 s' h (hinv_step hi hs) this.1 this.2
      intro x y hx hy
      rcases List.mem_cons.mp hx with hx | hx
      · rcases List.mem_cons.mp hy with hy | hy
        · rw [← hx] at hy; simpa using hy.symm
        · exact absurd hy (key x hx.symm y)
      · rcases List.mem_cons.mp hy with hy | hy
        · exact absurd hx (key y hy.symm x)
        · exact one_startup acts s1 s' h (hinv_step hi hs) x y hx hy

/-- Every execution meets some outside world. -/
theorem outside_exists {acts : List Action} {s : State} (h : run (step parse) init acts = some s) :
    ∃ env, Spec.Outside parse env acts s := by
  have hdial := one_dial acts init s h hinv_init
  have hst := one_startup acts init s h hinv_init
  obtain ⟨failure, hfail⟩ : ∃ failure : Option Nat, ∀ f, .startup f ∈ acts → f = failure := by
    by_cases hx : ∃ f, .startup f ∈ acts
    · obtain ⟨f, hf⟩ := hx
      exact ⟨f, fun g hg => hst g f hg hf⟩
    · exact ⟨none, fun f hf => absurd ⟨f, hf⟩ hx⟩
  refine ⟨{
    getConfig := fun i => match (Spec.answers acts)[i]? with | some (some u) => .ok u | _ => .err (.ext 0)
    parseURI := fun u => match parse u with | some p => .ok p | none => .err (.ext 1)
    dial := fun _ => if .dial true ∈ acts then .ok () else .err (.ext 2)
    clientWrite := fun i => match (Spec.replies acts)[i]? with | some false => some (.io 1) | _ => none
    dbWrite := fun _ => failure.map fun n => (n, .io 2) }, ?_⟩
  refine ⟨fun u p hp => by simp [hp], fun u hp => ⟨_, by simp [hp]; rfl⟩, fun i hi => by simp [hi], fun i hi => ⟨_, by simp [hi]; rfl⟩,
    fun i u hi => by simp [hi], fun i hi => ⟨_, by simp [hi]; rfl⟩, fun hm _ _ => by simp [hm], fun hm _ _ => ⟨.ext 2, ?_⟩,
    fun hm _ _ => by simp [← hfail _ hm], fun n hm _ _ => ⟨.io 2, by simp [← hfail _ hm]⟩⟩
  simp only [ite_eq_right_iff, reduceCtorEq, imp_false]
  intro ht
  exact absurd (hdial _ _ hm ht) (by simp)

end Gevulot.FullSession
