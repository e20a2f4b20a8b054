import Verif.Spec.Sequential
import Verif.Proofs.FullSession

namespace Gevulot.FullSession

open SessionModel (Peer PeerConn StartPC)

variable {parse : Bytes → Option ConnectionParams} {env : HandshakeEnv}

/-- The rest of `negotiateSessionParams`. -/
def cont (env : HandshakeEnv) (fuel : Nat) : HsPC → HS Unit
  | .recv => negotiateSessionParams env fuel
  | .reply => do
    sendByteToClient env (BitVec.ofNat 8 'N'.toNat)
    negotiateSessionParams env fuel
  | .config m => acceptStartup env m
  | .dial m params => do
    dialDB env (address params)
    sendToDB env (.startup m)
  | .assign m | .startup m => sendToDB env (.startup m)
  | .idle => pure ()

/-- The outside world from here on. -/
structure Ahead (parse : Bytes → Option ConnectionParams) (env : HandshakeEnv) (fin : State) (h : HandshakeState) (acts : List Action) : Prop where
  parse_ok : ∀ u p, parse u = some p → env.parseURI u = .ok p
  parse_err : ∀ u, parse u = none → ∃ e, env.parseURI u = .err e
  reply_ok : ∀ i, (Spec.replies acts)[i]? = some true → env.clientWrite (h.clientWrites + i) = none
  reply_err : ∀ i, (Spec.replies acts)[i]? = some false → ∃ e, env.clientWrite (h.clientWrites + i) = some e
  config_ok : ∀ i u, (Spec.answers acts)[i]? = some (some u) → env.getConfig (h.getCalls + i) = .ok u
  config_err : ∀ i, (Spec.answers acts)[i]? = some none → ∃ e, env.getConfig (h.getCalls + i) = .err e
  dial_ok : .dial true ∈ acts → ∀ addr ∈ fin.dialed, env.dial addr = .ok ()
  dial_err : .dial false ∈ acts → ∀ addr ∈ fin.dialed, ∃ e, env.dial addr = .err e
  write_ok : .startup none ∈ acts → ∀ x, fin.packets.getLast? = some x → env.dbWrite (sendMessage (.startup x.2)) = none
  write_err : ∀ n, .startup (some n) ∈ acts → ∀ x, fin.packets.getLast? = some x → ∃ e, env.dbWrite (sendMessage (.startup x.2)) = some (n, e)

theorem ahead_of_outside {acts : List Action} {fin : State} (h : Spec.Outside parse env acts fin) (r : Reader) :
    Ahead parse env fin { client := r } acts := by
  obtain ⟨h1, h2, h3, h4, h5, h6, h7, h8, h9, h10⟩ := h
  refine ⟨h1, h2, ?_, ?_, ?_, ?_, h7, h8, h9, h10⟩ <;> simpa using ‹_›

/-- Actions that the outside has no answer to. -/
theorem Ahead.skip {fin : State} {h h' : HandshakeState} {a : Action} {acts : List Action} (hA : Ahead parse env fin h (a :: acts))
    (h1 : Spec.replies (a :: acts) = Spec.replies acts) (h2 : Spec.answers (a :: acts) = Spec.answers acts)
    (h3 : h'.clientWrites = h.clientWrites) (h4 : h'.getCalls = h.getCalls) : Ahead parse env fin h' acts := by
  obtain ⟨a1, a2, a3, a4, a5, a6, a7, a8, a9, a10⟩ := hA
  rw [h1] at a3 a4
  rw [h2] at a5 a6
  exact ⟨a1, a2, by rw [h3]; exact a3, by rw [h3]; exact a4, by rw [h4]; exact a5, by rw [h4]; exact a6,
    fun m => a7 (.tail _ m), fun m => a8 (.tail _ m), fun m => a9 (.tail _ m), fun n m => a10 n (.tail _ m)⟩

theorem Ahead.afterReply {fin : State} {h h' : HandshakeState} {ok : Bool} {acts : List Action} (hA : Ahead parse env fin h (.reply ok :: acts))
    (h3 : h'.clientWrites = h.clientWrites + 1) (h4 : h'.getCalls = h.getCalls) : Ahead parse env fin h' acts := by
  obtain ⟨a1, a2, a3, a4, a5, a6, a7, a8, a9, a10⟩ := hA
  refine ⟨a1, a2, fun i hi => ?_, fun i hi => ?_, by rw [h4]; exact a5, by rw [h4]; exact a6,
    fun m => a7 (.tail _ m), fun m => a8 (.tail _ m), fun m => a9 (.tail _ m), fun n m => a10 n (.tail _ m)⟩
  · have := a3 (i + 1) (by simpa [Spec.replies] using hi)
    rwa [h3, Nat.add_assoc, Nat.add_comm 1 i]
  · have := a4 (i + 1) (by simpa [Spec.replies] using hi)
    rwa [h3, Nat.add_assoc, Nat.add_comm 1 i]

theorem Ahead.afterConfig {fin : State} {h h' : HandshakeState} {o : Option Bytes} {acts : List Action} (hA : Ahead parse env fin h (.getConfig o :: acts))
    (h3 : h'.clientWrites = h.clientWrites) (h4 : h'.getCalls = h.getCalls + 1) : Ahead parse env fin h' acts := by
  obtain ⟨a1, a2, a3, a4, a5, a6, a7, a8, a9, a10⟩ := hA
  refine ⟨a1, a2, by rw [h3]; exact a3, by rw [h3]; exact a4, fun i u hi => ?_, fun i hi => ?_,
    fun m => a7 (.tail _ m), fun m => a8 (.tail _ m), fun m => a9 (.tail _ m), fun n m => a10 n (.tail _ m)⟩
  · have := a5 (i + 1) u (by simpa [Spec.answers] using hi)
    rwa [h4, Nat.add_assoc, Nat.add_comm 1 i]
  · have := a6 (i + 1) (by simpa [Spec.answers] using hi)
    rwa [h4, Nat.add_assoc, Nat.add_comm 1 i]

/-- The sequential program is where the session is. -/
structure At (given : Bytes) (final : Err) (s : State) (h : HandshakeState) : Prop where
  read : given = s.base.hsRead ++ h.client.bytes
  final : h.client.final = final
  toClient : h.toClient = s.base.hsWritten .client
  toDB : h.toDB = s.base.hsWritten .db
  getCalls : h.getCalls = s.configs.length
  dialed : h.dialed = s.dialed
  dbConn : h.dbConn = ((s.base.conn .db).assigned || match s.hs with | .assign _ => true | _ => false)
  params : (s.hs = .recv ∨ s.hs = .reply ∨ ∃ m, s.hs = .config m) → h.params = none
  unassigned : (s.base.start = .negotiating ∨ s.base.start = .dialled) → (s.base.conn .db).assigned = false

/-- Once the handshake is over, it stays as it was. -/
theorem over_step {given : Bytes} {out : Res Unit × HandshakeState} {s s' : State} {a : Action} (hi : HInv parse s) (hidle : s.hs = .idle)
    (hst : s.base.start ≠ .notCalled) (hs : step parse s a = some s') (h : Spec.SameOutcome s given out) :
    s'.hs = .idle ∧ s'.base.start ≠ .notCalled ∧ Spec.SameOutcome s' given out := by
  cases a with
  | base a =>
    simp only [step] at hs
    split at hs
    · simp at hs
    rename_i ha
    obtain ⟨b, hb, rfl⟩ := Option.map_eq_some_iff.mp hs
    obtain ⟨f1, f2, f3, f4⟩ := base_frame (by simpa using ha) hi.early hb
    have hass : (b.conn .db).assigned = (s.base.conn .db).assigned := by
      have ha : isHandshake a = false := by simpa using ha
      session_cases hb <;> grind [upd_apply, isHandshake]
    have hc : ¬ (a = .callStart ∧ b.start = .negotiating) := by
      rintro ⟨rfl, _⟩
      session_case hb <;> contradiction
    simp only [if_neg hc]
    refine ⟨hidle, ?_, ?_⟩
    · rcases f4 with f4 | f4 | f4
      · simpa [f4] using hst
      · exact absurd f4.2.1 hst
      · exact f4.2.2
    · obtain ⟨h1, h2, h3, h4, h5, h6, h7⟩ := h
      refine ⟨?_, by simpa [f1] using h2, by simpa [f2] using h3, by simpa [f2] using h4, h5, h6, by simpa [hass] using h7⟩
      simpa [f3] using h1
  | _ => simp [step, hidle] at hs

theorem over_run {given : Bytes} {out : Res Unit × HandshakeState} {s s' : State} {acts : List Action} (hi : HInv parse s) (hidle : s.hs = .idle)
    (hst : s.base.start ≠ .notCalled) (hs : run (step parse) s acts = some s') (h : Spec.SameOutcome s given out) :
    Spec.SameOutcome s' given out :=
  (run_invariant (fun s => HInv parse s ∧ s.hs = .idle ∧ s.base.start ≠ .notCalled ∧ Spec.SameOutcome s given out) ⟨hi, hidle, hst, h⟩
    (fun _ _ _ ⟨h1, h2, h3, h4⟩ hs => ⟨hinv_step h1 hs, over_step h1 h2 h3 hs h4⟩) hs).2.2.2

/-- What only grows. -/
structure Grows (b b' : SessionModel.State) : Prop where
  read : b.hsRead <+: b'.hsRead
  sent : (b.conn .client).sent <+: (b'.conn .client).sent
  ended : (b.conn .client).ended ≠ none → (b'.conn .client).sent = (b.conn .client).sent ∧ (b'.conn .client).ended = (b.conn .client).ended
  fired : b'.fired = false → b.fired = false

theorem Grows.refl (b : SessionModel.State) : Grows b b := ⟨List.prefix_refl _, List.prefix_refl _, fun _ => ⟨rfl, rfl⟩, id⟩

theorem Grows.trans {b b' b'' : SessionModel.State} (h : Grows b b') (h' : Grows b' b'') : Grows b b'' :=
  ⟨h.read.trans h'.read, h.sent.trans h'.sent, fun he => by
    have ⟨k1, k2⟩ := h.ended he
    have ⟨k3, k4⟩ := h'.ended (by rw [k2]; exact he)
    exact ⟨k3.trans k1, k4.trans k2⟩, fun hf => h.fired (h'.fired hf)⟩

theorem grows_base {b b' : SessionModel.State} {a : SessionModel.Action} (hs : SessionModel.step b a = some b') : Grows b b' := by
  session_cases hs <;> constructor <;>
    first | exact id | exact List.prefix_refl _ | exact List.prefix_append _ _ | grind [upd_apply, List.prefix_refl, List.prefix_append]

theorem grows_step {s s' : State} {a : Action} (hs : step parse s a = some s') : Grows s.base s'.base := by
  obtain ⟨acts, h, _⟩ := step_base hs
  exact run_invariant (fun b => Grows s.base b) (.refl _) (fun _ _ _ h hs => h.trans (grows_base hs)) h

theorem grows {s s' : State} (h : Reachable (step parse) s s') : Grows s.base s'.base :=
  h.invariant (fun t => Grows s.base t.base) (.refl _) (fun _ _ _ h hs => h.trans (grows_step hs))

/-- The startup message is there, and no more packets are read. -/
def Opened' (s : State) : Prop :=
  match s.hs with
  | .recv | .reply => False
  | .idle => s.base.start ≠ .notCalled
  | _ => True

/-- `net.Dial` has been called. -/
def Dialled (s : State) : Prop :=
  match s.hs with
  | .assign _ | .startup _ => True
  | .idle => s.base.start ≠ .notCalled
  | _ => False

theorem fail_frame {s s' : State} (h : s.fail = some s') :
    s'.hs = .idle ∧ s'.base.start ≠ .notCalled ∧ s'.packets = s.packets ∧ s'.dialed = s.dialed := by
  unfold State.fail at h
  obtain ⟨b, hb, rfl⟩ := Option.map_eq_some_iff.mp h
  obtain ⟨rfl, _⟩ := hsFail_frame hb
  exact ⟨rfl, by simp, rfl, rfl⟩

theorem base_called {s s' : State} {a : SessionModel.Action} (hi : HInv parse s) (hs : step parse s (.base a) = some s') :
    s'.packets = s.packets ∧ s'.dialed = s.dialed ∧ (s.hs ≠ .idle ∨ s.base.start ≠ .notCalled →
      s'.hs = s.hs ∧ (s.base.start ≠ .notCalled → s'.base.start ≠ .notCalled)) := by
  simp only [step] at hs
  split at hs
  · simp at hs
  rename_i ha
  obtain ⟨b, hb, rfl⟩ := Option.map_eq_some_iff.mp hs
  obtain ⟨f1, f2, f3, f4⟩ := base_frame (by simpa using ha) hi.early hb
  refine ⟨rfl, rfl, fun hc => ?_⟩
  have hst : s.base.start ≠ .notCalled := by
    rcases hc with hc | hc
    · have hstage := hi.stage
      unfold Stage at hstage
      split at hstage <;> simp_all
    · exact hc
  have hc : ¬ (a = .callStart ∧ b.start = .negotiating) := by
    rintro ⟨rfl, _⟩
    session_case hb <;> contradiction
  simp only [if_neg hc]
  refine ⟨trivial, fun _ => ?_⟩
  rcases f4 with f4 | f4 | f4
  · simpa [f4] using hst
  · exact absurd f4.2.1 hst
  · exact f4.2.2

theorem late_step {s s' : State} {a : Action} (hi : HInv parse s) (hs : step parse s a = some s') :
    (Opened' s → Opened' s' ∧ s'.packets = s.packets) ∧ (Dialled s → Dialled s' ∧ s'.dialed = s.dialed) ∧ s.dialed <+: s'.dialed := by
  cases a with
  | base a =>
    obtain ⟨b1, b2, b3⟩ := base_called hi hs
    refine ⟨fun h => ⟨?_, b1⟩, fun h => ⟨?_, b2⟩, by rw [b2]; exact List.prefix_refl _⟩
    · unfold Opened' at h ⊢
      split at h
      · exact h.elim
      · exact h.elim
      · rename_i hh
        obtain ⟨c1, c2⟩ := b3 (.inr h)
        rw [c1, hh]
        exact c2 h
      · rename_i h1 h2 h3
        obtain ⟨c1, c2⟩ := b3 (.inl h3)
        rw [c1]
        split <;> simp_all
    · unfold Dialled at h ⊢
      split at h
      · rename_i hh; obtain ⟨c1, c2⟩ := b3 (.inl (by simp [hh])); rw [c1, hh]; trivial
      · rename_i hh; obtain ⟨c1, c2⟩ := b3 (.inl (by simp [hh])); rw [c1, hh]; trivial
      · rename_i hh
        obtain ⟨c1, c2⟩ := b3 (.inr h)
        rw [c1, hh]
        exact c2 h
      · exact h.elim
  | recvStartup =>
    simp only [step] at hs
    split at hs
    case h_2 => simp at hs
    rename_i hhs
    refine ⟨by simp [Opened', hhs], by simp [Dialled, hhs], ?_⟩
    split at hs
    · simp at hs
    · obtain ⟨b, hb, hs⟩ := Option.bind_eq_some_iff.mp hs
      split at hs
      · simp only [Option.some.injEq] at hs; subst hs; exact List.prefix_refl _
      · split at hs
        · rw [(fail_frame hs).2.2.2]; exact List.prefix_refl _
        · simp only [Option.some.injEq] at hs; subst hs; exact List.prefix_refl _
    · obtain ⟨b, hb, hs⟩ := Option.bind_eq_some_iff.mp hs
      rw [(fail_frame hs).2.2.2]; exact List.prefix_refl _
    · rename_i hp; exact absurd hp tryRecvStartup_no_panic
  | reply ok =>
    simp only [step] at hs
    split at hs
    case h_2 => simp at hs
    rename_i hhs
    refine ⟨by simp [Opened', hhs], by simp [Dialled, hhs], ?_⟩
    split at hs
    · obtain ⟨b, hb, rfl⟩ := Option.map_eq_some_iff.mp hs; exact List.prefix_refl _
    · rw [(fail_frame hs).2.2.2]; exact List.prefix_refl _
  | getConfig o =>
    simp only [step] at hs
    split at hs
    case h_2 => simp at hs
    rename_i hhs
    split at hs
    · split at hs
      · obtain ⟨f1, f2, f3, f4⟩ := fail_frame hs
        exact ⟨fun _ => ⟨by simp [Opened', f1, f2], f3⟩, by simp [Dialled, hhs], by rw [f4]; exact List.prefix_refl _⟩
      · split at hs
        · simp at hs
        simp only [Option.some.injEq] at hs; subst hs
        exact ⟨fun _ => ⟨by simp [Opened'], rfl⟩, by simp [Dialled, hhs], List.prefix_refl _⟩
    · obtain ⟨f1, f2, f3, f4⟩ := fail_frame hs
      exact ⟨fun _ => ⟨by simp [Opened', f1, f2], f3⟩, by simp [Dialled, hhs], by rw [f4]; exact List.prefix_refl _⟩
  | dial ok =>
    simp only [step] at hs
    split at hs
    case h_2 => simp at hs
    rename_i hhs
    split at hs
    · obtain ⟨b, hb, rfl⟩ := Option.map_eq_some_iff.mp hs
      exact ⟨fun _ => ⟨by simp [Opened'], rfl⟩, by simp [Dialled, hhs], List.prefix_append _ _⟩
    · obtain ⟨f1, f2, f3, f4⟩ := fail_frame hs
      exact ⟨fun _ => ⟨by simp [Opened', f1, f2], f3⟩, by simp [Dialled, hhs], by rw [f4]; exact List.prefix_append _ _⟩
  | assign =>
    simp only [step] at hs
    split at hs
    case h_2 => simp at hs
    obtain ⟨b, hb, rfl⟩ := Option.map_eq_some_iff.mp hs
    exact ⟨fun _ => ⟨by simp [Opened'], rfl⟩, fun _ => ⟨by simp [Dialled], rfl⟩, List.prefix_refl _⟩
  | startup failure =>
    simp only [step] at hs
    split at hs
    case h_2 => simp at hs
    split at hs
    all_goals
      obtain ⟨b, hb, rfl⟩ := Option.map_eq_some_iff.mp hs
      have : b.start ≠ .notCalled := by session_case hb <;> simp_all
      exact ⟨fun _ => ⟨by simp [Opened', this], rfl⟩, fun _ => ⟨by simp [Dialled, this], rfl⟩, List.prefix_refl _⟩

theorem late {s s' : State} (hi : HInv parse s) (h : Reachable (step parse) s s') :
    (Opened' s → s'.packets = s.packets) ∧ (Dialled s → s'.dialed = s.dialed) ∧ s.dialed <+: s'.dialed := by
  have := h.invariant (fun t => HInv parse t ∧ (Opened' s → Opened' t ∧ t.packets = s.packets) ∧ (Dialled s → Dialled t ∧ t.dialed = s.dialed) ∧
    s.dialed <+: t.dialed) ⟨hi, fun h => ⟨h, rfl⟩, fun h => ⟨h, rfl⟩, List.prefix_refl _⟩
    fun t a t' ⟨h1, h2, h3, h4⟩ ht => by
      obtain ⟨g1, g2, g3⟩ := late_step h1 ht
      exact ⟨hinv_step h1 ht, fun h => ⟨(g1 (h2 h).1).1, (g1 (h2 h).1).2.trans (h2 h).2⟩,
        fun h => ⟨(g2 (h3 h).1).1, (g2 (h3 h).1).2.trans (h3 h).2⟩, h4.trans g3⟩
  exact ⟨fun h => (this.2.1 h).2, fun h => (this.2.2.1 h).2, this.2.2.2⟩

/-- `RecvStartupMessage` gives the sequential program what it gives the session. -/
def Fed (parse : Bytes → Option ConnectionParams) (given : Bytes) (final : Err) (fin : State) : Prop :=
  ∀ s s1 h, Reachable (step parse) init s → s.hs = .recv → step parse s .recvStartup = some s1 → Reachable (step parse) s1 fin →
    given = s.base.hsRead ++ h.bytes → h.final = final →
    ∃ o h', recvStartupMessage h = (o, h') ∧ given = s1.base.hsRead ++ h'.bytes ∧ h'.final = final ∧
      ∀ m rest, tryRecvStartup (s.base.conn .client) = some (m, rest) →
        (∃ x, m = .ok x ∧ o = .ok x) ∨ ((∀ x, m ≠ .ok x) ∧ ∃ e, o = .err e)

theorem fail_over {given : Bytes} {final : Err} {s s1 : State} {h : HandshakeState} {e : Err} (hn : s.base.proc = .notStarted)
    (hne : ∀ m, s.hs ≠ .assign m) (hs : s.fail = some s1) (hA : At given final s h) :
    s1.hs = .idle ∧ s1.base.start ≠ .notCalled ∧ Spec.SameOutcome s1 given (.err e, h) := by
  unfold State.fail at hs
  obtain ⟨b, hb, rfl⟩ := Option.map_eq_some_iff.mp hs
  obtain ⟨rfl, hst⟩ := hsFail_frame hb
  obtain ⟨h1, h2, h3, h4, h5, h6, h7, h8, h9⟩ := hA
  refine ⟨rfl, by simp, .inr ⟨⟨e, rfl⟩, hn⟩, h1, h3, h4, h5, h6, ?_⟩
  rw [h7]
  split
  · rename_i hx; exact absurd hx (hne _)
  · simp

/-- A step of the session is the next part of the sequential program. -/
theorem sim_step {given : Bytes} {final : Err} {s s1 fin : State} {a : Action} {acts : List Action} {h : HandshakeState} {fuel : Nat}
    (hreach : Reachable (step parse) init s) (hF : Fed parse given final fin) (hidle : s.hs ≠ .idle) (hs : step parse s a = some s1)
    (hr : Reachable (step parse) s1 fin) (hA : At given final s h) (hO : Ahead parse env fin h (a :: acts)) (hf : h.client.bytes.length < fuel) :
    (s1.hs ≠ .idle ∧ ∃ h1 fuel1, At given final s1 h1 ∧ Ahead parse env fin h1 acts ∧ h1.client.bytes.length < fuel1 ∧
      cont env fuel s.hs h = cont env fuel1 s1.hs h1) ∨
    (s1.hs = .idle ∧ s1.base.start ≠ .notCalled ∧ Spec.SameOutcome s1 given (cont env fuel s.hs h)) := by
  have hi := hinv_of_reachable hreach
  have hstage := hi.stage
  have hns := hi.early.notSpawned
  cases a with
  | base a =>
    left
    simp only [step] at hs
    split at hs
    · simp at hs
    rename_i ha
    obtain ⟨b, hb, rfl⟩ := Option.map_eq_some_iff.mp hs
    obtain ⟨f1, f2, f3, f4⟩ := base_frame (by simpa using ha) hi.early hb
    have hass : (b.conn .db).assigned = (s.base.conn .db).assigned := by
      have ha : isHandshake a = false := by simpa using ha
      session_cases hb <;> grind [upd_apply, isHandshake]
    have hin : s.base.start.inHandshake = true := by
      unfold Stage at hstage
      split at hstage <;> simp_all [StartPC.inHandshake]
    have hc : ¬ (a = .callStart ∧ b.start = .negotiating) := by
      rintro ⟨rfl, _⟩
      session_case hb <;> simp_all [StartPC.inHandshake]
    have hst : b.start = s.base.start := by
      rcases f4 with f4 | f4 | f4
      · exact f4
      · exact absurd ⟨f4.1, f4.2.2⟩ hc
      · rw [f4.1] at hin; simp at hin
    simp only [if_neg hc]
    obtain ⟨h1, h2, h3, h4, h5, h6, h7, h8, h9⟩ := hA
    exact ⟨hidle, h, fuel, ⟨by simpa [f1] using h1, h2, by simpa [f2] using h3, by simpa [f2] using h4, h5, h6, by simpa [hass] using h7, h8,
      by simpa [hass, hst] using h9⟩, hO.skip rfl rfl rfl rfl, hf, rfl⟩
  | recvStartup =>
    have hs0 := hs
    simp only [step] at hs
    split at hs
    case h_2 => simp at hs
    rename_i hhs
    unfold Stage at hstage
    simp only [hhs] at hstage
    obtain ⟨t1, -⟩ := hstage
    have hns := hns (.inr (by rw [t1]; rfl))
    have hread : ∀ {n b}, SessionModel.step s.base (.hsRead n) = some b →
        b.hsWritten = s.base.hsWritten ∧ b.start = s.base.start ∧ b.proc = s.base.proc ∧ b.conn .db = s.base.conn .db := by
      intro n b hb
      session_case hb
      exact ⟨rfl, rfl, rfl, rfl⟩
    obtain ⟨o, r, ho, hg, hfin, hcase⟩ := hF s s1 h.client hreach hhs hs0 hr hA.read hA.final
    obtain ⟨h1, h2, h3, h4, h5, h6, h7, h8, h9⟩ := hA
    obtain ⟨fuel, rfl⟩ : ∃ f, fuel = f + 1 := ⟨fuel - 1, by omega⟩
    split at hs
    · simp at hs
    · rename_i m rest hm
      obtain ⟨b, hb, hs⟩ := Option.bind_eq_some_iff.mp hs
      obtain ⟨b2, b3, b4, b5⟩ := hread hb
      have ho' : o = .ok m := by
        rcases hcase _ _ hm with ⟨x, hx, rfl⟩ | ⟨hx, _⟩
        · simp only [Res.ok.injEq] at hx; rw [hx]
        · exact absurd rfl (hx m)
      subst ho'
      have hrecv : recvFromClient h = (.ok m, { h with client := r }) := by unfold recvFromClient; rw [ho]
      obtain ⟨pkt, hp, hl⟩ := recvStartup_consumes ho
      have hlen : r.bytes.length < fuel := by rw [hp] at hf; simp only [List.length_append] at hf; omega
      have hcont : cont env (fuel + 1) s.hs h =
          if m.protocolVersion = sslRequestMagic then cont env fuel .reply { h with client := r } else acceptStartup env m { h with client := r } := by
        rw [hhs]
        show negotiateSessionParams env (fuel + 1) h = _
        rw [negotiateSessionParams, HS.bind_of_ok hrecv]
        split <;> rfl
      have hdb : h.dbConn = (b.conn .db).assigned := by rw [h7, hhs, b5]; simp
      split at hs
      · rename_i hmagic
        simp only [Option.some.injEq] at hs; subst hs
        refine .inl ⟨by simp, { h with client := r }, fuel, ⟨hg, hfin, by simpa [b2] using h3, by simpa [b2] using h4, h5, h6, by simpa using hdb,
          fun _ => h8 (.inl hhs), by simpa [b3, b5] using h9⟩, hO.skip rfl rfl rfl rfl, hlen, ?_⟩
        rw [hcont, if_pos hmagic]
      · rename_i hmagic
        rw [if_neg hmagic] at hcont
        split at hs
        · rename_i hv
          right
          have hcont : cont env (fuel + 1) s.hs h = (.err .unsupportedProtocol, { h with client := r }) := by
            rw [hcont]; unfold acceptStartup; rw [if_pos hv]; rfl
          rw [hcont]
          refine fail_over (final := final) (by simpa [b4] using hns) (by simp [hhs]) hs ⟨?_, hfin, by simpa [b2] using h3, by simpa [b2] using h4, h5, h6,
            by simpa [hhs] using hdb, fun _ => h8 (.inl hhs), by simpa [b3, b5] using h9⟩
          unfold State.fail at hs
          obtain ⟨b', hb', rfl⟩ := Option.map_eq_some_iff.mp hs
          obtain ⟨rfl, _⟩ := hsFail_frame hb'
          exact hg
        · simp only [Option.some.injEq] at hs; subst hs
          exact .inl ⟨by simp, { h with client := r }, fuel, ⟨hg, hfin, by simpa [b2] using h3, by simpa [b2] using h4, h5, h6, by simpa using hdb,
            fun _ => h8 (.inl hhs), by simpa [b3, b5] using h9⟩, hO.skip rfl rfl rfl rfl, hlen, hcont⟩
    · rename_i e rest hm
      obtain ⟨b, hb, hs⟩ := Option.bind_eq_some_iff.mp hs
      obtain ⟨b2, b3, b4, b5⟩ := hread hb
      obtain ⟨e', rfl⟩ : ∃ e, o = .err e := by
        rcases hcase _ _ hm with ⟨x, hx, rfl⟩ | ⟨_, hx⟩
        · simp at hx
        · exact hx
      right
      have hrecv : recvFromClient h = (.err e', { h with client := r }) := by unfold recvFromClient; rw [ho]
      have hcont : cont env (fuel + 1) s.hs h = (.err e', { h with client := r }) := by
        rw [hhs]
        show negotiateSessionParams env (fuel + 1) h = _
        rw [negotiateSessionParams, HS.bind_of_err hrecv]
      rw [hcont]
      refine fail_over (final := final) (by simpa [b4] using hns) (by simp [hhs]) hs ⟨?_, hfin, by simpa [b2] using h3, by simpa [b2] using h4, h5, h6,
        by simp [h7, hhs, b5], fun _ => h8 (.inl hhs), by simpa [b3, b5] using h9⟩
      unfold State.fail at hs
      obtain ⟨b', hb', rfl⟩ := Option.map_eq_some_iff.mp hs
      obtain ⟨rfl, _⟩ := hsFail_frame hb'
      exact hg
    · rename_i hp; exact absurd hp tryRecvStartup_no_panic
  | reply ok =>
    simp only [step] at hs
    split at hs
    case h_2 => simp at hs
    rename_i hhs
    unfold Stage at hstage
    simp only [hhs] at hstage
    obtain ⟨t1, -⟩ := hstage
    have hns := hns (.inr (by rw [t1]; rfl))
    obtain ⟨h1, h2, h3, h4, h5, h6, h7, h8, h9⟩ := hA
    split at hs
    · rename_i hok
      have hw := hO.reply_ok 0 (by simp [Spec.replies, hok])
      rw [Nat.add_zero] at hw
      obtain ⟨b, hb, rfl⟩ := Option.map_eq_some_iff.mp hs
      have hbf : b.hsRead = s.base.hsRead ∧ b.hsWritten = upd s.base.hsWritten .client (s.base.hsWritten .client ++ sendByte (BitVec.ofNat 8 'N'.toNat)) ∧
          b.start = s.base.start ∧ (b.conn .db) = s.base.conn .db := by
        session_case hb
        exact ⟨rfl, rfl, rfl, rfl⟩
      obtain ⟨b1, b2, b3, b4⟩ := hbf
      refine .inl ⟨by simp, { h with clientWrites := h.clientWrites + 1, toClient := h.toClient ++ sendByte (BitVec.ofNat 8 'N'.toNat) }, fuel,
        ⟨by simpa [b1] using h1, h2, by simp [b2, h3], by simpa [b2, upd_apply] using h4, h5, h6, by simp [h7, hhs, b4], fun _ => h8 (.inr (.inl hhs)),
          by simpa [b3, b4] using h9⟩, hO.afterReply rfl rfl, hf, ?_⟩
      have hsend : sendByteToClient env (BitVec.ofNat 8 'N'.toNat) h =
          (.ok (), { h with clientWrites := h.clientWrites + 1, toClient := h.toClient ++ sendByte (BitVec.ofNat 8 'N'.toNat) }) := by
        unfold sendByteToClient; simp only [hw]
      rw [hhs]
      simp only [cont]
      rw [HS.bind_of_ok hsend]
    · rename_i hok
      obtain ⟨e, hw⟩ := hO.reply_err 0 (by simpa [Spec.replies] using hok)
      rw [Nat.add_zero] at hw
      right
      have hsend : sendByteToClient env (BitVec.ofNat 8 'N'.toNat) h = (.err e, { h with clientWrites := h.clientWrites + 1 }) := by
        unfold sendByteToClient; simp only [hw]
      have hcont : cont env fuel s.hs h = (.err e, { h with clientWrites := h.clientWrites + 1 }) := by
        rw [hhs]
        simp only [cont]
        rw [HS.bind_of_err hsend]
      rw [hcont]
      exact fail_over (final := final) hns (by simp [hhs]) hs ⟨h1, h2, h3, h4, h5, h6, h7, h8, h9⟩
  | getConfig o =>
    simp only [step] at hs
    split at hs
    case h_2 => simp at hs
    rename_i m hhs
    unfold Stage at hstage
    simp only [hhs] at hstage
    obtain ⟨t1, _, t2, -⟩ := hstage
    have hns := hns (.inr (by rw [t1]; rfl))
    obtain ⟨h1, h2, h3, h4, h5, h6, h7, h8, h9⟩ := hA
    have hp := h8 (.inr (.inr ⟨m, hhs⟩))
    have hv : m.protocolVersion = defaultProtocolVersion := (version3_iff m).mpr t2
    split at hs
    · rename_i params hpar
      obtain ⟨u, rfl, hpar⟩ := Option.bind_eq_some_iff.mp hpar
      have hc := hO.config_ok 0 u (by simp [Spec.answers])
      rw [Nat.add_zero] at hc
      have hpu := hO.parse_ok _ _ hpar
      have hget : getDBConnectionParam env (ascii "database") h =
          (.ok (params.get (ascii "database")), { h with getCalls := h.getCalls + 1, params := some params }) := by
        unfold getDBConnectionParam; simp only [hp, hc, hpu]
      split at hs
      · rename_i hdb
        right
        have hcont : cont env fuel s.hs h = (.err .databaseMismatch, { h with getCalls := h.getCalls + 1, params := some params }) := by
          rw [hhs]
          simp only [cont]
          unfold acceptStartup
          rw [if_neg (not_not_intro hv), HS.bind_of_ok hget, if_pos hdb]
          rfl
        rw [hcont]
        -- the parameters are cached, which no longer matters
        have := fail_over (s := { s with configs := s.configs ++ [some u], hs := .dial m params }) (final := final) (given := given) (e := .databaseMismatch) (s1 := s1)
          (h := { h with getCalls := h.getCalls + 1, params := some params }) hns (by simp) (by simpa [State.fail] using hs)
          ⟨h1, h2, h3, h4, by simp [h5], h6, by simpa [hhs] using h7, by simp, h9⟩
        exact this
      · rename_i hdb
        split at hs
        · simp at hs
        simp only [Option.some.injEq] at hs; subst hs
        refine .inl ⟨by simp, { h with getCalls := h.getCalls + 1, params := some params }, fuel,
          ⟨h1, h2, h3, h4, by simp [h5], h6, by simpa [hhs] using h7, by simp, h9⟩, hO.afterConfig rfl rfl, hf, ?_⟩
        rw [hhs]
        simp only [cont]
        unfold acceptStartup
        rw [if_neg (not_not_intro hv), HS.bind_of_ok hget, if_neg hdb]
        unfold establishDBConnection
        rw [HS.bind_of_ok (getParam_cached _ rfl), HS.bind_of_ok (getParam_cached _ rfl)]
        rfl
    · rename_i hpar
      right
      obtain ⟨e, hget⟩ : ∃ e, getDBConnectionParam env (ascii "database") h = (.err e, { h with getCalls := h.getCalls + 1 }) := by
        cases o with
        | none =>
          obtain ⟨e, hc⟩ := hO.config_err 0 (by simp [Spec.answers])
          rw [Nat.add_zero] at hc
          exact ⟨e, by unfold getDBConnectionParam; simp only [hp, hc]⟩
        | some u =>
          have hc := hO.config_ok 0 u (by simp [Spec.answers])
          rw [Nat.add_zero] at hc
          obtain ⟨e, hpu⟩ := hO.parse_err u (by simpa using hpar)
          exact ⟨e, by unfold getDBConnectionParam; simp only [hp, hc, hpu]⟩
      have hcont : cont env fuel s.hs h = (.err e, { h with getCalls := h.getCalls + 1 }) := by
        rw [hhs]
        simp only [cont]
        unfold acceptStartup
        rw [if_neg (not_not_intro hv), HS.bind_of_err hget]
      rw [hcont]
      exact fail_over (final := final) (s := { s with configs := s.configs ++ [o] }) hns (by simp [hhs]) hs
        ⟨h1, h2, h3, h4, by simp [h5], h6, h7, fun _ => hp, h9⟩
  | dial ok =>
    have hs0 := hs
    simp only [step] at hs
    split at hs
    case h_2 => simp at hs
    rename_i m params hhs
    unfold Stage at hstage
    simp only [hhs] at hstage
    obtain ⟨t1, -⟩ := hstage
    have hns := hns (.inr (by rw [t1]; rfl))
    obtain ⟨h1, h2, h3, h4, h5, h6, h7, h8, h9⟩ := hA
    have hun := h9 (.inl t1)
    split at hs
    · rename_i hok
      have hmem : address params ∈ fin.dialed := by
        refine (late (hinv_of_reachable (hreach.next hs0)) hr).2.2.subset ?_
        obtain ⟨b, hb, rfl⟩ := Option.map_eq_some_iff.mp hs
        simp [address]
      have hd := hO.dial_ok (by simp [hok]) (address params) hmem
      obtain ⟨b, hb, rfl⟩ := Option.map_eq_some_iff.mp hs
      have hbf : b.hsRead = s.base.hsRead ∧ b.hsWritten = s.base.hsWritten ∧ (b.conn .db).assigned = (s.base.conn .db).assigned := by
        session_case hb
        exact ⟨rfl, rfl, by simp⟩
      obtain ⟨b1, b2, b4⟩ := hbf
      refine .inl ⟨by simp, { h with dialed := h.dialed ++ [address params], dbConn := true }, fuel,
        ⟨by simpa [b1] using h1, h2, by simpa [b2] using h3, by simpa [b2] using h4, h5, by simp [h6, address], by simp,
          by simp, fun _ => by rw [b4, hun]⟩, hO.skip rfl rfl rfl rfl, hf, ?_⟩
      rw [hhs]
      simp only [cont]
      rw [HS.bind_of_ok (show dialDB env _ _ = (.ok (), _) by unfold dialDB; simp only [hd]; rfl)]
    · rename_i hok
      have hmem : address params ∈ fin.dialed := by
        refine (late (hinv_of_reachable (hreach.next hs0)) hr).2.2.subset ?_
        rw [(fail_frame hs).2.2.2]
        simp [address]
      obtain ⟨e, hd⟩ := hO.dial_err (by simp [show ok = false by simpa using hok]) (address params) hmem
      right
      have hcont : cont env fuel s.hs h = (.err e, { h with dialed := h.dialed ++ [address params] }) := by
        rw [hhs]
        simp only [cont]
        rw [HS.bind_of_err (show dialDB env _ _ = (.err e, _) by unfold dialDB; simp only [hd]; rfl)]
      rw [hcont]
      exact fail_over (final := final) (s := { s with dialed := s.dialed ++ [address params] }) hns (by simp [hhs]) hs
        ⟨h1, h2, h3, h4, h5, by simp [h6], h7, by simp [hhs], h9⟩
  | assign =>
    simp only [step] at hs
    split at hs
    case h_2 => simp at hs
    rename_i m hhs
    obtain ⟨h1, h2, h3, h4, h5, h6, h7, h8, h9⟩ := hA
    obtain ⟨b, hb, rfl⟩ := Option.map_eq_some_iff.mp hs
    have hbf : b.hsRead = s.base.hsRead ∧ b.hsWritten = s.base.hsWritten ∧ (b.conn .db).assigned = true ∧ b.start = .assigned := by
      session_case hb
      exact ⟨rfl, rfl, by simp, rfl⟩
    obtain ⟨b1, b2, b4, b5⟩ := hbf
    refine .inl ⟨by simp, h, fuel, ⟨by simpa [b1] using h1, h2, by simpa [b2] using h3, by simpa [b2] using h4, h5, h6, by simp [h7, hhs, b4],
      by simp, by simp [b5]⟩, hO.skip rfl rfl rfl rfl, hf, by rw [hhs]; rfl⟩
  | startup failure =>
    have hs0 := hs
    simp only [step] at hs
    split at hs
    case h_2 => simp at hs
    rename_i m hhs
    unfold Stage at hstage
    simp only [hhs] at hstage
    obtain ⟨t1, ⟨ssl, pkt, t2, -⟩, -⟩ := hstage
    have hns := hns (.inr (by rw [t1]; rfl))
    obtain ⟨h1, h2, h3, h4, h5, h6, h7, h8, h9⟩ := hA
    have hlast : fin.packets.getLast? = some (pkt, m) := by
      rw [(late hi (((Reachable.refl s).next hs0).trans hr)).1 (by simp [Opened', hhs]), t2]
      simp
    right
    cases failure with
    | none =>
      simp only at hs
      have hw := hO.write_ok (by simp) _ hlast
      obtain ⟨b, hb, rfl⟩ := Option.map_eq_some_iff.mp hs
      have hbf : b.hsRead = s.base.hsRead ∧ b.hsWritten = upd s.base.hsWritten .db (s.base.hsWritten .db ++ sendMessage (.startup m)) ∧
          (b.conn .db).assigned = (s.base.conn .db).assigned ∧ b.start = .waiting ∧ b.proc = .select := by
        session_case hb
        all_goals first | exact ⟨rfl, rfl, by simp, rfl, rfl⟩ | simp_all
      obtain ⟨b1, b2, b4, b5, b6⟩ := hbf
      have hcont : cont env fuel s.hs h = (.ok (), { h with toDB := h.toDB ++ sendMessage (.startup m) }) := by
        rw [hhs]
        simp only [cont]
        unfold sendToDB
        simp only [hw]
      rw [hcont]
      exact ⟨rfl, by simp [b5], .inl ⟨rfl, by simp [b6]⟩, by simpa [b1] using h1, by simpa [b2, upd_apply] using h3, by simp [b2, h4], h5, h6,
        by simp [h7, hhs, b4]⟩
    | some n =>
      simp only at hs
      obtain ⟨e, hw⟩ := hO.write_err n (by simp) _ hlast
      obtain ⟨b, hb, rfl⟩ := Option.map_eq_some_iff.mp hs
      have hbf : b.hsRead = s.base.hsRead ∧ b.hsWritten = upd s.base.hsWritten .db (s.base.hsWritten .db ++ (sendMessage (.startup m)).take n) ∧
          (b.conn .db).assigned = (s.base.conn .db).assigned ∧ b.start = .deferred true ∧ b.proc = s.base.proc := by
        session_case hb
        all_goals first | exact ⟨rfl, rfl, by simp, rfl, rfl⟩ | simp_all
      obtain ⟨b1, b2, b4, b5, b6⟩ := hbf
      have hcont : cont env fuel s.hs h = (.err e, { h with toDB := h.toDB ++ (sendMessage (.startup m)).take n }) := by
        rw [hhs]
        simp only [cont]
        unfold sendToDB
        simp only [hw]
      rw [hcont]
      exact ⟨rfl, by simp [b5], .inr ⟨⟨e, rfl⟩, by simp [b6, hns]⟩, by simpa [b1] using h1, by simpa [b2, upd_apply] using h3, by simp [b2, h4], h5, h6,
        by simp [h7, hhs, b4]⟩

/-- The session from the start of its handshake on. -/
theorem sim_run {given : Bytes} {final : Err} {fin : State} (hF : Fed parse given final fin) (hfin : fin.hs = .idle) :
    ∀ (acts : List Action) (s : State) (h : HandshakeState) (fuel : Nat), run (step parse) s acts = some fin → Reachable (step parse) init s → s.hs ≠ .idle →
      At given final s h → Ahead parse env fin h acts → h.client.bytes.length < fuel → Spec.SameOutcome fin given (cont env fuel s.hs h)
  | [], s, _, _, hr, _, hne, _, _, _ => by
    simp only [run, Option.some.injEq] at hr
    subst hr
    exact absurd hfin hne
  | a :: acts, s, h, fuel, hr, hi, hne, hA, hO, hf => by
    simp only [run] at hr
    cases hs : step parse s a with
    | none => rw [hs] at hr; simp at hr
    | some s1 =>
      rw [hs] at hr
      rcases sim_step hi hF hne hs ⟨acts, hr⟩ hA hO hf with ⟨hne1, h1, fuel1, a1, a2, a3, a4⟩ | ⟨a1, a2, a3⟩
      · rw [a4]
        exact sim_run hF hfin acts s1 h1 fuel1 hr (hi.next hs) hne1 a1 a2 a3
      · exact over_run (hinv_of_reachable (hi.next hs)) a1 a2 hr a3

/-! ### What the client's connection gives -/

theorem packet_reader {pkt rest : Bytes} {m : StartupMessage} {r : Reader} (h : Spec.StartupPacket pkt m) (hr : r.bytes = pkt ++ rest) :
    ∃ r', recvStartupMessage r = (.ok m, r') ∧ r'.bytes = rest ∧ r'.final = r.final := by
  obtain ⟨q, h1, h2⟩ := h rest r.final
  obtain ⟨a1, a2, _⟩ := recvStartupMessage_eq ⟨[pkt ++ rest], r.final⟩
  obtain ⟨b1, b2, b3⟩ := recvStartupMessage_eq r
  simp only [Reader.bytes, List.flatten_cons, List.flatten_nil, List.append_nil] at a1 a2
  rw [hr] at b1 b2
  rw [h1] at a1 a2
  exact ⟨(recvStartupMessage r).2, Prod.ext (b1.trans a1.symm) rfl, b2.trans (a2.symm.trans h2), b3⟩

/-- A receive that fails: the connection was closed, or the stream has ended too early, or the packet is not a startup message. -/
theorem startup_ended {c : PeerConn} {e : Err} {rest : Bytes} (h : tryRecvStartup c = some (.err e, rest)) :
    ∃ used, c.unread = used ++ rest ∧ ((c.isOpen = false ∧ used = []) ∨
      (c.isOpen = true ∧ c.ended ≠ none ∧ rest = [] ∧ ∀ r : Reader, r.bytes = used →
        ∃ e r', recvStartupMessage r = (.err e, r') ∧ r'.bytes = [] ∧ r'.final = r.final) ∨
      (c.isOpen = true ∧ ∀ (r : Reader) (x : Bytes), r.bytes = used ++ x →
        ∃ e r', recvStartupMessage r = (.err e, r') ∧ r'.bytes = x ∧ r'.final = r.final)) := by
  have bad : ∀ {len : BitVec 32} {body : Bytes}, parseStartupMessage (.startup (putUint32 len ++ body)) = .err e → body.length = (len - 4).toInt.toNat →
      ∀ (r : Reader) (x : Bytes), r.bytes = putUint32 len ++ body ++ x →
        ∃ e r', recvStartupMessage r = (.err e, r') ∧ r'.bytes = x ∧ r'.final = r.final := by
    intro len body hp hl r x hx
    obtain ⟨b1, b2, b3⟩ := recvStartupMessage_eq r
    rw [hx, flatStartup_form len body x r.final hl] at b1 b2
    exact ⟨e, _, Prod.ext (b1.trans hp) rfl, b2, b3⟩
  unfold tryRecvStartup at h
  split at h
  · rename_i ho
    simp only [Option.some.injEq, Prod.mk.injEq] at h
    exact ⟨[], by simp [h.2], .inl ⟨ho, rfl⟩⟩
  rename_i ho
  have ho : c.isOpen = true := by simpa using ho
  split at h
  · rename_i e0 hended
    simp only [Option.some.injEq, Prod.mk.injEq] at h
    obtain ⟨a1, a2, _⟩ := recvStartupMessage_eq ⟨[c.unread], e0⟩
    simp only [Reader.bytes, List.flatten_cons, List.flatten_nil, List.append_nil] at a1 a2
    rcases hf : flatStartup c.unread e0 with ⟨o, left⟩
    rw [hf] at a1 a2
    rw [h.1] at a1
    have hl : rest = left := by rw [← h.2]; exact a2
    subst hl
    cases o with
    | panic p => exact absurd (by rw [hf]) (flatStartup_no_panic c.unread e0 p)
    | err e' =>
      obtain ⟨-, rfl⟩ := flatStartup_err hf
      refine ⟨c.unread, by simp, .inr (.inl ⟨ho, by simp [hended], rfl, fun r hr => ?_⟩)⟩
      obtain ⟨b1, b2, b3⟩ := recvStartupMessage_eq r
      rw [hr] at b1 b2
      rcases hg : flatStartup c.unread r.final with ⟨o, left⟩
      rw [hg] at b1 b2
      cases o with
      | panic p => exact absurd (by rw [hg]) (flatStartup_no_panic c.unread r.final p)
      | err e2 =>
        obtain ⟨-, rfl⟩ := flatStartup_err hg
        exact ⟨e2, _, Prod.ext b1 rfl, b2, b3⟩
      | ok f =>
        obtain ⟨len, body, rfl, hu, hl, _⟩ := flatStartup_ok hg
        rw [hu, flatStartup_form len body left e0 hl] at hf
        simp at hf
    | ok f =>
      obtain ⟨len, body, rfl, hu, hl, _⟩ := flatStartup_ok hf
      exact ⟨_, hu, .inr (.inr ⟨ho, bad a1.symm hl⟩)⟩
  · rename_i hended
    split at h
    · rename_i f r hf
      simp only [Option.some.injEq, Prod.mk.injEq] at h
      obtain ⟨a1, a2, _⟩ := readStartupFrame_flat ⟨[c.unread], .eof⟩
      simp only [Reader.bytes, List.flatten_cons, List.flatten_nil, List.append_nil] at a1 a2
      rw [hf] at a1 a2
      have hf' : flatStartup c.unread .eof = (.ok f, rest) := by
        refine Prod.ext a1.symm ?_
        rw [← a2, ← h.2]; rfl
      obtain ⟨len, body, rfl, hu, hl, _⟩ := flatStartup_ok hf'
      exact ⟨_, hu, .inr (.inr ⟨ho, bad h.1 hl⟩)⟩
    · simp at h
    · simp at h

/-- The bytes taken in a step. -/
theorem recv_step {s s1 : State} (hs : step parse s .recvStartup = some s1) :
    ∃ o rest, tryRecvStartup (s.base.conn .client) = some (o, rest) ∧
      (∀ used, (s.base.conn .client).unread = used ++ rest → s1.base.hsRead = s.base.hsRead ++ used) ∧
      ((∃ m, o = .ok m) ∨ (∃ e, o = .err e) ∧ s1.hs = .idle ∧ s1.base.start ≠ .notCalled) := by
  simp only [step] at hs
  split at hs
  case h_2 => simp at hs
  have hread : ∀ {n b}, SessionModel.step s.base (.hsRead n) = some b →
      b.hsRead = s.base.hsRead ++ (s.base.conn .client).unread.take n := by
    intro n b hb
    session_case hb
    rfl
  have htake : ∀ {used rest : Bytes}, (s.base.conn .client).unread = used ++ rest →
      (s.base.conn .client).unread.take ((s.base.conn .client).unread.length - rest.length) = used := by
    intro used rest h; rw [h]; simp
  have hfail : ∀ {t t1 : State}, t.fail = some t1 → t1.base.hsRead = t.base.hsRead ∧ t1.hs = .idle ∧ t1.base.start ≠ .notCalled := by
    intro t t1 h
    unfold State.fail at h
    obtain ⟨b, hb, rfl⟩ := Option.map_eq_some_iff.mp h
    obtain ⟨rfl, _⟩ := hsFail_frame hb
    exact ⟨rfl, rfl, by simp⟩
  split at hs
  · simp at hs
  · rename_i m rest hm
    obtain ⟨b, hb, hs⟩ := Option.bind_eq_some_iff.mp hs
    refine ⟨_, _, hm, fun used hu => ?_, .inl ⟨m, rfl⟩⟩
    have hb := hread hb
    rw [htake hu] at hb
    split at hs
    · simp only [Option.some.injEq] at hs; subst hs; exact hb
    · split at hs
      · rw [(hfail hs).1]; exact hb
      · simp only [Option.some.injEq] at hs; subst hs; exact hb
  · rename_i e rest hm
    obtain ⟨b, hb, hs⟩ := Option.bind_eq_some_iff.mp hs
    obtain ⟨f1, f2, f3⟩ := hfail hs
    refine ⟨_, _, hm, fun used hu => ?_, .inr ⟨⟨e, rfl⟩, f2, f3⟩⟩
    have hb := hread hb
    rw [htake hu] at hb
    rw [f1]; exact hb
  · rename_i hp; exact absurd hp tryRecvStartup_no_panic

/-- Nothing is read once the handshake is over. -/
theorem over_read {s s' : State} (hi : HInv parse s) (hidle : s.hs = .idle) (hst : s.base.start ≠ .notCalled)
    (h : Reachable (step parse) s s') : s'.base.hsRead = s.base.hsRead := by
  refine (h.invariant (fun t => HInv parse t ∧ t.hs = .idle ∧ t.base.start ≠ .notCalled ∧ t.base.hsRead = s.base.hsRead) ⟨hi, hidle, hst, rfl⟩
    fun t a t' ⟨h1, h2, h3, h4⟩ ht => ?_).2.2.2
  refine ⟨hinv_step h1 ht, ?_⟩
  cases a with
  | base a =>
    simp only [step] at ht
    split at ht
    · simp at ht
    rename_i ha
    obtain ⟨b, hb, rfl⟩ := Option.map_eq_some_iff.mp ht
    obtain ⟨f1, f2, f3, f4⟩ := base_frame (by simpa using ha) h1.early hb
    have hc : ¬ (a = .callStart ∧ b.start = .negotiating) := by
      rintro ⟨rfl, _⟩
      session_case hb <;> contradiction
    simp only [if_neg hc]
    refine ⟨h2, ?_, f1.trans h4⟩
    rcases f4 with f4 | f4 | f4
    · simpa [f4] using h3
    · exact absurd f4.2.1 h3
    · exact f4.2.2
  | _ => simp [step, h2] at ht

/-- The bytes that the handshake has read. -/
theorem fed_read (fin : State) (final : Err) : Fed parse fin.base.hsRead final fin := by
  intro s s1 h hreach hhs hs hr hg hf
  have hi := hinv_of_reachable hreach
  obtain ⟨o, rest, ho, hused, hcase⟩ := recv_step hs
  rcases hcase with ⟨m, rfl⟩ | ⟨⟨e, rfl⟩, hidle, hst⟩
  · obtain ⟨pkt, hp, hpk⟩ := tryRecvStartup_ok ho
    have h1 := hused pkt hp
    obtain ⟨x, hx⟩ := (grows hr).read
    have hb : h.bytes = pkt ++ x := by
      rw [← hx, h1, List.append_assoc] at hg
      exact (List.append_cancel_left hg).symm
    obtain ⟨r', a1, a2, a3⟩ := packet_reader hpk hb
    refine ⟨_, r', a1, by rw [← hx, a2], a3.trans hf, fun m' rest' h' => ?_⟩
    rw [ho] at h'
    simp only [Option.some.injEq, Prod.mk.injEq] at h'
    exact .inl ⟨m, h'.1.symm, rfl⟩
  · obtain ⟨used, hu, hc⟩ := startup_ended ho
    have h1 := hused used hu
    have h2 := over_read (hinv_step hi hs) hidle hst hr
    have hb : h.bytes = used := by
      rw [h2, h1] at hg
      exact (List.append_cancel_left hg).symm
    obtain ⟨e', r', a1, a2, a3⟩ : ∃ e r', recvStartupMessage h = (.err e, r') ∧ r'.bytes = [] ∧ r'.final = h.final := by
      rcases hc with ⟨_, rfl⟩ | ⟨_, _, _, hc⟩ | ⟨_, hc⟩
      · obtain ⟨b1, b2, b3⟩ := recvStartupMessage_eq h
        have he : flatStartup h.bytes h.final = (.err h.final, []) := by rw [hb]; rfl
        rw [he] at b1 b2
        exact ⟨h.final, _, Prod.ext b1 rfl, b2, b3⟩
      · exact hc h hb
      · exact hc h [] (by simpa using hb)
    refine ⟨_, r', a1, by rw [h2, a2]; simp, a3.trans hf, fun m' rest' h' => ?_⟩
    rw [ho] at h'
    simp only [Option.some.injEq, Prod.mk.injEq] at h'
    exact .inr ⟨by simp [← h'.1], e', rfl⟩

theorem open_of_unfired {b : SessionModel.State} (h : Reachable SessionModel.step SessionModel.init b) :
    b.fired = false → (b.conn .client).isOpen = true ∧ b.closer = .none :=
  h.invariant (fun b => b.fired = false → (b.conn .client).isOpen = true ∧ b.closer = .none) (fun _ => ⟨rfl, rfl⟩)
    fun b a b' hi hs => by session_cases hs <;> grind [upd_apply, SessionModel.State.fire]

/-- All that the client has sent. -/
theorem fed_sent {fin : State} (hfired : fin.base.fired = false) (final : Err) :
    Fed parse (fin.base.conn .client).sent final fin := by
  intro s s1 h hreach hhs hs hr hg hf
  have hi := hinv_of_reachable hreach
  have hr0 : Reachable (step parse) s fin := (Reachable.refl s).next hs |>.trans hr
  have hstage := hi.stage
  unfold Stage at hstage
  simp only [hhs] at hstage
  have hns := hi.early.notSpawned (.inr (by rw [hstage.1]; rfl))
  have hsent : (s.base.conn .client).sent = s.base.hsRead ++ (s.base.conn .client).unread := (hi.early.pumps .client hns).2.2.2.2.1
  obtain ⟨later, hlater⟩ := (grows hr0).sent
  have hb : h.bytes = (s.base.conn .client).unread ++ later := by
    rw [← hlater, hsent, List.append_assoc] at hg
    exact (List.append_cancel_left hg).symm
  obtain ⟨o, rest, ho, hused, hcase⟩ := recv_step hs
  rcases hcase with ⟨m, rfl⟩ | ⟨⟨e, rfl⟩, hidle, hst⟩
  · obtain ⟨pkt, hp, hpk⟩ := tryRecvStartup_ok ho
    have h1 := hused pkt hp
    obtain ⟨r', a1, a2, a3⟩ := packet_reader (r := h) (rest := rest ++ later) hpk (by rw [hb, hp, List.append_assoc])
    refine ⟨_, r', a1, by rw [hg, hb, hp, h1, a2]; simp, a3.trans hf, fun m' rest' h' => ?_⟩
    rw [ho] at h'
    simp only [Option.some.injEq, Prod.mk.injEq] at h'
    exact .inl ⟨m, h'.1.symm, rfl⟩
  · obtain ⟨used, hu, hc⟩ := startup_ended ho
    have h1 := hused used hu
    obtain ⟨e', r', a1, a2, a3⟩ : ∃ e r', recvStartupMessage h = (.err e, r') ∧ r'.bytes = rest ++ later ∧ r'.final = h.final := by
      rcases hc with ⟨hc, _⟩ | ⟨_, he, rfl, hc⟩ | ⟨_, hc⟩
      · rw [(open_of_unfired (base_reachable hreach) ((grows hr0).fired hfired)).1] at hc; simp at hc
      · have hl : later = [] := by
          have := ((grows hr0).ended he).1
          rw [← hlater] at this
          simpa using this
        subst hl
        exact hc h (by rw [hb, hu]; simp)
      · exact hc h (rest ++ later) (by rw [hb, hu]; simp)
    refine ⟨_, r', a1, by rw [hg, hb, hu, h1, a2]; simp, a3.trans hf, fun m' rest' h' => ?_⟩
    rw [ho] at h'
    simp only [Option.some.injEq, Prod.mk.injEq] at h'
    exact .inr ⟨by simp [← h'.1], e', rfl⟩

/-- The handshake has not begun. -/
structure Fresh (s : State) : Prop where
  hs : s.hs = .idle
  read : s.base.hsRead = []
  written : ∀ p, s.base.hsWritten p = []
  configs : s.configs = []
  dialed : s.dialed = []
  assigned : (s.base.conn .db).assigned = false
  proc : s.base.proc = .notStarted
  start : s.base.start = .notCalled ∨ (s.base.start = .returned ∧ s.base.fired = true)

theorem fresh_init : Fresh init := ⟨rfl, rfl, fun _ => rfl, rfl, rfl, rfl, rfl, .inl rfl⟩

theorem fresh_step {s s1 : State} {a : Action} (hi : HInv parse s) (h : Fresh s) (hs : step parse s a = some s1) :
    Fresh s1 ∨ (a = .base .callStart ∧ s1.base.start = .negotiating ∧ Fresh { s1 with hs := .idle, base := { s1.base with start := .notCalled } } ∧ s1.hs = .recv) := by
  obtain ⟨h1, h2, h3, h4, h5, h6, h7, h8⟩ := h
  cases a with
  | base a =>
    simp only [step] at hs
    split at hs
    · simp at hs
    rename_i ha
    obtain ⟨b, hb, rfl⟩ := Option.map_eq_some_iff.mp hs
    have ha : isHandshake a = false := by simpa using ha
    obtain ⟨f1, f2, f3, f4⟩ := base_frame ha hi.early hb
    have hass : (b.conn .db).assigned = (s.base.conn .db).assigned := by
      session_cases hb <;> grind [upd_apply, isHandshake]
    by_cases hc : a = .callStart ∧ b.start = .negotiating
    · right
      exact ⟨by rw [hc.1], hc.2, ⟨rfl, f1.trans h2, fun p => by simp [f2, h3], h4, h5, hass.trans h6, f3.mpr h7, .inl rfl⟩, by simp [hc]⟩
    · left
      simp only [if_neg hc]
      refine ⟨h1, f1.trans h2, fun p => by simp [f2, h3], h4, h5, hass.trans h6, f3.mpr h7, ?_⟩
      have hp := h7
      clear f1 f2 f3 f4 hass
      session_cases hb <;> grind [isHandshake, SessionModel.State.fire]
  | _ => simp [step, h1] at hs

theorem negotiate_empty (fuel : Nat) {h : HandshakeState} (he : h.client.bytes = []) :
    ∃ e r, negotiateSessionParams env (fuel + 1) h = (.err e, { h with client := r }) ∧ r.bytes = [] := by
  obtain ⟨b1, b2, _⟩ := recvStartupMessage_eq h.client
  have hfl : flatStartup h.client.bytes h.client.final = (.err h.client.final, []) := by rw [he]; rfl
  rw [hfl] at b1 b2
  refine ⟨h.client.final, _, ?_, b2⟩
  have hrecv : recvFromClient h = (.err h.client.final, { h with client := (recvStartupMessage h.client).2 }) := by
    unfold recvFromClient
    exact Prod.ext b1 rfl
  rw [negotiateSessionParams, HS.bind_of_err hrecv]

/-- The session from its beginning on. -/
theorem sim_init {given : Bytes} {final : Err} {fin : State} (hF : Fed parse given final fin) (hfin : fin.hs = .idle) {r : Reader}
    (hr : r.bytes = given) (hrf : r.final = final) :
    ∀ (acts : List Action) (s : State), run (step parse) s acts = some fin → Reachable (step parse) init s → Fresh s →
      Ahead parse env fin { client := r } acts → Spec.SameOutcome fin given (handshake env r) ∨ Fresh fin
  | [], s, h, _, hf, _ => by
    simp only [run, Option.some.injEq] at h
    exact .inr (h ▸ hf)
  | a :: acts, s, h, hreach, hf, hO => by
    simp only [run] at h
    cases hs : step parse s a with
    | none => rw [hs] at h; simp at h
    | some s1 =>
      rw [hs] at h
      rcases fresh_step (hinv_of_reachable hreach) hf hs with hf1 | ⟨rfl, hst, hf1, hrecv⟩
      · have hskip : Ahead parse env fin { client := r } acts := by
          cases a with
          | base a => exact hO.skip rfl rfl rfl rfl
          | _ => simp [step, hf.hs] at hs
        exact sim_init hF hfin hr hrf acts s1 h (hreach.next hs) hf1 hskip
      · left
        obtain ⟨-, h2, h3, h4, h5, h6, h7, -⟩ := hf1
        simp only at h2 h3 h4 h5 h6 h7
        have := sim_run hF hfin acts s1 { client := r } (r.bytes.length + 1) h (hreach.next hs) (by simp [hrecv])
          ⟨by rw [h2, hr]; rfl, hrf, by rw [h3], by rw [h3], by rw [h4]; rfl, by rw [h5], by simp [h6, hrecv], fun _ => rfl, fun _ => h6⟩
          (hO.skip rfl rfl rfl rfl) (Nat.lt_succ_self _)
        rw [hrecv] at this
        exact this

/-- The handshake is what the sequential program makes of the bytes it has read. -/
theorem same_read {s : State} {acts : List Action} {r : Reader} (h : run (step parse) init acts = some s) (hidle : s.hs = .idle)
    (hO : Spec.Outside parse env acts s) (hr : r.bytes = s.base.hsRead) : Spec.SameOutcome s s.base.hsRead (handshake env r) := by
  rcases sim_init (fed_read s r.final) hidle hr rfl acts init h (.refl _) fresh_init (ahead_of_outside hO r) with h' | h'
  · exact h'
  · obtain ⟨-, h2, h3, h4, h5, h6, h7, -⟩ := h'
    obtain ⟨e, r', hn, hr'⟩ := negotiate_empty (env := env) r.bytes.length (h := { client := r }) (by rw [hr, h2])
    have : handshake env r = (.err e, { client := r' }) := hn
    rw [this]
    exact ⟨.inr ⟨⟨e, rfl⟩, h7⟩, by simp [hr'], by simp [h3], by simp [h3], by simp [h4], by simp [h5], by simp [h6]⟩

/-- The handshake is what the sequential program makes of all that the client has sent. -/
theorem same_sent {s : State} {acts : List Action} {r : Reader} (h : run (step parse) init acts = some s) (hidle : s.hs = .idle)
    (hst : s.base.start ≠ .notCalled) (hf : s.base.fired = false) (hO : Spec.Outside parse env acts s) (hr : r.bytes = (s.base.conn .client).sent) :
    Spec.SameOutcome s (s.base.conn .client).sent (handshake env r) := by
  rcases sim_init (fed_sent hf r.final) hidle hr rfl acts init h (.refl _) fresh_init (ahead_of_outside hO r) with h' | h'
  · exact h'
  · rcases h'.start with h' | h'
    · exact absurd h' hst
    · rw [h'.2] at hf; simp at hf

end Gevulot.FullSession
