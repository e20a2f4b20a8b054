import Verif.Spec.FullSession
import Verif.Proofs.Handshake
import Verif.Props.Conn
import Verif.Proofs.SessionRest

namespace Gevulot

/-! ### Startup packets -/

theorem flatStartup_form (len : BitVec 32) (body rest : Bytes) (final : Err) (h : body.length = (len - 4).toInt.toNat) :
    flatStartup (putUint32 len ++ body ++ rest) final = (.ok (.startup (putUint32 len ++ body)), rest) := by
  unfold flatStartup
  rw [if_neg (by simp)]
  have h1 : (putUint32 len ++ body) ++ rest = putUint32 len ++ (body ++ rest) := by simp
  have h2 : (putUint32 len ++ body ++ rest).drop 4 = body ++ rest := rfl
  have h3 : (putUint32 len ++ body ++ rest).take 4 = putUint32 len ++ [] := rfl
  rw [h2, h3, h1, beUint32_put]
  simp only
  rw [if_pos (by rw [List.length_append]; omega), ← h]
  simp

/-- A startup message that was received is a packet in front of the rest. -/
theorem startup_packet {b : Bytes} {e : Err} {m : StartupMessage} {r : Reader} (h : recvStartupMessage ⟨[b], e⟩ = (.ok m, r)) :
    ∃ pkt, b = pkt ++ r.bytes ∧ Spec.StartupPacket pkt m := by
  obtain ⟨h1, h2, _⟩ := recvStartupMessage_eq ⟨[b], e⟩
  simp only [Reader.bytes, List.flatten_cons, List.flatten_nil, List.append_nil] at h1 h2
  rw [h] at h1 h2
  rcases hf : flatStartup b e with ⟨o, rest⟩
  rw [hf] at h1 h2
  cases o with
  | err e => simp at h1
  | panic p => simp at h1
  | ok f =>
    simp only at h1 h2
    obtain ⟨len, body, rfl, rfl, hl, _⟩ := flatStartup_ok hf
    refine ⟨putUint32 len ++ body, by simp [Reader.bytes, h2], fun x e' => ?_⟩
    obtain ⟨g1, g2, _⟩ := recvStartupMessage_eq ⟨[putUint32 len ++ body ++ x], e'⟩
    simp only [Reader.bytes, List.flatten_cons, List.flatten_nil, List.append_nil] at g1 g2
    rw [flatStartup_form len body x e' hl] at g1 g2
    exact ⟨_, Prod.ext (g1.trans h1.symm) rfl, g2⟩

namespace FullSession

open SessionModel (Peer PeerConn StartPC)

theorem tryRecvStartup_ok {c : PeerConn} {m : StartupMessage} {rest : Bytes} (h : tryRecvStartup c = some (.ok m, rest)) :
    ∃ pkt, c.unread = pkt ++ rest ∧ Spec.StartupPacket pkt m := by
  unfold tryRecvStartup at h
  split at h
  · simp at h
  · split at h
    · rename_i e _
      simp only [Option.some.injEq, Prod.mk.injEq] at h
      obtain ⟨pkt, h1, h2⟩ := startup_packet (r := (recvStartupMessage ⟨[c.unread], e⟩).2) (Prod.ext h.1 rfl)
      rw [h.2] at h1
      exact ⟨pkt, h1, h2⟩
    · split at h
      · rename_i f r hf
        simp only [Option.some.injEq, Prod.mk.injEq] at h
        have : recvStartupMessage ⟨[c.unread], .eof⟩ = (.ok m, r) := by unfold recvStartupMessage; rw [hf]; simp [h.1]
        obtain ⟨pkt, h1, h2⟩ := startup_packet this
        rw [h.2] at h1
        exact ⟨pkt, h1, h2⟩
      · simp at h
      · simp at h

theorem tryRecvStartup_no_panic {c : PeerConn} {p : Panic} {rest : Bytes} : tryRecvStartup c ≠ some (.panic p, rest) := by
  intro h
  have key : ∀ e, (recvStartupMessage ⟨[c.unread], e⟩).1 ≠ .panic p := by
    intro e he
    have := C19_recvStartupMessage_partial ⟨[c.unread], e⟩
    rw [he] at this
    exact this ⟨p, rfl⟩
  unfold tryRecvStartup at h
  split at h
  · simp at h
  · split at h
    · rename_i e _
      simp only [Option.some.injEq, Prod.mk.injEq] at h
      exact key _ h.1
    · split at h
      · rename_i f r hf
        simp only [Option.some.injEq, Prod.mk.injEq] at h
        exact key .eof (by unfold recvStartupMessage; rw [hf]; simp [h.1])
      · simp at h
      · rename_i q r hf
        simp only [Option.some.injEq, Prod.mk.injEq] at h
        exact key .eof (by unfold recvStartupMessage; rw [hf]; simpa using h.1)

/-! ### Every execution is one of Model/Session.lean -/

variable {parse : Bytes → Option ConnectionParams}

theorem fail_base {s s' : State} {a : Action} (h : s.fail = some s') :
    ∃ acts, run SessionModel.step s.base acts = some s'.base ∧ ∀ x ∈ acts, isHandshake x = true ∨ a = .base x := by
  unfold State.fail at h
  obtain ⟨b, hb, rfl⟩ := Option.map_eq_some_iff.mp h
  exact ⟨[.hsFail], by simp [run, hb], by simp [isHandshake]⟩

theorem step_base {s s' : State} {a : Action} (h : step parse s a = some s') :
    ∃ acts, run SessionModel.step s.base acts = some s'.base ∧ ∀ x ∈ acts, isHandshake x = true ∨ a = .base x := by
  have map1 : ∀ {x : SessionModel.Action} {f : SessionModel.State → State}, (∀ b, (f b).base = b) → (isHandshake x = true ∨ a = .base x) →
      (SessionModel.step s.base x).map f = some s' →
      ∃ acts, run SessionModel.step s.base acts = some s'.base ∧ ∀ x ∈ acts, isHandshake x = true ∨ a = .base x := by
    intro x f hf hx h
    obtain ⟨b, hb, rfl⟩ := Option.map_eq_some_iff.mp h
    exact ⟨[x], by simp [run, hb, hf], by simpa using hx⟩
  have app : ∀ {x : SessionModel.Action} {b : SessionModel.State}, SessionModel.step s.base x = some b → isHandshake x = true →
      (∃ acts, run SessionModel.step b acts = some s'.base ∧ ∀ x ∈ acts, isHandshake x = true ∨ a = .base x) →
      ∃ acts, run SessionModel.step s.base acts = some s'.base ∧ ∀ x ∈ acts, isHandshake x = true ∨ a = .base x := by
    rintro x b hb hx ⟨acts, h, hacts⟩
    refine ⟨x :: acts, by simp [run, hb, h], fun y hy => ?_⟩
    rcases List.mem_cons.mp hy with rfl | hy
    · exact .inl hx
    · exact hacts y hy
  cases a with
  | base a =>
    simp only [step] at h
    split at h
    · simp at h
    · exact map1 (fun _ => rfl) (.inr rfl) h
  | recvStartup =>
    simp only [step] at h
    split at h
    · split at h
      · simp at h
      · obtain ⟨b, hb, h⟩ := Option.bind_eq_some_iff.mp h
        refine app hb rfl ?_
        split at h
        · simp only [Option.some.injEq] at h; subst h; exact ⟨[], rfl, by simp⟩
        · split at h
          · exact fail_base (s := { s with base := b, packets := _ }) h
          · simp only [Option.some.injEq] at h; subst h; exact ⟨[], rfl, by simp⟩
      · obtain ⟨b, hb, h⟩ := Option.bind_eq_some_iff.mp h
        exact app hb rfl (fail_base (s := { s with base := b }) h)
      · rename_i hp; exact absurd hp tryRecvStartup_no_panic
    · simp at h
  | reply ok =>
    simp only [step] at h
    split at h
    · split at h
      · exact map1 (fun _ => rfl) (.inl rfl) h
      · exact fail_base h
    · simp at h
  | getConfig answer =>
    simp only [step] at h
    split at h
    · split at h
      · split at h
        · have h' := fail_base (a := .getConfig answer) h; exact h'
        · split at h
          · simp at h
          · simp only [Option.some.injEq] at h; subst h; exact ⟨[], rfl, by simp⟩
      · have h' := fail_base (a := .getConfig answer) h; exact h'
    · simp at h
  | dial ok =>
    simp only [step] at h
    split at h
    · split at h
      · exact map1 (fun _ => rfl) (.inl rfl) h
      · have h' := fail_base (a := .dial ok) h; exact h'
    · simp at h
  | assign =>
    simp only [step] at h
    split at h
    · exact map1 (fun _ => rfl) (.inl rfl) h
    · simp at h
  | startup failure =>
    simp only [step] at h
    split at h
    · split at h
      · exact map1 (fun _ => rfl) (.inl rfl) h
      · exact map1 (fun _ => rfl) (.inl rfl) h
    · simp at h

/-- The session seen without the details of its handshake is a session of Model/Session.lean. -/
theorem base_reachable {s : State} (h : Reachable (step parse) init s) :
    Reachable SessionModel.step SessionModel.init s.base :=
  h.invariant (fun s => Reachable SessionModel.step SessionModel.init s.base) (Reachable.refl _)
    fun _ _ _ hi hs => by
      obtain ⟨acts, h, _⟩ := step_base hs
      exact hi.trans ⟨acts, h⟩

/-! ### What the handshake has done so far -/

/-- All packets are SSL requests. -/
def AllSSL (packets : List (Bytes × StartupMessage)) : Prop := ∀ x ∈ packets, x.2.protocolVersion.toNat = 80877103

/-- SSL requests, then a packet with `m`. -/
def Opened (packets : List (Bytes × StartupMessage)) (m : StartupMessage) : Prop :=
  ∃ ssl b, packets = ssl ++ [(b, m)] ∧ AllSSL ssl

/-- The address for these settings. -/
def address (settings : ConnectionParams) : Bytes :=
  joinHostPort (settings.get (ascii "host")) (settings.get (ascii "port"))

/-- One configuration was asked for and gave these settings, with which `m` is admitted. -/
def Config (parse : Bytes → Option ConnectionParams) (configs : List (Option Bytes)) (m : StartupMessage)
    (settings : ConnectionParams) : Prop :=
  ∃ url, configs = [some url] ∧ parse url = some settings ∧ Spec.Admitted m settings

/-- What was written to the client: so many times 'N'. -/
def Replies (s : State) (k : Nat) : Prop := s.base.hsWritten .client = List.replicate k Spec.no

/-- Nothing happened yet beyond SSL requests. -/
def Quiet (s : State) : Prop := s.configs = [] ∧ s.dialed = [] ∧ s.base.hsWritten .db = []

/-- SSL requests, of which at most the last one is unanswered, possibly followed by something else. -/
def Refused (s : State) : Prop :=
  ∃ k, Replies s k ∧ ((AllSSL s.packets ∧ k ≤ s.packets.length ∧ s.packets.length ≤ k + 1) ∨
    ((∃ m, Opened s.packets m) ∧ k + 1 = s.packets.length))

/-- What has been done at each point of the handshake. -/
def Stage (parse : Bytes → Option ConnectionParams) (s : State) : Prop :=
  match s.hs with
  | .recv => s.base.start = .negotiating ∧ AllSSL s.packets ∧ Replies s s.packets.length ∧ Quiet s
  | .reply => s.base.start = .negotiating ∧ AllSSL s.packets ∧ (∃ k, k + 1 = s.packets.length ∧ Replies s k) ∧ Quiet s
  | .config m => s.base.start = .negotiating ∧ Opened s.packets m ∧ m.protocolVersion.toNat = 196608 ∧
      (∃ k, k + 1 = s.packets.length ∧ Replies s k) ∧ Quiet s
  | .dial m settings => s.base.start = .negotiating ∧ Opened s.packets m ∧ (∃ k, k + 1 = s.packets.length ∧ Replies s k) ∧
      Config parse s.configs m settings ∧ s.dialed = [] ∧ s.base.hsWritten .db = []
  | .assign m => s.base.start = .dialled ∧ Opened s.packets m ∧ (∃ k, k + 1 = s.packets.length ∧ Replies s k) ∧
      ∃ settings, Config parse s.configs m settings ∧ s.dialed = [address settings] ∧ s.base.hsWritten .db = []
  | .startup m => s.base.start = .assigned ∧ Opened s.packets m ∧ (∃ k, k + 1 = s.packets.length ∧ Replies s k) ∧
      ∃ settings, Config parse s.configs m settings ∧ s.dialed = [address settings] ∧ s.base.hsWritten .db = []
  | .idle => s.base.start.inHandshake = false ∧
      ((Refused s ∧ s.dialed = [] ∧ s.configs.length ≤ 1 ∧
          s.base.hsWritten .db = [] ∧ s.base.proc = .notStarted ∧
          (s.base.start = .notCalled → s.packets = [] ∧ s.configs = [] ∧ Replies s 0)) ∨
        ∃ m settings, s.base.start ≠ .notCalled ∧ Opened s.packets m ∧ (∃ k, k + 1 = s.packets.length ∧ Replies s k) ∧
          Config parse s.configs m settings ∧ s.dialed = [address settings] ∧
          s.base.hsWritten .db <+: sendMessage (.startup m) ∧
          (s.base.proc ≠ .notStarted → s.base.hsWritten .db = sendMessage (.startup m)))

/-- The invariant of the handshake. -/
structure HInv (parse : Bytes → Option ConnectionParams) (s : State) : Prop where
  early : SessionModel.Early s.base
  valid : ∀ x ∈ s.packets, Spec.StartupPacket x.1 x.2
  read : ∃ junk, s.base.hsRead = s.packets.flatMap Prod.fst ++ junk ∧
    (junk ≠ [] → s.hs = .idle ∧ s.dialed = [] ∧ s.base.start ≠ .notCalled)
  stage : Stage parse s

theorem hinv_init : HInv parse init := by
  refine ⟨SessionModel.early_init, by simp [init], ⟨[], rfl, by simp⟩, ?_⟩
  show _ ∧ _
  exact ⟨rfl, .inl ⟨⟨0, rfl, .inl ⟨by simp [AllSSL, init], by simp, by simp [init]⟩⟩, rfl, by simp [init], rfl, rfl, fun _ => ⟨rfl, rfl, rfl⟩⟩⟩

/-- What the other goroutines leave alone. -/
theorem base_frame {b b' : SessionModel.State} {a : SessionModel.Action} (ha : isHandshake a = false)
    (he : SessionModel.Early b) (hs : SessionModel.step b a = some b') :
    b'.hsRead = b.hsRead ∧ b'.hsWritten = b.hsWritten ∧ (b'.proc = .notStarted ↔ b.proc = .notStarted) ∧
    (b'.start = b.start ∨ (a = .callStart ∧ b.start = .notCalled ∧ b'.start = .negotiating) ∨
      (b.start.inHandshake = false ∧ b'.start.inHandshake = false ∧ b'.start ≠ .notCalled)) := by
  obtain ⟨h1, h2, h3, h4⟩ := he
  session_cases hs <;> grind [StartPC.inHandshake, isHandshake]

theorem hsFail_frame {b b' : SessionModel.State} (hs : SessionModel.step b .hsFail = some b') :
    b' = { b with start := .deferred true } ∧ b.start = .negotiating := by
  session_case hs; simp_all

theorem early_base {s s' : State} {a : Action} (h : SessionModel.Early s.base) (hs : step parse s a = some s') :
    SessionModel.Early s'.base := by
  obtain ⟨acts, h', _⟩ := step_base hs
  exact run_invariant SessionModel.Early h (fun _ _ _ => SessionModel.early_step) h'

/-- The handshake gives up before it has dialled. -/
theorem hinv_fail {s s' : State} (h : s.fail = some s') (he : SessionModel.Early s'.base) (hv : ∀ x ∈ s.packets, Spec.StartupPacket x.1 x.2)
    (hr : ∃ junk, s.base.hsRead = s.packets.flatMap Prod.fst ++ junk)
    (hp : Refused s) (hd : s.dialed = [])
    (hc : s.configs.length ≤ 1) (hw : s.base.hsWritten .db = []) (hn : s.base.proc = .notStarted) :
    HInv parse s' := by
  unfold State.fail at h
  obtain ⟨b, hb, rfl⟩ := Option.map_eq_some_iff.mp h
  obtain ⟨rfl, _⟩ := hsFail_frame hb
  obtain ⟨junk, hr⟩ := hr
  exact ⟨he, hv, ⟨junk, hr, fun _ => ⟨rfl, hd, by simp⟩⟩, rfl, .inl ⟨hp, hd, hc, hw, hn, by simp⟩⟩

theorem not_started {s : State} (he : SessionModel.Early s.base) (h : s.base.start.inHandshake = true) :
    s.base.proc = .notStarted := he.notSpawned (.inr h)

theorem junk_nil {s : State} {junk : Bytes} {pc : HsPC} {P : Prop} (h : s.hs = pc) (hne : pc ≠ .idle)
    (hr : junk ≠ [] → s.hs = .idle ∧ P) : junk = [] :=
  Decidable.byContradiction fun hj => hne (h ▸ (hr hj).1)

theorem hinv_base {s s' : State} {a : SessionModel.Action} (h : HInv parse s) (hs : step parse s (.base a) = some s') :
    HInv parse s' := by
  have he := early_base h.early hs
  obtain ⟨e, v, ⟨junk, r1, r2⟩, st⟩ := h
  simp only [step] at hs
  split at hs
  · simp at hs
  rename_i ha
  obtain ⟨b, hb, rfl⟩ := Option.map_eq_some_iff.mp hs
  obtain ⟨f1, f2, f3, f4⟩ := base_frame (by simpa using ha) e hb
  by_cases hc : a = .callStart ∧ b.start = .negotiating
  · simp only [hc, and_self, if_true] at he ⊢
    have hst : s.base.start = .notCalled := by
      have := hc.1; subst this
      session_case hb <;> assumption
    have hidle : s.hs = .idle := by
      unfold Stage at st
      split at st <;> simp_all
    unfold Stage at st
    rw [hidle] at st
    simp only [hst, ne_eq, not_true_eq_false, false_and, exists_false, or_false] at st
    obtain ⟨_, _, g1, _, g2, _, g3⟩ := st
    obtain ⟨g3, g4, g5⟩ := g3 trivial
    have hj : junk = [] := Decidable.byContradiction fun hj => (r2 hj).2.2 hst
    refine ⟨he, v, ⟨junk, by simp [f1, r1], fun x => absurd hj x⟩, ?_⟩
    show _ ∧ _
    refine ⟨hc.2, by simp [AllSSL, g3], ?_, g4, g1, by simp [f2, g2]⟩
    simp only [Replies, f2, g3]; exact g5
  · rw [if_neg hc] at he ⊢
    have key : b.start = s.base.start ∨ (s.base.start.inHandshake = false ∧ b.start.inHandshake = false ∧ b.start ≠ .notCalled) := by
      rcases f4 with f4 | ⟨x, y, z⟩ | f4
      · exact .inl f4
      · exact absurd ⟨x, z⟩ hc
      · exact .inr f4
    refine ⟨he, v, ⟨junk, by simp [f1, r1], fun x => ?_⟩, ?_⟩
    · obtain ⟨a1, a2, a3⟩ := r2 x
      refine ⟨a1, a2, ?_⟩
      rcases key with key | key
      · simpa [key] using a3
      · exact key.2.2
    · unfold Stage at st ⊢
      simp only [Refused, Replies, Quiet, f2] at st ⊢
      split at st
      all_goals grind [StartPC.inHandshake]

theorem hinv_step {s s' : State} {a : Action} (h : HInv parse s) (hs : step parse s a = some s') : HInv parse s' := by
  cases a with
  | base a => exact hinv_base h hs
  | recvStartup =>
    have he := early_base h.early hs
    obtain ⟨e, v, ⟨junk, r1, r2⟩, st⟩ := h
    simp only [step] at hs
    split at hs
    case h_2 => simp at hs
    rename_i hhs
    have hj : junk = [] := junk_nil hhs (by simp) r2
    subst hj
    rw [List.append_nil] at r1
    unfold Stage at st
    simp only [hhs] at st
    obtain ⟨t1, t2, t3, t4, t5, t6⟩ := st
    have hns := not_started e (by rw [t1]; rfl)
    have hread : ∀ {n b}, SessionModel.step s.base (.hsRead n) = some b →
        b.hsRead = s.base.hsRead ++ (s.base.conn .client).unread.take n ∧ b.hsWritten = s.base.hsWritten ∧
        b.start = s.base.start ∧ b.proc = s.base.proc := by
      intro n b hb
      session_case hb
      exact ⟨rfl, rfl, rfl, rfl⟩
    split at hs
    · simp at hs
    · rename_i m rest hm
      obtain ⟨b, hb, hs⟩ := Option.bind_eq_some_iff.mp hs
      obtain ⟨b1, b2, b3, b4⟩ := hread hb
      obtain ⟨pkt, hp, hpk⟩ := tryRecvStartup_ok hm
      have htake : (s.base.conn .client).unread.take ((s.base.conn .client).unread.length - rest.length) = pkt := by
        rw [hp]; simp
      rw [htake] at b1 hs
      have hv : ∀ x ∈ s.packets ++ [(pkt, m)], Spec.StartupPacket x.1 x.2 := by
        intro x hx
        rcases List.mem_append.mp hx with hx | hx
        · exact v x hx
        · simp only [List.mem_singleton] at hx; subst hx; exact hpk
      have hr : b.hsRead = (s.packets ++ [(pkt, m)]).flatMap Prod.fst := by rw [b1, r1]; simp
      split at hs
      · rename_i hmagic
        simp only [Option.some.injEq] at hs; subst hs
        refine ⟨he, hv, ⟨[], by simp [hr], by simp⟩, ?_⟩
        show _ ∧ _
        refine ⟨by rw [b3, t1], ?_, ⟨s.packets.length, by simp, by simpa [Replies, b2] using t3⟩, t4, t5, by simp [b2, t6]⟩
        intro x hx
        rcases List.mem_append.mp hx with hx | hx
        · exact t2 x hx
        · simp only [List.mem_singleton] at hx; subst hx; exact (ssl_magic_iff m).mp hmagic
      · split at hs
        · exact hinv_fail hs he hv ⟨[], by simp [hr]⟩ ⟨s.packets.length, by simpa [Replies, b2] using t3,
            .inr ⟨⟨m, s.packets, pkt, rfl, t2⟩, by simp⟩⟩ t5 (by simp [t4]) (by simp [b2, t6]) (by rw [b4]; exact hns)
        · rename_i hv3
          simp only [Option.some.injEq] at hs; subst hs
          refine ⟨he, hv, ⟨[], by simp [hr], by simp⟩, ?_⟩
          show _ ∧ _
          exact ⟨by rw [b3, t1], ⟨s.packets, pkt, rfl, t2⟩, (version3_iff m).mp (by simpa using hv3),
            ⟨s.packets.length, by simp, by simpa [Replies, b2] using t3⟩, t4, t5, by simp [b2, t6]⟩
    · obtain ⟨b, hb, hs⟩ := Option.bind_eq_some_iff.mp hs
      obtain ⟨b1, b2, b3, b4⟩ := hread hb
      exact hinv_fail hs he v ⟨_, by rw [b1, r1]⟩ ⟨_, by simpa [Replies, b2] using t3, .inl ⟨t2, Nat.le_refl _, by simp⟩⟩ t5 (by simp [t4])
        (by simp [b2, t6]) (by rw [b4]; exact hns)
    · rename_i hp; exact absurd hp tryRecvStartup_no_panic
  | reply ok =>
    have he := early_base h.early hs
    obtain ⟨e, v, ⟨junk, r1, r2⟩, st⟩ := h
    simp only [step] at hs
    split at hs
    case h_2 => simp at hs
    rename_i hhs
    unfold Stage at st
    simp only [hhs] at st
    obtain ⟨t1, t2, ⟨k, t3, t3'⟩, t4, t5, t6⟩ := st
    split at hs
    · obtain ⟨b, hb, rfl⟩ := Option.map_eq_some_iff.mp hs
      have hf : b.hsRead = s.base.hsRead ∧ b.hsWritten = upd s.base.hsWritten .client (s.base.hsWritten .client ++ [Spec.no]) ∧
          b.start = s.base.start := by
        session_case hb
        exact ⟨rfl, rfl, rfl⟩
      have hj : junk = [] := junk_nil hhs (by simp) r2
      refine ⟨he, v, ⟨junk, by simp [hf.1, r1], fun x => absurd hj x⟩, ?_⟩
      show _ ∧ _
      refine ⟨by rw [hf.2.2, t1], t2, ?_, t4, t5, ?_⟩
      · simp only [Replies, hf.2.1, upd_same]
        rw [← t3, show s.base.hsWritten .client = List.replicate k Spec.no from t3', List.replicate_succ']
      · simp [hf.2.1, upd_apply, t6]
    · exact hinv_fail hs he v ⟨junk, r1⟩ ⟨k, t3', .inl ⟨t2, by omega, by omega⟩⟩ t5 (by simp [t4]) t6 (not_started e (by rw [t1]; rfl))
  | getConfig answer =>
    have he := early_base h.early hs
    obtain ⟨e, v, ⟨junk, r1, r2⟩, st⟩ := h
    simp only [step] at hs
    split at hs
    case h_2 => simp at hs
    rename_i m hhs
    unfold Stage at st
    simp only [hhs] at st
    obtain ⟨t1, t2, tv, ⟨k, t3, t3'⟩, t4, t5, t6⟩ := st
    have hns := not_started e (by rw [t1]; rfl)
    have hj : junk = [] := junk_nil hhs (by simp) r2
    split at hs
    · rename_i settings hset
      split at hs
      · exact hinv_fail hs he v ⟨junk, r1⟩ ⟨k, t3', .inr ⟨⟨m, t2⟩, t3⟩⟩ t5 (by simp [t4]) t6 hns
      · rename_i hdb
        split at hs
        · simp at hs
        · simp only [Option.some.injEq] at hs; subst hs
          obtain ⟨url, rfl, hurl⟩ := Option.bind_eq_some_iff.mp hset
          refine ⟨he, v, ⟨junk, r1, fun x => absurd hj x⟩, ?_⟩
          show _ ∧ _
          refine ⟨t1, t2, ⟨k, t3, t3'⟩, ⟨url, by simp [t4], hurl, tv, ?_⟩, t5, t6⟩
          rw [← getParameter_eq]; simpa using hdb
    · exact hinv_fail hs he v ⟨junk, r1⟩ ⟨k, t3', .inr ⟨⟨m, t2⟩, t3⟩⟩ t5 (by simp [t4]) t6 hns
  | dial ok =>
    have he := early_base h.early hs
    obtain ⟨e, v, ⟨junk, r1, r2⟩, st⟩ := h
    simp only [step] at hs
    split at hs
    case h_2 => simp at hs
    rename_i m settings hhs
    unfold Stage at st
    simp only [hhs] at st
    obtain ⟨t1, t2, t3, t4, t5, t6⟩ := st
    have hns := not_started e (by rw [t1]; rfl)
    have hj : junk = [] := junk_nil hhs (by simp) r2
    split at hs
    · obtain ⟨b, hb, rfl⟩ := Option.map_eq_some_iff.mp hs
      have hf : b.hsRead = s.base.hsRead ∧ b.hsWritten = s.base.hsWritten ∧ b.start = .dialled := by
        session_case hb
        exact ⟨rfl, rfl, rfl⟩
      refine ⟨he, v, ⟨junk, by simp [hf.1, r1], fun x => absurd hj x⟩, ?_⟩
      show _ ∧ _
      refine ⟨hf.2.2, t2, by simpa [Replies, hf.2.1] using t3, settings, t4, by simp [t5, address], by simp [hf.2.1, t6]⟩
    · unfold State.fail at hs
      obtain ⟨b, hb, rfl⟩ := Option.map_eq_some_iff.mp hs
      obtain ⟨rfl, _⟩ := hsFail_frame hb
      refine ⟨he, v, ⟨junk, r1, fun x => absurd hj x⟩, ?_⟩
      show _ ∧ _
      refine ⟨rfl, .inr ⟨m, settings, by simp, t2, t3, t4, by simp [t5, address], ?_, fun x => absurd hns x⟩⟩
      rw [t6]; exact List.nil_prefix
  | assign =>
    have he := early_base h.early hs
    obtain ⟨e, v, ⟨junk, r1, r2⟩, st⟩ := h
    simp only [step] at hs
    split at hs
    case h_2 => simp at hs
    rename_i m hhs
    unfold Stage at st
    simp only [hhs] at st
    obtain ⟨t1, t2, t3, settings, t4, t5, t6⟩ := st
    have hj : junk = [] := junk_nil hhs (by simp) r2
    obtain ⟨b, hb, rfl⟩ := Option.map_eq_some_iff.mp hs
    have hf : b.hsRead = s.base.hsRead ∧ b.hsWritten = s.base.hsWritten ∧ b.start = .assigned := by
      session_case hb
      exact ⟨rfl, rfl, rfl⟩
    refine ⟨he, v, ⟨junk, by simp [hf.1, r1], fun x => absurd hj x⟩, ?_⟩
    show _ ∧ _
    exact ⟨hf.2.2, t2, by simpa [Replies, hf.2.1] using t3, settings, t4, t5, by simp [hf.2.1, t6]⟩
  | startup failure =>
    have he := early_base h.early hs
    obtain ⟨e, v, ⟨junk, r1, r2⟩, st⟩ := h
    simp only [step] at hs
    split at hs
    case h_2 => simp at hs
    rename_i m hhs
    unfold Stage at st
    simp only [hhs] at st
    obtain ⟨t1, t2, t3, settings, t4, t5, t6⟩ := st
    have hns := not_started e (by rw [t1]; rfl)
    have hj : junk = [] := junk_nil hhs (by simp) r2
    have hst : ∀ {bs ok b}, SessionModel.step s.base (.hsStartup bs ok) = some b →
        b.hsRead = s.base.hsRead ∧ b.hsWritten = upd s.base.hsWritten .db (s.base.hsWritten .db ++ bs) ∧
        b.start = (if ok then .waiting else .deferred true) ∧ (ok = false → b.proc = s.base.proc) := by
      intro bs ok b hb
      session_case hb <;> simp_all
    split at hs <;> obtain ⟨b, hb, rfl⟩ := Option.map_eq_some_iff.mp hs <;> obtain ⟨f1, f2, f3, f4⟩ := hst hb
    · refine ⟨he, v, ⟨junk, by simp [f1, r1], fun x => absurd hj x⟩, ?_⟩
      show _ ∧ _
      refine ⟨by rw [f3]; rfl, .inr ⟨m, settings, by rw [f3]; simp, t2, ?_, t4, t5, ?_, fun _ => ?_⟩⟩
      · simpa [Replies, f2, upd_apply] using t3
      · simp [f2, t6]
      · simp [f2, t6]
    · refine ⟨he, v, ⟨junk, by simp [f1, r1], fun x => absurd hj x⟩, ?_⟩
      show _ ∧ _
      refine ⟨by rw [f3]; rfl, .inr ⟨m, settings, by rw [f3]; simp, t2, ?_, t4, t5, ?_, fun hx => ?_⟩⟩
      · simpa [Replies, f2, upd_apply] using t3
      · simp only [f2, upd_same, t6, List.nil_append]; exact List.take_prefix _ _
      · exact absurd (by rw [f4 rfl]; exact hns) hx

theorem hinv_of_reachable {s : State} (h : Reachable (step parse) init s) : HInv parse s :=
  h.invariant (HInv parse) hinv_init fun _ _ _ => hinv_step

end FullSession
end Gevulot
