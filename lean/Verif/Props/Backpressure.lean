import Verif.Props.Session
import Verif.Props.System

/-!
# C99: a peer that does not read

Writing to a peer that does not read is a step (`outWrite`) that is not taken. `HeldUp s p`: gevulot has nothing to do in this
session but to write to `p`.
-/

namespace Gevulot.SessionModel

/-- Nothing but a write to `p` is possible. -/
def HeldUp (s : State) (p : Peer) : Prop := ∀ a, a.isSession = true → (∀ f, a ≠ .outWrite p f) → step s a = none

/-- Everything `p` has sent has been written to the other peer, up to an incomplete message (as in C34). -/
def Delivered (s : State) (p : Peer) : Prop :=
  ∃ (relayed rest : Bytes) (ms : List Msg), (s.conn p).sent = taken s p ++ relayed ∧ Spec.Stream relayed ms rest ∧
    (s.conn p.other).written = s.hsWritten p.other ++ ms.flatMap sendMessage ∧ Spec.NoMessage rest

/-- C99 as claimed: a peer that does not read gets nothing; but what it sends arrives. -/
def C99_claim : Prop :=
  ∀ (s : State) (p : Peer), Reachable step init s → s.crashed = false → s.fired = false → s.proc ≠ .notStarted →
    (∀ q m e, s.outPump q ≠ .exited (some (m, e))) → HeldUp s p → Delivered s p

/-- Processing waits for a place in the queue to a peer that does not read. -/
structure Blocked (s : State) (p : Peer) : Prop where
  fired : s.fired = false
  start : s.start = .waiting
  writing : ∃ m, s.outPump p = .write m
  full : (s.outCh p).buf.length = chanCap
  open_ : (s.outCh p).closed = false
  proc : ∃ m, s.proc = .send p.other m
  empty : (s.outCh p.other).buf = []
  openOther : (s.outCh p.other).closed = false
  idle : s.outPump p.other = .recv
  closer : s.closer = .none

theorem blocked_step {s s' : State} {a : Action} {p : Peer} (hb : Blocked s p) (ha : ∀ f, a ≠ .outWrite p f) (hclose : a ≠ .callClose)
    (hs : step s a = some s') : (s'.conn p.other).written = (s.conn p.other).written ∧ s'.fired = false ∧ (s'.crashed = true ∨ Blocked s' p) := by
  obtain ⟨b1, b2, ⟨m, b3⟩, b4, b5, ⟨m', b6⟩, b7, b8, b9, b10⟩ := hb
  have hne : p.other ≠ p := by cases p <;> simp [Peer.other]
  have hoo : p.other.other = p := by cases p <;> rfl
  have hall : s.allExited = false := by
    simp [State.allExited, b6]
  cases a with
  | outRecv q =>
    by_cases hq : q = p
    · subst hq; simp [step, b3] at hs
    · have : q = p.other := by cases q <;> cases p <;> simp_all [Peer.other]
      subst this
      simp [step, b9, b7, b8] at hs
  | outWrite q f =>
    by_cases hq : q = p
    · subst hq; exact absurd rfl (ha f)
    · have : q = p.other := by cases q <;> cases p <;> simp_all [Peer.other]
      subst this
      simp [step, b9] at hs
  | procSend => simp [step, b6, hoo, b4, b5] at hs
  | procRecv q => simp [step, b6] at hs
  | callClose => exact absurd rfl hclose
  | closeStep => simp [step, b10] at hs
  | join => simp [step, hall] at hs
  | peerSends q bs =>
    session_case hs
    refine ⟨?_, b1, .inr ⟨b1, b2, ⟨m, b3⟩, b4, b5, ⟨m', b6⟩, b7, b8, b9, b10⟩⟩
    simp only [upd_apply]; split <;> simp_all
  | peerEnds q e =>
    session_case hs
    refine ⟨?_, b1, .inr ⟨b1, b2, ⟨m, b3⟩, b4, b5, ⟨m', b6⟩, b7, b8, b9, b10⟩⟩
    simp only [upd_apply]; split <;> simp_all
  | inRecv q =>
    session_case hs
    all_goals first
      | exact ⟨rfl, b1, .inl rfl⟩
      | refine ⟨?_, b1, .inr ⟨b1, b2, ⟨m, b3⟩, b4, b5, ⟨m', b6⟩, b7, b8, b9, b10⟩⟩
        simp only [upd_apply]; split <;> simp_all
  | inSend q =>
    session_case hs
    all_goals first
      | exact ⟨rfl, b1, .inl rfl⟩
      | exact ⟨rfl, b1, .inr ⟨b1, b2, ⟨m, b3⟩, b4, b5, ⟨m', b6⟩, b7, b8, b9, b10⟩⟩
  | _ => simp [step, b2] at hs

/-- C99, why it is false: while processing waits for a place in the queue to one peer, nothing is written to the other, whatever
either peer sends and however long one waits, until the first one reads or the session is closed. -/
theorem C99_blocked (s s' : State) (p : Peer) (hb : Blocked s p) (acts : List Action) (ha : ∀ a ∈ acts, ∀ f, a ≠ .outWrite p f)
    (hclose : .callClose ∉ acts) (h : run step s acts = some s') :
    (s'.conn p.other).written = (s.conn p.other).written ∧ s'.fired = false := by
  induction acts generalizing s with
  | nil => simp only [run, Option.some.injEq] at h; subst h; exact ⟨rfl, hb.fired⟩
  | cons a acts ih =>
    simp only [run] at h
    cases hs : step s a with
    | none => rw [hs] at h; simp at h
    | some s1 =>
      rw [hs] at h
      obtain ⟨hw, hf, hc | hb1⟩ := blocked_step hb (ha a (by simp)) (fun he => hclose (by simp [he])) hs
      · cases acts with
        | nil => simp only [run, Option.some.injEq] at h; subst h; exact ⟨hw, hf⟩
        | cons b acts => simp [run, step, hc] at h
      · obtain ⟨i1, i2⟩ := ih s1 hb1 (fun x hx => ha x (by simp [hx])) (fun he => hclose (by simp [he])) h
        exact ⟨i1.trans hw, i2⟩

/-- The database sends 66 messages, the client a query; the client does not read. -/
def flooded : List Action :=
  begin ++ [.peerSends .db (List.replicate 66 queryBytes).flatten, .peerSends .client queryBytes, .inRecv .client, .inSend .client,
    .inRecv .db, .inSend .db, .procRecv .db, .procSend, .outRecv .client] ++
  (List.replicate 64 [.inRecv .db, .inSend .db, .procRecv .db, .procSend]).flatten ++ [.inRecv .db, .inSend .db, .procRecv .db]

theorem flooded_some : (run step init flooded).isSome := by decide +kernel

/-- What there is to know about such a session. -/
structure Flooded (s : State) : Prop where
  crashed : s.crashed = false
  fired : s.fired = false
  start : s.start = .waiting
  closer : s.closer = .none
  proc : s.proc = .send .db (.query (ascii "hi"))
  inPump : s.inPump .client = .recv ∧ s.inPump .db = .recv
  outPump : s.outPump .client = .write (.query (ascii "hi")) ∧ s.outPump .db = .recv
  outCh : (s.outCh .client).buf.length = 64 ∧ (s.outCh .client).closed = false ∧ s.outCh .db = ⟨[], false⟩
  unread : tryRecv (s.conn .client) = none ∧ tryRecv (s.conn .db) = none
  written : (s.conn .db).written = s.hsWritten .db
  sent : (s.conn .client).sent = s.hsRead ++ queryBytes

theorem flooded_facts : Flooded (after flooded) := by
  have h : (fun s : State => s.crashed = false ∧ s.fired = false ∧ s.start = .waiting ∧ s.closer = .none ∧ s.proc = .send .db (.query (ascii "hi")) ∧
      (s.inPump .client = .recv ∧ s.inPump .db = .recv) ∧ (s.outPump .client = .write (.query (ascii "hi")) ∧ s.outPump .db = .recv) ∧
      ((s.outCh .client).buf.length = 64 ∧ (s.outCh .client).closed = false ∧ s.outCh .db = ⟨[], false⟩) ∧
      (tryRecv (s.conn .client) = none ∧ tryRecv (s.conn .db) = none) ∧ (s.conn .db).written = s.hsWritten .db ∧
      (s.conn .client).sent = s.hsRead ++ queryBytes) (after flooded) := by decide +kernel
  obtain ⟨h1, h2, h3, h4, h5, h6, h7, h8, h9, h10, h11⟩ := h
  exact ⟨h1, h2, h3, h4, h5, h6, h7, h8, h9, h10, h11⟩

theorem flooded_exists : ∃ s, Reachable step init s ∧ Flooded s := ⟨_, after_reachable _ flooded_some, flooded_facts⟩

theorem flooded_blocked {s : State} (h : Flooded s) : Blocked s .client :=
  ⟨h.fired, h.start, ⟨_, h.outPump.1⟩, h.outCh.1, h.outCh.2.1, ⟨_, h.proc⟩, by simp [Peer.other, h.outCh], by simp [Peer.other, h.outCh], h.outPump.2, h.closer⟩

theorem flooded_heldUp {s : State} (h : Flooded s) : HeldUp s .client := by
  obtain ⟨h1, h2, h3, h4, h5, ⟨h6, h6'⟩, ⟨h7, h7'⟩, ⟨h8, h9, h10⟩, ⟨h11, h12⟩, -, -⟩ := h
  intro a ha hw
  cases a with
  | inRecv p => cases p <;> simp [step, h1, h6, h6', h11, h12]
  | inSend p => cases p <;> simp [step, h1, h6, h6']
  | procRecv p => simp [step, h1, h5]
  | procSend => simp [step, h1, h5, Peer.other, h8, h9, chanCap]
  | outRecv p => cases p <;> simp [step, h1, h7, h7', h10]
  | outWrite p f =>
    cases p
    · exact absurd rfl (hw f)
    · simp [step, h1, h7']
  | closeStep => simp [step, h1, h4]
  | join => simp [step, h1, State.allExited, h5]
  | startFinish => simp [step, h1, h3]
  | _ => simp [Action.isSession] at ha

theorem query_recv : ∃ r, recvMessage ⟨[queryBytes], .eof⟩ = (.ok (.query (ascii "hi")), r) := by
  have h : (recvMessage ⟨[queryBytes], .eof⟩).1 = .ok (.query (ascii "hi")) := by decide +kernel
  exact ⟨_, Prod.ext h rfl⟩

theorem startup_ne_nil (m : StartupMessage) : sendMessage (.startup m) ≠ [] := by
  intro h
  rw [sendMessage_eq_wire] at h
  simp [Spec.wire, Spec.startupFrame, Spec.int32, Spec.be] at h

theorem flooded_undelivered {s : State} (h : Flooded s) : ¬ Delivered s .client := by
  rintro ⟨relayed, rest, ms, g1, g2, g3, g4⟩
  rw [h.sent] at g1
  simp only [taken, if_true] at g1
  have g1 := List.append_cancel_left g1
  simp only [Peer.other] at g3
  rw [h.written] at g3
  have g3 : ms.flatMap sendMessage = [] := by simpa using g3
  cases g2 with
  | nil =>
    obtain ⟨r, hr⟩ := query_recv
    exact g4 _ r (g1 ▸ hr)
  | @cons _ _ m _ _ h tail =>
    simp only [List.flatMap_cons, List.append_eq_nil_iff] at g3
    by_cases hm : ∃ x, m = .startup x
    · obtain ⟨x, rfl⟩ := hm
      exact startup_ne_nil x g3.1
    · exact sendMessage_ne_nil _ (fun x hx => hm ⟨x, hx⟩) g3.1

/-- C99 is false. -/
theorem C99_refuted : ¬ C99_claim := by
  intro hC
  obtain ⟨s, hr, h⟩ := flooded_exists
  refine flooded_undelivered h (hC _ _ hr h.crashed h.fired (by simp [h.proc]) ?_ (flooded_heldUp h))
  intro q m e
  cases q <;> simp [h.outPump]

/-- C99, and the query of this client never arrives: not before the client reads, or the session is closed. -/
theorem C99_refuted_forever : ∃ s, Reachable step init s ∧ s.crashed = false ∧ s.fired = false ∧ HeldUp s .client ∧ ¬ Delivered s .client ∧
    ∀ acts s', (∀ a ∈ acts, ∀ f, a ≠ .outWrite .client f) → .callClose ∉ acts → run step s acts = some s' →
      (s'.conn .db).written = (s.conn .db).written := by
  obtain ⟨s, hr, h⟩ := flooded_exists
  exact ⟨s, hr, h.crashed, h.fired, flooded_heldUp h, flooded_undelivered h,
    fun acts s' h1 h2 h3 => (C99_blocked _ s' .client (flooded_blocked h) acts h1 h2 h3).1⟩

/-- C99, what does hold: what a peer sends arrives although it does not read, as long as at most 65 messages for it were received
that it has not got yet. (In the example above it is 66.) -/
theorem C99_partial (s : State) (p : Peer) (h : Reachable step init s) (hc : s.crashed = false) (hopen : s.fired = false)
    (hrun : s.proc ≠ .notStarted) (hw : ∀ q m e, s.outPump q ≠ .exited (some (m, e))) (hheld : HeldUp s p)
    (hfew : ∀ relayed rest got ms, (s.conn p.other).sent = taken s p.other ++ relayed → Spec.Stream relayed (got ++ ms) rest →
      (s.conn p).written = s.hsWritten p ++ got.flatMap sendMessage → ms.length ≤ 65) : Delivered s p := by
  have inv := inv_of_reachable h
  have hio := isOpen_of_not_fired inv hopen hrun
  have hnp := fun p => inv.early.pumps' p hrun
  have hoo : p.other.other = p := by cases p <;> rfl
  have hne : p.other ≠ p := by cases p <;> simp [Peer.other]
  -- the messages on their way to `p`
  have hfew : (transit s p.other).length ≤ 65 := by
    obtain ⟨dn, relayed, rest, torn, g1, g2, g3, g4, g5, g6⟩ := inv.relay p.other
    have ht : torn = [] := by
      rcases g5 with g5 | ⟨m, e, k, g5, _⟩
      · exact g5
      · exact absurd g5 (hw _ _ _)
    rw [ht, List.append_nil, hoo] at g4
    exact hfew relayed rest dn _ g1 g2 g4
  have hout : s.outPump p.other = .recv ∧ (s.outCh p.other).buf = [] := by
    have h1 := hheld (.outRecv p.other) rfl (by simp)
    have h2 := hheld (.outWrite p.other none) rfl (by simp [hne])
    have h5 := hio p.other
    simp only [step, hc] at h1 h2
    cases hp : s.outPump p.other with
    | notStarted => exact absurd hp (hnp p.other).2
    | exited x =>
      cases x with
      | none => exact absurd (inv.exit.outPump _ hp) (by simp [hopen])
      | some x => exact absurd hp (hw _ x.1 x.2)
    | write m => rw [hp] at h2; simp [h5] at h2
    | recv =>
      cases hb : (s.outCh p.other).buf with
      | nil => simp
      | cons m ms => rw [hp, hb] at h1; simp at h1
  have hhand : (s.outPump p).hand.length = 1 ∨ (s.outCh p).buf = [] := by
    have h1 := hheld (.outRecv p) rfl (by simp)
    simp only [step, hc] at h1
    cases hp : s.outPump p with
    | notStarted => exact absurd hp (hnp p).2
    | exited x =>
      cases x with
      | none => exact absurd (inv.exit.outPump _ hp) (by simp [hopen])
      | some x => exact absurd hp (hw _ x.1 x.2)
    | write m => exact .inl rfl
    | recv =>
      cases hb : (s.outCh p).buf with
      | nil => exact .inr rfl
      | cons m ms => rw [hp, hb] at h1; simp at h1
  have hproc : s.proc = .select := by
    have h1 := hheld .procSend rfl (by simp)
    simp only [step, hc] at h1
    cases hp : s.proc with
    | notStarted => exact absurd hp hrun
    | select => rfl
    | exited => exact absurd (inv.exit.proc hp) (by simp [hopen])
    | send src m =>
      exfalso
      have h2 := hio src.other
      rw [hp] at h1
      by_cases hs : src = p
      · subst hs
        simp_all [chanCap]
      · have : src = p.other := by cases src <;> cases p <;> simp_all [Peer.other]
        subst this
        simp only [hoo] at h1 h2
        have hfull : ¬ (s.outCh p).buf.length < 64 := by
          intro hl
          simp [h2, chanCap, hl] at h1
        simp only [transit, hoo, hp, Proc.hand, if_true, List.length_append, List.length_cons, List.length_nil] at hfew
        rcases hhand with hh | hh
        · omega
        · simp [hh] at hfull
  have hin : (s.inCh p).buf = [] := by
    have h1 := hheld (.procRecv p) rfl (by simp)
    simp only [step, hc, hproc] at h1
    cases hb : (s.inCh p).buf with
    | nil => rfl
    | cons m ms => rw [hb] at h1; simp at h1
  have hpump : (s.inPump p).hand = [] ∧ (s.inPump p = .recv ∨ ∃ e, s.inPump p = .exited e) := by
    have h1 := hheld (.inSend p) rfl (by simp)
    simp only [step, hc] at h1
    cases hp : s.inPump p with
    | notStarted => exact absurd hp (hnp p).1
    | recv => simp [InPump.hand]
    | exited e => simp [InPump.hand]
    | send m =>
      have := hio p
      rw [hp] at h1
      simp_all [chanCap]
  have htr : transit s p = [] := by simp [transit, hpump, hin, hproc, hout, OutPump.hand, Proc.hand]
  obtain ⟨dn, relayed, rest, torn, g1, g2, g3, g4, g5, g6⟩ := inv.relay p
  rw [htr, List.append_nil] at g2
  have ht : torn = [] := by
    rcases g5 with g5 | ⟨m, e, k, g5, _⟩
    · exact g5
    · exact absurd g5 (hw _ _ _)
  rw [ht, List.append_nil] at g4
  refine ⟨relayed, rest, dn, g1, g2, g4, ?_⟩
  cases ha : (s.inPump p).alive with
  | false =>
    rcases g6 ha hopen with g | g
    · exact g.2
    · simpa using g []
  | true =>
    rw [g3 ha]
    refine tryRecv_none ?_
    rcases hpump.2 with hp | ⟨e, hp⟩
    · have h1 := hheld (.inRecv p) rfl (by simp)
      simp only [step, hc, hp] at h1
      cases ht : tryRecv (s.conn p) with
      | none => rfl
      | some x =>
        obtain ⟨o, u⟩ := x
        rw [ht] at h1
        cases o <;> simp at h1
    · simp [InPump.alive, hp] at ha

/-! ### Examples -/

/-- A client that has sent a query and does not read the answer. -/
def unreadAnswer : List Action :=
  begin ++ [.peerSends .client queryBytes, .inRecv .client, .inSend .client, .procRecv .client, .procSend, .outRecv .db, .outWrite .db none,
    .peerSends .db queryBytes, .inRecv .db, .inSend .db, .procRecv .db, .procSend, .outRecv .client]

theorem stream_length {b rest : Bytes} {ms : List Msg} (h : Spec.Stream b ms rest) : ms.length ≤ b.length := by
  induction h with
  | nil => simp
  | cons h _ ih =>
    have := recv_consumes h
    simp only [List.length_cons]
    omega

/-- C99_partial -/
example : let s := after unreadAnswer
    Reachable step init s ∧ s.crashed = false ∧ s.fired = false ∧ s.proc ≠ .notStarted ∧ (∀ q m e, s.outPump q ≠ .exited (some (m, e))) ∧
    HeldUp s .client ∧ (∃ m, s.outPump .client = .write m) ∧
    ∀ relayed rest got ms, (s.conn .db).sent = taken s .db ++ relayed → Spec.Stream relayed (got ++ ms) rest →
      (s.conn .client).written = s.hsWritten .client ++ got.flatMap sendMessage → ms.length ≤ 65 := by
  refine ⟨after_reachable _ (by decide), by decide, by decide, by decide, ?_, ?_, ⟨.query (ascii "hi"), by decide⟩, ?_⟩
  · intro q m e
    have h1 : (after unreadAnswer).outPump .client = .write (.query (ascii "hi")) := by decide
    have h2 : (after unreadAnswer).outPump .db = .recv := by decide
    cases q <;> simp [h1, h2]
  · have h1 : (after unreadAnswer).crashed = false := by decide
    have h3 : (after unreadAnswer).start = .waiting := by decide
    have h4 : (after unreadAnswer).closer = .none := by decide
    have h5 : (after unreadAnswer).proc = .select := by decide
    have h6 : ∀ p, (after unreadAnswer).inPump p = .recv := by intro p; cases p <;> decide
    have h7 : (after unreadAnswer).outPump .client = .write (.query (ascii "hi")) := by decide
    have h8 : (after unreadAnswer).outPump .db = .recv := by decide
    have h9 : ∀ p, tryRecv ((after unreadAnswer).conn p) = none := by intro p; cases p <;> decide
    have h10 : ∀ p, (after unreadAnswer).inCh p = ⟨[], false⟩ ∧ (after unreadAnswer).outCh p = ⟨[], false⟩ := by intro p; cases p <;> decide
    generalize after unreadAnswer = s at *
    intro a ha hw
    cases a with
    | inRecv p => simp [step, h1, h6, h9]
    | inSend p => simp [step, h1, h6]
    | procRecv p => simp [step, h1, h5, h10]
    | procSend => simp [step, h1, h5]
    | outRecv p => cases p <;> simp [step, h1, h7, h8, h10]
    | outWrite p f =>
      cases p
      · exact absurd rfl (hw f)
      · simp [step, h1, h8]
    | closeStep => simp [step, h1, h4]
    | join => simp [step, h1, State.allExited, h5]
    | startFinish => simp [step, h1, h3]
    | _ => simp [Action.isSession] at ha
  · intro relayed rest got ms h1 h2 _
    have h3 : ((after unreadAnswer).conn .db).sent.length = 8 := by decide
    have := stream_length h2
    rw [h1] at h3
    simp only [List.length_append] at h3 this
    omega

/-- C99_blocked: the session of C99_refuted. -/
example : ∃ s, Reachable step init s ∧ Blocked s .client :=
  have ⟨s, hr, h⟩ := flooded_exists
  ⟨s, hr, flooded_blocked h⟩

end Gevulot.SessionModel

namespace Gevulot.System

open SessionModel (Peer)

/-- C99, for the others: whatever the peers of other sessions do or do not do, a session that can make no step has delivered
everything. -/
theorem C99_others {parse : Bytes → Option ConnectionParams} {c : Option ServerModel.Addr} (s : State) (h : Reachable (step parse) (init c) s)
    (hc : s.crashed = false) (u : ServerModel.Tid) (hopen : (s.sess u).base.fired = false) (hrun : (s.sess u).base.proc ≠ .notStarted)
    (hw : ∀ q m e, (s.sess u).base.outPump q ≠ .exited (some (m, e)))
    (hrest : ∀ a, a.isSession = true → step parse s (.session u (.base a)) = none) (p : Peer) : SessionModel.Delivered (s.sess u).base p := by
  have hr := FullSession.base_reachable (session_reachable h u)
  have hsc := ((link_of_reachable h).crashed hc).2.2 u
  have hz : ∀ a, a.isSession = true → SessionModel.step (s.sess u).base a = none := by
    intro a ha
    have := hrest a ha
    have hh : FullSession.isHandshake a = false := by cases a <;> simp [SessionModel.Action.isSession, FullSession.isHandshake] at ha ⊢
    have hm : s.sessionMay u (.base a) = true := by
      cases a <;> simp [SessionModel.Action.isSession] at ha <;> simp [State.sessionMay]
    simpa [step, hc, hm, FullSession.step, hh] using this
  obtain ⟨relayed, rest, ms, g1, g2, g3, g4, -⟩ := SessionModel.C34 _ hr hsc hopen hrun hw
    ⟨fun p => ⟨hz _ rfl, hz _ rfl, hz _ rfl, hz _ rfl, hz _ rfl⟩, hz _ rfl⟩ p
  exact ⟨relayed, rest, ms, g1, g2, g3, g4⟩

/-- C99_others: a session of which there are two. -/
example : let s := after two
    Reachable (step FullSession.exampleParse) (init none) s ∧ s.crashed = false ∧ (s.sess (.user 1)).base.fired = false ∧
    (s.sess (.user 1)).base.proc ≠ .notStarted ∧ (∀ q m e, (s.sess (.user 1)).base.outPump q ≠ .exited (some (m, e))) ∧
    ∀ a, a.isSession = true → step FullSession.exampleParse s (.session (.user 1) (.base a)) = none := by
  have h1 : ((after two).sess (.user 1)).base.crashed = false := by decide +kernel
  have h2 : ((after two).sess (.user 1)).base.fired = false := by decide +kernel
  have h3 : ((after two).sess (.user 1)).base.start = .waiting := by decide +kernel
  have h4 : ((after two).sess (.user 1)).base.closer = .none := by decide +kernel
  have h5 : ((after two).sess (.user 1)).base.proc = .select := by decide +kernel
  have h6 : ∀ p, ((after two).sess (.user 1)).base.inPump p = .recv := by intro p; cases p <;> decide +kernel
  have h7 : ∀ p, ((after two).sess (.user 1)).base.outPump p = .recv := by intro p; cases p <;> decide +kernel
  have h9 : ∀ p, SessionModel.tryRecv (((after two).sess (.user 1)).base.conn p) = none := by intro p; cases p <;> decide +kernel
  have h10 : ∀ p, ((after two).sess (.user 1)).base.inCh p = ⟨[], false⟩ ∧ ((after two).sess (.user 1)).base.outCh p = ⟨[], false⟩ := by
    intro p; cases p <;> decide +kernel
  refine ⟨after_reachable two (by decide +kernel), by decide +kernel, h2, by simp [h5], by simp [h7], ?_⟩
  generalize after two = s at *
  intro a ha
  have hz : SessionModel.step (s.sess (.user 1)).base a = none := by
    cases a with
    | inRecv p => simp [SessionModel.step, h1, h6, h9]
    | inSend p => simp [SessionModel.step, h1, h6]
    | procRecv p => simp [SessionModel.step, h1, h5, h10]
    | procSend => simp [SessionModel.step, h1, h5]
    | outRecv p => simp [SessionModel.step, h1, h7, h10]
    | outWrite p f => simp [SessionModel.step, h1, h7]
    | closeStep => simp [SessionModel.step, h1, h4]
    | join => simp [SessionModel.step, h1, SessionModel.State.allExited, h5]
    | startFinish => simp [SessionModel.step, h1, h3]
    | _ => simp [SessionModel.Action.isSession] at ha
  simp [step, FullSession.step, hz]

end Gevulot.System
