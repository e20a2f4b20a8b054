import Verif.Proofs.SessionRest

/-!
# C33–C40: relaying, buffering, ending and closing of a session

`s` ranges over every state reachable by any interleaving of the two peers, `Start` with its handshake, the five session
goroutines and any number of calls of `Close`. What each peer observes: `(s.conn p).sent` is everything the peer has sent,
`(s.conn p).written` everything it was sent, `isOpen` whether gevulot still holds the connection open. `taken s p` is the
part of `sent` that the handshake consumed (the client's startup packets), `s.hsWritten p` what the handshake wrote.
-/

namespace Gevulot.SessionModel

/-! ## C33 Relaying is in order, without loss, duplication or cross-talk -/

/-- C33: behind what the handshake did, the bytes written to a peer are a prefix of the encodings of the messages that the
*other* peer sent, in order. -/
theorem C33 (s : State) (h : Reachable step init s) (p : Peer) :
    ∃ (relayed rest w : Bytes) (ms : List Msg),
      (s.conn p).sent = taken s p ++ relayed ∧ Spec.Stream relayed ms rest ∧
      (s.conn p.other).written = s.hsWritten p.other ++ w ∧ w <+: ms.flatMap sendMessage := by
  obtain ⟨dn, relayed, rest, torn, h1, h2, _, h4, h5⟩ := (inv_of_reachable h).relay p
  refine ⟨relayed, rest, dn.flatMap sendMessage ++ torn, dn ++ transit s p, h1, h2, by rw [h4, List.append_assoc], ?_⟩
  rw [List.flatMap_append]
  rw [List.prefix_append_right_inj]
  rcases h5 with rfl | ⟨m, e, k, h5, rfl⟩
  · exact List.nil_prefix
  · unfold transit
    rw [h5]
    simp only [OutPump.hand, List.append_assoc, List.flatMap_append, List.flatMap_cons, List.flatMap_nil, List.append_nil]
    exact (List.take_prefix _ _).trans (List.prefix_append _ _)

/-! ## C34 Everything received is eventually forwarded -/

/-- C34: when an open session whose peers keep reading (no write failed) comes to rest, every message that can be received from
a peer has been written to the other: the bytes written are exactly the encodings of the messages `ms` at the beginning of
what the peer sent, and what is left of it (`rest`) does not begin with a message. As long as `RecvMessage` has not failed,
what is left is an incomplete message, which is still to be received. -/
theorem C34 (s : State) (h : Reachable step init s) (hc : s.crashed = false) (hopen : s.fired = false)
    (hrun : s.proc ≠ .notStarted) (hw : ∀ p m e, s.outPump p ≠ .exited (some (m, e))) (hrest : AtRest s) (p : Peer) :
    ∃ (relayed rest : Bytes) (ms : List Msg),
      (s.conn p).sent = taken s p ++ relayed ∧ Spec.Stream relayed ms rest ∧
      (s.conn p.other).written = s.hsWritten p.other ++ ms.flatMap sendMessage ∧ Spec.NoMessage rest ∧
      ((∀ e, s.inPump p ≠ .exited e) → rest = (s.conn p).unread ∧ tryRecv (s.conn p) = none) := by
  have inv := inv_of_reachable h
  obtain ⟨h1, h2⟩ := atRest_empty inv hc hopen hrun hw hrest p
  obtain ⟨dn, relayed, rest, torn, g1, g2, g3, g4, g5, g6⟩ := inv.relay p
  rw [h1, List.append_nil] at g2
  have ht : torn = [] := by
    rcases g5 with g5 | ⟨m, e, k, g5, _⟩
    · exact g5
    · exact absurd g5 (hw _ _ _)
  rw [ht, List.append_nil] at g4
  refine ⟨relayed, rest, dn, g1, g2, g4, ?_, fun ha => ⟨g3 ?_, h2 ha⟩⟩
  · cases ha : (s.inPump p).alive with
    | false =>
      rcases g6 ha hopen with g | g
      · exact g.2
      · simpa using g []
    | true =>
      rw [g3 ha]
      exact tryRecv_none (h2 fun e he => by simp [InPump.alive, he] at ha)
  · unfold InPump.alive
    split
    · exact absurd ‹_› (ha _)
    · rfl

/-- C34, and it does come to rest: from any state, the session's goroutines can make only a bounded number of steps before
one of the peers does something again. -/
theorem C34_finite (s : State) : ∃ n, ∀ acts s', (∀ a ∈ acts, a.isSession = true) → run step s acts = some s' →
    acts.length ≤ n := by
  refine ⟨weight s, fun acts s' ha h => ?_⟩
  have := run_measure (fun a => a.isSession = true) weight (fun _ => True) trivial (fun _ _ _ _ _ _ => trivial)
    (fun _ _ _ ha _ hs => weight_step ha hs) ha h
  omega

/-! ## C35 Buffering per session is bounded -/

/-- C35: each of the four queues holds at most 64 messages. (A goroutine holds at most one more, by its type.) -/
theorem C35 (s : State) (h : Reachable step init s) (p : Peer) :
    (s.inCh p).buf.length ≤ 64 ∧ (s.outCh p).buf.length ≤ 64 := (inv_of_reachable h).bounded p

/-- C35, so at most 131 messages per direction are somewhere inside gevulot. -/
theorem C35_total (s : State) (h : Reachable step init s) (p : Peer) : (transit s p).length ≤ 131 := by
  have h1 := (C35 s h p).1
  have h2 := (C35 s h p.other).2
  have a : (s.outPump p.other).hand.length ≤ 1 := by unfold OutPump.hand; split <;> simp
  have b : (s.proc.hand p).length ≤ 1 := by unfold Proc.hand; split <;> (try split) <;> simp
  have c : (s.inPump p).hand.length ≤ 1 := by unfold InPump.hand; split <;> simp
  simp only [transit, List.length_append]
  omega

/-! ## C36 The relay does not deadlock while open -/

/-- C36: in an open session in which no write failed, if there is a message inside gevulot, or one to be received from a
peer whose stream has not failed, then some goroutine can make a step. -/
theorem C36 (s : State) (h : Reachable step init s) (hc : s.crashed = false) (hopen : s.fired = false)
    (hrun : s.proc ≠ .notStarted) (hw : ∀ p m e, s.outPump p ≠ .exited (some (m, e))) (p : Peer)
    (hm : transit s p ≠ [] ∨ ((∀ e, s.inPump p ≠ .exited e) ∧ tryRecv (s.conn p) ≠ none)) : ¬ AtRest s := by
  intro hrest
  obtain ⟨h1, h2⟩ := atRest_empty (inv_of_reachable h) hc hopen hrun hw hrest p
  rcases hm with hm | ⟨ha, hm⟩
  · exact hm h1
  · exact hm (h2 ha)

/-! ## C37 A session ends when a peer hangs up -/

/-- A client's startup packet (no parameters) as it might go through the handshake. -/
def startupBytes : Bytes := [0, 0, 0, 9, 0, 3, 0, 0, 0]

/-- A `Query` message with the text "hi". -/
def queryBytes : Bytes := 0x51 :: ([0, 0, 0, 7] ++ ascii "hi" ++ [0])

/-- A session that has got through its handshake. -/
def begin : List Action :=
  [.peerSends .client startupBytes, .callStart, .hsRead 9, .hsDial, .hsAssign, .hsStartup startupBytes true]

/-- The state after some steps. -/
def after (acts : List Action) : State := (run step init acts).getD init

theorem after_reachable (acts : List Action) (h : (run step init acts).isSome) : Reachable step init (after acts) := by
  obtain ⟨s, hs⟩ := Option.isSome_iff_exists.mp h
  exact ⟨acts, by rw [after, hs]; rfl⟩

theorem after_append (as bs : List Action) (h1 : (run step init as).isSome) (h2 : (run step init (as ++ bs)).isSome) :
    run step (after as) bs = some (after (as ++ bs)) := by
  obtain ⟨s, hs⟩ := Option.isSome_iff_exists.mp h1
  obtain ⟨s', hs'⟩ := Option.isSome_iff_exists.mp h2
  simp only [after, hs']
  rw [run_append, hs] at hs'
  rw [hs]
  exact hs'

/-- C37 in general: once the goroutines run, and as long as nobody calls `Close`, `Start` does not return and both
connections stay open, whatever the peers do. -/
theorem C37_only_close (s : State) (h : Reachable step init s) (hrun : s.proc ≠ .notStarted) (hopen : s.fired = false)
    (acts : List Action) (s' : State) (hacts : .callClose ∉ acts) (hr : run step s acts = some s') :
    s'.start = .waiting ∧ ∀ p, (s'.conn p).isOpen = true := by
  have inv : Inv s' ∧ s'.proc ≠ .notStarted ∧ s'.fired = false := by
    refine run_invariant_of (fun a => a ≠ .callClose) (fun s => Inv s ∧ s.proc ≠ .notStarted ∧ s.fired = false)
      ⟨inv_of_reachable h, hrun, hopen⟩ ?_ (fun a ha => by rintro rfl; exact hacts ha) hr
    intro s a s' ha hi hs
    exact ⟨inv_step hi.1 hs, running_step ha hi.1 hi.2 hs⟩
  exact ⟨inv.1.exit.waiting inv.2.1 inv.2.2, fun p => (isOpen_of_not_fired inv.1 inv.2.2 inv.2.1 p).1⟩

/-- C37 is false: both peers have hung up, both in pumps have noticed, and yet `Start` never returns and neither connection
gets closed unless somebody calls `Close`. -/
theorem C37_refuted : ∃ s, Reachable step init s ∧ s.crashed = false ∧ (∀ p, (s.conn p).ended ≠ none) ∧
    (∀ p, ∃ e, s.inPump p = .exited e) ∧
    ∀ acts s', .callClose ∉ acts → run step s acts = some s' → s'.start = .waiting ∧ ∀ p, (s'.conn p).isOpen = true := by
  refine ⟨after (begin ++ [.peerEnds .client .eof, .inRecv .client, .peerEnds .db .eof, .inRecv .db]),
    after_reachable _ (by decide), by decide, fun p => by cases p <;> decide, fun p => ⟨.eof, by cases p <;> decide⟩, ?_⟩
  intro acts s' hacts hr
  exact C37_only_close _ (after_reachable _ (by decide)) (by decide) (by decide) acts s' hacts hr

/-- C37, what does hold: after `Close` was called (not in the middle of the handshake), once the session's goroutines come to
rest — which by `C34_finite` they do after finitely many steps — `Start` has returned (or was never called) and both
connections are closed, unless the process crashed (C38). -/
theorem C37_partial (s : State) (h : Reachable step init s) (hf : s.fired = true) (hh : s.firedInHandshake = false)
    (hc : s.crashed = false) (hrest : ∀ a, a.isSession = true → step s a = none) :
    (s.start = .notCalled ∨ s.start = .returned) ∧ ∀ p, (s.conn p).isOpen = false := by
  have inv := inv_of_reachable h
  exact ⟨rest_after_close inv hf hh hc hrest,
    fun p => (closed_of_done inv hh (rank_of_fired inv hf hc (hrest .closeStep rfl)) p).1⟩

/-! ## C38 Closing a session never crashes the process -/

/-- C38 is false: the client has sent a query, the pump has received it, `Close` is called and closes the queue, and then the
pump sends on the closed queue: the whole process (with all its sessions) is gone. -/
theorem C38_refuted : ∃ s s', Reachable step init s ∧ s.fired = false ∧ s.crashed = false ∧
    run step s [.callClose, .closeStep, .closeStep, .closeStep, .inSend .client] = some s' ∧ s'.crashed = true := by
  refine ⟨after (begin ++ [.peerSends .client queryBytes, .inRecv .client]),
    after (begin ++ [.peerSends .client queryBytes, .inRecv .client] ++
      [.callClose, .closeStep, .closeStep, .closeStep, .inSend .client]), after_reachable _ (by decide), by decide, by decide, ?_,
    by decide⟩
  exact after_append _ _ (by decide) (by decide)

/-- C38, every way a session can crash the process: receiving a malformed message (C19), or a goroutine that has a message in
hand when `Close` closes the channel it is about to send it to. -/
theorem C38_cause (s : State) (h : Reachable step init s) (a : Action) (s' : State) (hs : step s a = some s')
    (hc : s'.crashed = true) :
    (∃ p x r, a = .inRecv p ∧ tryRecv (s.conn p) = some (.panic x, r)) ∨
    (s.fired = true ∧ ((∃ p m, s.inPump p = .send m ∧ (s.inCh p).closed = true) ∨
      ∃ src m, s.proc = .send src m ∧ (s.outCh src.other).closed = true)) := by
  have inv := inv_of_reachable h
  have hcl : ∀ p, (s.inCh p).closed = true ∨ (s.outCh p).closed = true → s.fired = true := by
    intro p hp
    rw [inv.close.fired]
    cases p
    · rw [inv.close.clientIn, inv.close.clientOut] at hp; simp at hp; omega
    · rw [inv.close.dbIn, inv.close.dbOut] at hp; simp at hp; omega
  rcases crash_cause inv hs hc with ⟨p, x, r, h1, _, h2⟩ | ⟨p, m, _, h1, h2⟩ | ⟨src, m, _, h1, h2⟩
  · exact .inl ⟨p, x, r, h1, h2⟩
  · exact .inr ⟨hcl p (.inl h2), .inl ⟨p, m, h1, h2⟩⟩
  · exact .inr ⟨hcl _ (.inr h2), .inr ⟨src, m, h1, h2⟩⟩

/-- C38, `Close` itself never panics (it never closes a channel twice). -/
theorem C38_close (s : State) (h : Reachable step init s) (a : Action) (ha : a = .callClose ∨ a = .closeStep) (s' : State)
    (hs : step s a = some s') : s'.crashed = false := by
  cases hc : s'.crashed with
  | false => rfl
  | true =>
    rcases crash_cause (inv_of_reachable h) hs hc with ⟨p, x, r, h1, _⟩ | ⟨p, m, h1, _⟩ | ⟨src, m, h1, _⟩ <;>
      rcases ha with rfl | rfl <;> simp at h1

/-- C38, what does hold: if `Close` is called when no message is in flight inside the session and no complete message is
waiting to be received, and the peers send nothing more, then nothing crashes. -/
theorem C38_partial (s : State) (h : Reachable step init s) (hc : s.crashed = false) (hrun : s.proc ≠ .notStarted)
    (hempty : ∀ p, transit s p = []) (hframe : ∀ p e f r, readStandardFrame ⟨[(s.conn p).unread], e⟩ ≠ (.ok f, r))
    (acts : List Action) (hacts : ∀ p bs, .peerSends p bs ∉ acts) (s' : State) (hr : run step s acts = some s') :
    s'.crashed = false := by
  have inv := inv_of_reachable h
  have hq : Quiet s := by
    have h0 := fun p => hempty p
    simp only [transit, List.append_eq_nil_iff] at h0
    refine ⟨hc, hrun, ⟨?_, ?_⟩, fun p m hp => ?_, fun p m hp => ?_, fun p => (h0 p).1.2, fun p _ => hframe p⟩
    · cases hx : s.start.inHandshake with
      | false => rfl
      | true => exact absurd (inv.early.notSpawned (.inr hx)) hrun
    · exact fun hx => absurd (inv.early.notSpawned (.inl hx)) hrun
    · have := (h0 p).2; rw [hp] at this; simp [InPump.hand] at this
    · have := (h0 p).1.1.2; rw [hp] at this; simp [Proc.hand] at this
  have : Inv s' ∧ Quiet s' := by
    refine run_invariant_of (fun a => ∀ p bs, a ≠ .peerSends p bs) (fun s => Inv s ∧ Quiet s) ⟨inv, hq⟩ ?_ ?_ hr
    · intro s a s' ha hi hs
      exact ⟨inv_step hi.1 hs, quiet_step hi.1 ha hi.2 hs⟩
    · rintro a ha p bs rfl
      exact hacts p bs ha
  exact this.2.crashed

/-! ## C39 Closing a session is idempotent and closes both connections -/

/-- C39: each connection is closed at most once. -/
theorem C39_once (s : State) (h : Reachable step init s) (p : Peer) : (s.conn p).closes ≤ 1 := by
  have inv := (inv_of_reachable h).close
  cases p with
  | client => rw [inv.client.2.1]; split <;> omega
  | db =>
    have := inv.dbClosed
    omega

/-- C39: a further call of `Close` changes nothing. -/
theorem C39_again (s : State) (hf : s.fired = true) (s' : State) (hs : step s .callClose = some s') : s' = s := by
  unfold step at hs
  split at hs <;> simp_all

/-- C39: when the call that does the closing has returned, the client connection is closed. -/
theorem C39_client (s : State) (h : Reachable step init s) (hd : s.closer = .done) : (s.conn .client).isOpen = false := by
  rw [(inv_of_reachable h).close.client.2.2, hd]; rfl

/-- C39: if the database connection was established before the first call of `Close`, it is closed when that call has
returned. -/
theorem C39_db (s : State) (h : Reachable step init s) (he : (s.conn .db).assigned = true) (hf : s.fired = false)
    (acts : List Action) (s' : State) (hr : run step s acts = some s') (hd : s'.closer = .done) :
    (s'.conn .db).isOpen = false := by
  have inv := inv_of_reachable h
  have h0 : ¬ 0 < s.closer.rank := by rw [← inv.close.fired, hf]; simp
  have : Inv s' ∧ Known s' := by
    refine run_invariant (fun s => Inv s ∧ Known s) ⟨inv, he, fun h => by omega⟩ ?_ hr
    intro s a s' hi hs
    exact ⟨inv_step hi.1 hs, known_step hi.1 hi.2 hs⟩
  exact this.2.2 (by rw [hd]; decide)

/-- C39: the call that does the closing never has to wait. -/
theorem C39_progress (s : State) (h : Reachable step init s) (hc : s.crashed = false) (hf : s.fired = true) :
    s.closer = .done ∨ ∃ s', step s .closeStep = some s' := by
  cases hs : step s .closeStep with
  | none => exact .inl (rank_of_fired (inv_of_reachable h) hf hc hs)
  | some s' => exact .inr ⟨s', rfl⟩

/-! ## C40 No database connection outlives the session -/

/-- C40, what does hold: if `Close` was not called in the middle of the handshake, then once `Close` has returned, no
connection of the session is open. -/
theorem C40_partial (s : State) (h : Reachable step init s) (hd : s.closer = .done) (hh : s.firedInHandshake = false) (p : Peer) :
    (s.conn p).isOpen = false := (closed_of_done (inv_of_reachable h) hh hd p).1

/-- C40 is false: `Close` is called while the session is dialling the database; it finds no database connection to close;
the session then carries on, and when `Start` has returned the database connection is open, and stays open for ever. -/
theorem C40_refuted : ∃ s, Reachable step init s ∧ s.crashed = false ∧ s.start = .returned ∧ s.closer = .done ∧
    ∀ acts s', run step s acts = some s' → (s'.conn .db).isOpen = true := by
  have hr : Reachable step init (after ([.peerSends .client startupBytes, .callStart, .hsRead 9, .hsDial, .callClose] ++
      List.replicate 6 .closeStep ++ [.hsAssign, .hsStartup [] false, .startFinish])) := after_reachable _ (by decide)
  refine ⟨_, hr, by decide, by decide, by decide, fun acts s' h => ?_⟩
  have : Inv s' ∧ Leaked s' := by
    refine run_invariant (fun s => Inv s ∧ Leaked s) ⟨inv_of_reachable hr, ?_⟩ ?_ h
    · refine ⟨by decide, by decide, by decide, by decide, ?_⟩
      have : ∀ s : State, s.start = .returned → ∀ b, s.start = .deferred b → s.fired = true := by
        intro s h b hb; rw [h] at hb; simp at hb
      exact this _ (by decide)
    · intro s a s' hi hs
      exact ⟨inv_step hi.1 hs, leaked_step hi.1 hi.2 hs⟩
  exact this.2.1

/-- C40 in the other case, where the write of the startup message succeeds: `Start` does not even return, as the pump of the
database connection goes on reading it. -/
theorem C40_refuted_running : ∃ s, Reachable step init s ∧ s.crashed = false ∧ s.closer = .done ∧ s.start = .waiting ∧
    (s.conn .db).isOpen = true ∧ ∀ a, a.isSession = true → step s a = none := by
  refine ⟨after ([.peerSends .client startupBytes, .callStart, .hsRead 9, .hsDial, .callClose] ++
    List.replicate 6 .closeStep ++ [.hsAssign, .hsStartup startupBytes true, .inRecv .client, .procRecv .client,
    .outRecv .client, .outRecv .db]), after_reachable _ (by decide), by decide, by decide, by decide, by decide, ?_⟩
  generalize hs : after _ = s
  have h1 : s.inPump .client = .exited (.io 0) ∧ s.inPump .db = .recv ∧ tryRecv (s.conn .db) = none ∧
      s.outPump .client = .exited none ∧ s.outPump .db = .exited none ∧ s.proc = .exited ∧ s.start = .waiting ∧
      s.closer = .done ∧ s.crashed = false ∧ s.allExited = false := by
    subst hs
    exact ⟨by decide, by decide, by decide, by decide, by decide, by decide, by decide, by decide, by decide, by decide⟩
  obtain ⟨h1, h2, h3, h4, h5, h6, h7, h8, h9, h10⟩ := h1
  intro a ha
  cases a with
  | inRecv p => cases p <;> simp [step, h9, h1, h2, h3]
  | inSend p => cases p <;> simp [step, h9, h1, h2]
  | procRecv p => simp [step, h9, h6]
  | procSend => simp [step, h9, h6]
  | outRecv p => cases p <;> simp [step, h9, h4, h5]
  | outWrite p f => cases p <;> simp [step, h9, h4, h5]
  | closeStep => simp [step, h9, h8]
  | join => simp [step, h9, h7, h10]
  | startFinish => simp [step, h9, h7]
  | _ => simp [Action.isSession] at ha

/-! ## Examples -/

/-- A session with traffic in both directions and everything delivered, the client in the middle of a further message. -/
def busy : List Action :=
  begin ++ [.peerSends .client queryBytes, .inRecv .client, .peerSends .db (queryBytes ++ queryBytes), .inRecv .db, .inSend .db,
    .inRecv .db, .inSend .client, .procRecv .db, .procSend, .procRecv .client, .inSend .db, .outRecv .client, .procSend,
    .outRecv .db, .outWrite .client none, .outWrite .db none, .procRecv .db, .procSend, .outRecv .client,
    .outWrite .client none, .peerSends .client [0x51, 0, 0]]

example : let s := after busy
    Reachable step init s ∧ s.crashed = false ∧ s.fired = false ∧ s.proc ≠ .notStarted ∧
    (s.conn .client).written = queryBytes ++ queryBytes ∧ (s.conn .db).written = startupBytes ++ queryBytes ∧
    s.hsWritten .db = startupBytes ∧ taken s .client = startupBytes ∧ transit s .client = [] ∧ transit s .db = [] :=
  ⟨after_reachable _ (by decide), by decide, by decide, by decide, by decide, by decide, by decide, by decide, by decide,
    by decide⟩

example : (∀ p x, (after busy).outPump p ≠ .exited x) ∧ AtRest (after busy) := by
  refine ⟨?_, ?_⟩
  · intro p x
    have : (after busy).outPump p = .recv := by cases p <;> decide
    rw [this]; simp
  · refine ⟨fun p => ?_, ?_⟩
    · cases p <;> decide
    · decide

/-- C36: a message in hand, and a frame that can be received. -/
example : let s := after (begin ++ [.peerSends .client (queryBytes ++ queryBytes), .inRecv .client])
    Reachable step init s ∧ s.crashed = false ∧ s.fired = false ∧ s.proc ≠ .notStarted ∧ transit s .client ≠ [] ∧
    tryRecv (s.conn .client) ≠ none :=
  ⟨after_reachable _ (by decide), by decide, by decide, by decide, by decide, by decide⟩

/-- C38_partial: the busy session may be closed now. -/
example : (∀ p, transit (after busy) p = []) ∧
    ∀ p e f r, readStandardFrame ⟨[((after busy).conn p).unread], e⟩ ≠ (.ok f, r) := by
  refine ⟨fun p => by cases p <;> decide, fun p e f r h => ?_⟩
  have h1 := (readStandardFrame_flat ⟨[((after busy).conn p).unread], e⟩).1
  rw [h] at h1
  have h2 : ((after busy).conn p).unread.length < 5 := by cases p <;> decide
  simp [Reader.bytes, flatStandard, h2] at h1

/-- The rest of its life, if `Close` is called. -/
def ending : List Action :=
  .callClose :: (List.replicate 6 .closeStep ++ [.inRecv .client, .inRecv .db, .procRecv .client, .outRecv .client, .outRecv .db,
    .join, .startFinish])

/-- C37_partial, C39, C40_partial -/
example : let s := after (busy ++ ending)
    Reachable step init s ∧ s.fired = true ∧ s.firedInHandshake = false ∧ s.crashed = false ∧ s.closer = .done ∧
    (∀ a, a.isSession = true → step s a = none) ∧ (s.conn .client).closes = 1 ∧ (s.conn .db).closes = 1 := by
  refine ⟨after_reachable _ (by decide), by decide, by decide, by decide, by decide, ?_, by decide, by decide⟩
  generalize hs : after _ = s
  have h1 : s.inPump .client = .exited (.io 0) ∧ s.inPump .db = .exited (.io 0) ∧
      s.outPump .client = .exited none ∧ s.outPump .db = .exited none ∧ s.proc = .exited ∧ s.start = .returned ∧
      s.closer = .done ∧ s.crashed = false := by
    subst hs
    exact ⟨by decide, by decide, by decide, by decide, by decide, by decide, by decide, by decide⟩
  obtain ⟨h1, h2, h4, h5, h6, h7, h8, h9⟩ := h1
  intro a ha
  cases a with
  | inRecv p => cases p <;> simp [step, h9, h1, h2]
  | inSend p => cases p <;> simp [step, h9, h1, h2]
  | procRecv p => simp [step, h9, h6]
  | procSend => simp [step, h9, h6]
  | outRecv p => cases p <;> simp [step, h9, h4, h5]
  | outWrite p f => cases p <;> simp [step, h9, h4, h5]
  | closeStep => simp [step, h9, h8]
  | join => simp [step, h9, h7]
  | startFinish => simp [step, h9, h7]
  | _ => simp [Action.isSession] at ha

end Gevulot.SessionModel
