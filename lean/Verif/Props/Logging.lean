import Verif.Proofs.Logging
import Verif.Props.FullSession

/-!
# C90, C91: the log of a session

`s` ranges over every state a session with its log can reach; `parse` is `pg.ParseDatabaseURI`, arbitrary here.
-/

namespace Gevulot.LogModel

open SessionModel (Peer)

variable {parse : Bytes → Option ConnectionParams}

theorem shown_eq (p : Peer) (log : List Line) : shown p log = (messagesFrom p log).flatMap sendMessage := by
  unfold shown messagesFrom
  rw [List.flatMap_map]
  congr 1
  funext l
  obtain ⟨q, m⟩ := l
  cases q <;> simp [Line.text, sendMessage, ascii]

/-! ## C90 The log shows all that is relayed -/

/-- C90: for both ends, the messages in the log are the first of those that were received from there (after the handshake), in their
order; and all that was written to the other end (after the handshake) is a prefix of what the log shows: nothing is relayed that
is not in the log. -/
theorem C90 (s : State) (h : Reachable (step parse) init s) (p : Peer) :
    ∃ (relayed rest w : Bytes) (ms : List Msg),
      (s.sess.base.conn p).sent = SessionModel.taken s.sess.base p ++ relayed ∧ Spec.Stream relayed ms rest ∧
      messagesFrom p s.log <+: ms ∧
      (s.sess.base.conn p.other).written = s.sess.base.hsWritten p.other ++ w ∧ w <+: shown p s.log := by
  obtain ⟨⟨relayed, rest, h1, h2, h3⟩, ⟨dn, torn, g1, g2, g3⟩, -⟩ := (logged_of_reachable h).2 p
  refine ⟨relayed, rest, dn.flatMap sendMessage ++ torn, _, h1, h2, by rw [List.append_assoc]; exact List.prefix_append _ _, by rw [g1, List.append_assoc], ?_⟩
  rw [shown_eq, g3, List.append_assoc, List.append_assoc, List.flatMap_append, List.prefix_append_right_inj]
  rcases g2 with rfl | ⟨m, e, k, g2, rfl⟩
  · exact List.nil_prefix
  · simp only [g2, SessionModel.OutPump.hand, List.flatMap_append, List.flatMap_singleton]
    exact (List.take_prefix _ _).trans (List.prefix_append _ _)

/-- The session behaves as if there were no log. -/
theorem C90_session (s : State) (h : Reachable (step parse) init s) : Reachable (FullSession.step parse) FullSession.init s.sess :=
  (logged_of_reachable h).1

/-- Nothing is ever removed from the log, and a line is added when, and only when, a message is taken. -/
theorem C90_append (s s' : State) (a : FullSession.Action) (hs : step parse s a = some s') :
    s'.log = s.log ∨ ∃ p m rest, a = .base (.procRecv p) ∧ (s.sess.base.inCh p).buf = m :: rest ∧ s'.sess.base.proc = .send p m ∧
      s'.log = s.log ++ [⟨p, m⟩] := by
  unfold step at hs
  rw [Option.map_eq_some_iff] at hs
  obtain ⟨x, hx, rfl⟩ := hs
  cases a with
  | base b =>
    cases b with
    | procRecv p =>
      cases hb : (s.sess.base.inCh p).buf with
      | nil => left; simp [lines, hb]
      | cons m rest =>
        right
        refine ⟨p, m, rest, rfl, hb, ?_, by simp [lines, hb]⟩
        have : SessionModel.step s.sess.base (.procRecv p) = some x.base := by simp [FullSession.step] at hx; grind
        unfold SessionModel.step at this
        grind
    | _ => left; simp [lines]
  | _ => left; simp

/-! ## C91 No passwords are written to the log -/

/-- C91: no message that carries a password of the client is logged. (False.) -/
def C91_claim : Prop :=
  ∀ (parse : Bytes → Option ConnectionParams) (s : State), Reachable (step parse) init s → ∀ l ∈ s.log, l.source = .client → ¬ isPassword l.message

def after (acts : List FullSession.Action) : State := (run (step FullSession.exampleParse) init acts).getD init

theorem after_reachable (acts : List FullSession.Action) (h : (run (step FullSession.exampleParse) init acts).isSome) :
    Reachable (step FullSession.exampleParse) init (after acts) := by
  obtain ⟨s, hs⟩ := Option.isSome_iff_exists.mp h
  exact ⟨acts, by rw [after, hs]; rfl⟩

/-- A PasswordMessage with the password "secret". -/
def passwordBytes : Bytes := ascii "p" ++ [0, 0, 0, 11] ++ ascii "secret" ++ [0]

/-- A client that connects and sends its password. -/
def authenticating : List FullSession.Action :=
  FullSession.opened ++ [.base (.peerSends .client passwordBytes), .base (.inRecv .client), .base (.inSend .client), .base (.procRecv .client)]

/-- C91 is false: the message is logged as it is, with the level `Info`, -/
theorem C91_refuted : ¬ C91_claim := by
  intro hc
  have h : ∃ l ∈ (after authenticating).log, l.source = .client ∧ isPassword l.message := by decide +kernel
  obtain ⟨l, h1, h2, h3⟩ := h
  exact hc _ _ (after_reachable authenticating (by decide +kernel)) l h1 h2 h3

/-- in clear text. -/
theorem C91_refuted_text : Reachable (step FullSession.exampleParse) init (after authenticating) ∧
    (after authenticating).log.map Line.text = [ascii "-> p" ++ [0, 0, 0, 11] ++ ascii "secret" ++ [0]] :=
  ⟨after_reachable _ (by decide +kernel), by decide +kernel⟩

/-- C91_partial: the log is empty as long as the goroutines of the session have not been started, and shows only messages that
were received from the client after its startup packet, or from the database. So neither the startup packet nor the configured
database URI (which may have a password in it) is in it. -/
theorem C91_partial (s : State) (h : Reachable (step parse) init s) :
    (s.sess.base.proc = .notStarted → s.log = []) ∧
    ∀ l ∈ s.log, ∃ (relayed rest : Bytes) (ms : List Msg),
      (s.sess.base.conn l.source).sent = SessionModel.taken s.sess.base l.source ++ relayed ∧ Spec.Stream relayed ms rest ∧ l.message ∈ ms := by
  refine ⟨fun hn => ?_, fun l hl => ?_⟩
  · cases hlog : s.log with
    | nil => rfl
    | cons l ls =>
      have := ((logged_of_reachable h).2 l.source).early hn
      rw [hlog] at this
      simp [messagesFrom] at this
  · obtain ⟨relayed, rest, w, ms, h1, h2, h3, -⟩ := C90 s h l.source
    exact ⟨relayed, rest, ms, h1, h2, h3.subset (by simp only [messagesFrom, List.mem_map, List.mem_filter]; exact ⟨l, ⟨hl, by simp⟩, rfl⟩)⟩

/-! ## Examples -/

/-- C90: the password above is passed on to the database, and then a query from the database's side is logged. -/
def talking : List FullSession.Action :=
  authenticating ++ [.base .procSend, .base (.outRecv .db), .base (.outWrite .db none), .base (.peerSends .db SessionModel.queryBytes),
    .base (.inRecv .db), .base (.inSend .db), .base (.procRecv .db)]

example : Reachable (step FullSession.exampleParse) init (after talking) ∧ (after talking).log.map (·.source) = [.client, .db] ∧
    shown .client (after talking).log = passwordBytes ∧ shown .db (after talking).log = SessionModel.queryBytes ∧
    passwordBytes <:+ ((after talking).sess.base.conn .db).written :=
  ⟨after_reachable _ (by decide +kernel), by decide +kernel, by decide +kernel, by decide +kernel, by decide +kernel⟩

end Gevulot.LogModel
