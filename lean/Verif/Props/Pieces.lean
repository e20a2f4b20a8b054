import Verif.Proofs.PiecesConverse
import Verif.Proofs.PiecesEnd

/-!
# C96: reading and writing piece by piece

`s` ranges over every state that a session can reach if each `Read` returns as many or as few bytes as it likes, and each `Write` takes
as long as it likes (Model/Pieces.lean), for every interleaving with the other goroutines, the peers and `Close`.
-/

namespace Gevulot.Pieces

open SessionModel (Peer)
open FullSession (Ordinary)

variable {parse : Bytes → Option ConnectionParams}

/-- C96: the session looks like one in which every message is read in one step and written in one step (C67–C69): the two differ in
messages of which a part was read or written, and in nothing else. -/
theorem C96 (s : State) (h : Reachable (step parse) init s) :
    ∃ t, Reachable (FullSession.step parse) FullSession.init t ∧ Spec.LooksLike s t :=
  ⟨abs s, abs_reachable h, abs_looksLike (inv_of_reachable h)⟩

/-- C96, the other way round: whatever a session can do in which every message is read in one step and written in one step, it can do
piece by piece, and then nothing is left half read or half written, unless it has crashed. Writes that could not fail that way
are left out. -/
theorem C96_all (t : FullSession.State) (acts : List FullSession.Action) (h : PossibleRun parse FullSession.init acts t) :
    ∃ s, Reachable (step parse) init s ∧ Spec.LooksLike s t ∧
      (t.base.crashed = false → s = { sess := t, rbuf := fun _ => [], wrote := fun _ => 0 }) := by
  obtain ⟨acts', s, h1, h2, h3⟩ := split_run h
  exact ⟨s, ⟨acts', h1⟩, h2 ▸ abs_looksLike (inv_of_reachable ⟨acts', h1⟩), h3⟩

/-- C67_db to the last byte: half of a message may have been written. -/
theorem C96_db (s : State) (h : Reachable (step parse) init s) (hd : s.sess.dialed ≠ [] ∨ (s.sess.base.conn .db).written ≠ []) :
    ∃ (requests : List Bytes) (pkt relayed rest url : Bytes) (m : StartupMessage) (settings : ConnectionParams) (ms : List Msg),
      (∀ b ∈ requests, Spec.SSLRequest b) ∧ Spec.StartupPacket pkt m ∧
      (s.sess.base.conn .client).sent = requests.flatten ++ pkt ++ relayed ∧ Spec.Stream relayed ms rest ∧
      s.sess.configs = [some url] ∧ parse url = some settings ∧ Spec.Admitted m settings ∧
      s.sess.dialed = [joinHostPort (settings.get (ascii "host")) (settings.get (ascii "port"))] ∧
      (s.sess.base.conn .db).written <+: sendMessage (.startup m) ++ ms.flatMap sendMessage := by
  obtain ⟨t, ht, h1, h2, h3, h4⟩ := shows h .db
  have := FullSession.C67_db t ht (by rw [h2, h4]; exact hd)
  rw [h1, h2, h3, h4] at this
  exact this

/-- C67_client to the last byte. -/
theorem C96_client (s : State) (h : Reachable (step parse) init s) :
    ∃ (requests : List Bytes) (tail rest w : Bytes) (ms : List Msg) (k : Nat),
      (∀ b ∈ requests, Spec.SSLRequest b) ∧ (s.sess.base.conn .client).sent = requests.flatten ++ tail ∧
      (k = requests.length ∨ k + 1 = requests.length) ∧
      (s.sess.base.conn .client).written = List.replicate k Spec.no ++ w ∧
      Spec.Stream (s.sess.base.conn .db).sent ms rest ∧ w <+: ms.flatMap sendMessage ∧
      (s.sess.dialed = [] → w = []) := by
  obtain ⟨t, ht, h1, h2, h3, h4⟩ := shows h .client
  have := FullSession.C67_client t ht
  rw [h2, h3, h3, h4] at this
  exact this

/-- C68_db to the last byte: what the database got is the beginning of what the client sent after the SSL requests. -/
theorem C96_same_db (s : State) (h : Reachable (step parse) init s) (n : Nat) (m : StartupMessage) (ms : List Msg)
    (hm : Spec.WellFormed (.startup m)) (hv : m.protocolVersion.toNat ≠ 80877103) (hms : ∀ x ∈ ms, Ordinary x)
    (hsent : (s.sess.base.conn .client).sent <+:
      (List.replicate n Spec.sslRequestPacket).flatten ++ Spec.wire (.startup m) ++ ms.flatMap Spec.wire) :
    (s.sess.base.conn .db).written <+: (s.sess.base.conn .client).sent.drop (8 * n) := by
  obtain ⟨t, ht, h1, h2, h3, h4⟩ := shows h .db
  have := FullSession.C68_db t ht n m ms hm hv hms (by rw [h3]; exact hsent)
  rw [h3, h4] at this
  exact this

/-- C68_client to the last byte. -/
theorem C96_same_client (s : State) (h : Reachable (step parse) init s) (ms : List Msg) (hms : ∀ x ∈ ms, Ordinary x)
    (hsent : (s.sess.base.conn .db).sent <+: ms.flatMap Spec.wire) :
    ∃ k w, (s.sess.base.conn .client).written = List.replicate k Spec.no ++ w ∧ w <+: (s.sess.base.conn .db).sent := by
  obtain ⟨t, ht, h1, h2, h3, h4⟩ := shows h .client
  have := FullSession.C68_client t ht ms hms (by rw [h3]; exact hsent)
  rw [h3, h4] at this
  exact this

/-- C68_rest: in a session that is open and has got through its handshake, whose peers keep reading, and whose goroutines have nothing
left to do, no message is half written, and nothing is missing but what is no complete message: what the frame readers have got and
what they have not. -/
theorem C96_rest (s : State) (h : Reachable (step parse) init s) (hc : s.sess.base.crashed = false) (hopen : s.sess.base.fired = false)
    (hrun : s.sess.base.proc ≠ .notStarted) (hw : ∀ p m e, s.sess.base.outPump p ≠ .exited (some (m, e))) (hrest : AtRest parse s)
    (n : Nat) (m : StartupMessage) (ms ms' : List Msg) (hm : Spec.WellFormed (.startup m)) (hv : m.protocolVersion.toNat ≠ 80877103)
    (hms : ∀ x ∈ ms, Ordinary x) (hms' : ∀ x ∈ ms', Ordinary x)
    (hsent : (s.sess.base.conn .client).sent <+:
      (List.replicate n Spec.sslRequestPacket).flatten ++ Spec.wire (.startup m) ++ ms.flatMap Spec.wire)
    (hsent' : (s.sess.base.conn .db).sent <+: ms'.flatMap Spec.wire) :
    ∃ rest rest', (s.sess.base.conn .db).written ++ rest = (s.sess.base.conn .client).sent.drop (8 * n) ∧ Spec.NoMessage rest ∧
      (s.sess.base.conn .client).written ++ rest' = List.replicate n Spec.no ++ (s.sess.base.conn .db).sent ∧ Spec.NoMessage rest' ∧
      ((∀ e, s.sess.base.inPump .client ≠ .exited e) → rest = s.rbuf .client ++ (s.sess.base.conn .client).unread) ∧
      ((∀ e, s.sess.base.inPump .db ≠ .exited e) → rest' = s.rbuf .db ++ (s.sess.base.conn .db).unread) := by
  have hi := inv_of_reachable h
  have ha := abs_reachable h
  have hopen' : ∀ p, (s.sess.base.conn p).isOpen = true := by
    have hl := abs_looksLike hi
    intro p
    rw [← hl.isOpen p]
    exact (SessionModel.isOpen_of_not_fired (SessionModel.inv_of_reachable (FullSession.base_reachable ha)) (by rw [hl.fired]; exact hopen)
      (by rw [hl.proc]; exact hrun) p).1
  obtain ⟨hr, hw0⟩ := rest_abs hi hc hopen' hrun hrest
  rw [abs_eq (cutStartup_of_wrote (hw0 .db)), absBase_same hw0] at ha hr
  exact FullSession.C68_rest _ ha hc hopen hrun hw hr n m ms ms' hm hv hms hms' hsent hsent'

/-- C68_complete: if the client has sent `n` SSL requests, its startup packet and the messages `ms`, and the database the messages
`ms'`, then at rest each has got all of it. -/
theorem C96_complete (s : State) (h : Reachable (step parse) init s) (hc : s.sess.base.crashed = false) (hopen : s.sess.base.fired = false)
    (hrun : s.sess.base.proc ≠ .notStarted) (hw : ∀ p m e, s.sess.base.outPump p ≠ .exited (some (m, e))) (hrest : AtRest parse s)
    (n : Nat) (m : StartupMessage) (ms ms' : List Msg) (hm : Spec.WellFormed (.startup m)) (hv : m.protocolVersion.toNat ≠ 80877103)
    (hms : ∀ x ∈ ms, Ordinary x) (hms' : ∀ x ∈ ms', Ordinary x)
    (hsent : (s.sess.base.conn .client).sent =
      (List.replicate n Spec.sslRequestPacket).flatten ++ Spec.wire (.startup m) ++ ms.flatMap Spec.wire)
    (hsent' : (s.sess.base.conn .db).sent = ms'.flatMap Spec.wire) :
    (s.sess.base.conn .db).written = Spec.wire (.startup m) ++ ms.flatMap Spec.wire ∧
    (s.sess.base.conn .client).written = List.replicate n Spec.no ++ ms'.flatMap Spec.wire := by
  have hi := inv_of_reachable h
  have ha := abs_reachable h
  have hopen' : ∀ p, (s.sess.base.conn p).isOpen = true := by
    have hl := abs_looksLike hi
    intro p
    rw [← hl.isOpen p]
    exact (SessionModel.isOpen_of_not_fired (SessionModel.inv_of_reachable (FullSession.base_reachable ha)) (by rw [hl.fired]; exact hopen)
      (by rw [hl.proc]; exact hrun) p).1
  obtain ⟨hr, hw0⟩ := rest_abs hi hc hopen' hrun hrest
  rw [abs_eq (cutStartup_of_wrote (hw0 .db)), absBase_same hw0] at ha hr
  exact FullSession.C68_complete _ ha hc hopen hrun hw hr n m ms ms' hm hv hms hms' hsent hsent'

/-- C69: a client that is refused is disconnected, and the database is left alone. -/
theorem C96_refused (s : State) (h : Reachable (step parse) init s) (requests : List Bytes) (pkt more : Bytes) (m : StartupMessage)
    (hr : ∀ b ∈ requests, Spec.SSLRequest b) (hp : Spec.StartupPacket pkt m) (hv : m.protocolVersion.toNat ≠ 80877103)
    (hsent : (s.sess.base.conn .client).sent = requests.flatten ++ pkt ++ more)
    (hno : ∀ url settings, some url ∈ s.sess.configs → parse url = some settings → ¬ Spec.Admitted m settings) :
    s.sess.dialed = [] ∧ (s.sess.base.conn .db).written = [] ∧
    (s.sess.base.crashed = false → s.sess.base.start ≠ .notCalled → Settled parse s →
      s.sess.base.start = .returned ∧ (s.sess.base.conn .client).isOpen = false) := by
  obtain ⟨t, ht, h1, h2, h3, h4⟩ := shows h .db
  have hd := FullSession.C69 t ht requests pkt more m hr hp hv (by rw [h3]; exact hsent) (by rw [h1]; exact hno)
  rw [h2, h4] at hd
  refine ⟨hd.1, hd.2.1, fun hc hcalled hrest => ?_⟩
  have hi := inv_of_reachable h
  have ha := abs_reachable h
  have hs := settled_abs hi hc hrest
  have hw := settled_wrote hi hc hrest
  rw [abs_eq (cutStartup_of_wrote (hw .db)), absBase_same hw] at ha hs
  exact (FullSession.C69 _ ha requests pkt more m hr hp hv hsent hno).2.2 hc hcalled hs

/-- Gevulot comes to rest: it cannot go on for ever reading and writing pieces unless a peer does something, or `Start` or `Close`
is called. -/
theorem C96_finite (f : Nat → State) (a : Nat → Action) (h0 : Reachable (step parse) init (f 0)) :
    ¬ ∀ i, Internal (a i) ∧ step parse (f i) (a i) = some (f (i + 1)) :=
  fun h => no_infinite f a (inv_of_reachable h0) h

/-! ## Examples -/

open FullSession (exampleStartup exampleParse otherStartup)

def after (acts : List Action) : State := (run (step exampleParse) init acts).getD init

theorem after_reachable (acts : List Action) (h : (run (step exampleParse) init acts).isSome) :
    Reachable (step exampleParse) init (after acts) := by
  obtain ⟨s, hs⟩ := Option.isSome_iff_exists.mp h
  exact ⟨acts, by rw [after, hs]; rfl⟩

/-- The startup packet comes in two pieces and is passed on in two; the database answers meanwhile. -/
def opened : List Action :=
  [.other (.base (.peerSends .client ((Spec.wire (.startup exampleStartup)).take 7))), .other (.base .callStart), .readStartup 3, .readStartup 1, .readStartup 2,
    .other (.base (.peerSends .client ((Spec.wire (.startup exampleStartup)).drop 7))), .readStartup 1,
    .readStartup ((Spec.wire (.startup exampleStartup)).length - 7),
    .other (.getConfig (some (ascii "postgres://db.example/app"))), .other (.dial true), .other .assign, .writeStartup 5]

/-- A query on its way: the client's second piece was not sent yet. -/
def reading : List Action :=
  opened ++ [.writeStartup ((Spec.wire (.startup exampleStartup)).length - 5), .other (.base (.peerSends .client (SessionModel.queryBytes.take 6))),
    .read .client 5, .read .client 1]

/-- Half of it was passed on. -/
def writing : List Action :=
  reading ++ [.other (.base (.peerSends .client (SessionModel.queryBytes.drop 6))), .read .client (SessionModel.queryBytes.length - 6),
    .other (.base (.inSend .client)), .other (.base (.procRecv .client)), .other (.base .procSend), .other (.base (.outRecv .db)), .write .db 3]

def closed : List Action := writing ++ [.other (.base .callClose)] ++ List.replicate 4 (.other (.base .closeStep))

def delivered : List Action := writing ++ [.write .db (SessionModel.queryBytes.length - 3)]

/-- C96, C96_db: in mid startup message, in mid query, and after `Close` cut off a query. -/
example : Reachable (step exampleParse) init (after opened) ∧ (after opened).wrote .db = 5 ∧
    (after opened).sess.dialed = [ascii "db.example:5432"] ∧
    ((after opened).sess.base.conn .db).written = (Spec.wire (.startup exampleStartup)).take 5 :=
  ⟨after_reachable _ (by decide +kernel), by decide +kernel, by decide +kernel, by decide +kernel⟩

example : Reachable (step exampleParse) init (after reading) ∧ (after reading).rbuf .client = SessionModel.queryBytes.take 6 :=
  ⟨after_reachable _ (by decide +kernel), by decide +kernel⟩

example : Reachable (step exampleParse) init (after writing) ∧ (after writing).wrote .db = 3 ∧
    ((after writing).sess.base.conn .db).written = Spec.wire (.startup exampleStartup) ++ SessionModel.queryBytes.take 3 :=
  ⟨after_reachable _ (by decide +kernel), by decide +kernel, by decide +kernel⟩

example : Reachable (step exampleParse) init (after closed) ∧ ((after closed).sess.base.conn .db).isOpen = false ∧
    ((after closed).sess.base.conn .db).written = Spec.wire (.startup exampleStartup) ++ SessionModel.queryBytes.take 3 :=
  ⟨after_reachable _ (by decide +kernel), by decide +kernel, by decide +kernel⟩

/-- C96_all: the database has got half of the query when the connection breaks. -/
def broken : List FullSession.Action :=
  FullSession.opened ++ [.base (.peerSends .client SessionModel.queryBytes), .base (.inRecv .client), .base (.inSend .client), .base (.procRecv .client),
    .base .procSend, .base (.outRecv .db), .base (.outWrite .db (some (4, .io 7)))]

/-- As `PossibleRun`, as a computation. -/
def possibleRun (t : FullSession.State) : List FullSession.Action → Bool
  | [] => true
  | a :: acts =>
    (match a with
    | .base (.outWrite p (some (n, e))) =>
      match t.base.outPump p with
      | .write m => (n < (sendMessage m).length : Bool) && ((t.base.conn p).isOpen || (e = .io 0 : Bool))
      | _ => true
    | .startup (some n) =>
      match t.hs with
      | .startup m => (n < (sendMessage (.startup m)).length : Bool) && ((t.base.conn .db).isOpen || (n = 0 : Bool))
      | _ => true
    | _ => true) &&
    match FullSession.step exampleParse t a with
    | some u => possibleRun u acts
    | none => false

theorem possible_of_computed {acts : List FullSession.Action} : ∀ {t : FullSession.State}, possibleRun t acts = true →
    ∃ t', run (FullSession.step exampleParse) t acts = some t' ∧ PossibleRun exampleParse t acts t' := by
  induction acts with
  | nil => exact fun _ => ⟨_, rfl, .nil _⟩
  | cons a acts ih =>
    intro t h
    simp only [possibleRun, Bool.and_eq_true] at h
    obtain ⟨h1, h2⟩ := h
    cases hu : FullSession.step exampleParse t a with
    | none => rw [hu] at h2; simp at h2
    | some u =>
      rw [hu] at h2
      obtain ⟨t', h3, h4⟩ := ih h2
      refine ⟨t', by simp only [run, hu]; exact h3, .cons ?_ hu h4⟩
      unfold Possible
      split
      · intro m hm
        simp only [hm, Bool.and_eq_true, decide_eq_true_eq, Bool.or_eq_true] at h1
        exact ⟨h1.1, fun ho => h1.2.resolve_left (by simp [ho])⟩
      · intro m hm
        simp only [hm, Bool.and_eq_true, decide_eq_true_eq, Bool.or_eq_true] at h1
        exact ⟨h1.1, fun ho => h1.2.resolve_left (by simp [ho])⟩
      · trivial

example : ∃ t, PossibleRun exampleParse FullSession.init broken t ∧ ∃ w, (t.base.conn .db).written = w ++ SessionModel.queryBytes.take 4 := by
  obtain ⟨t, h1, h2⟩ := possible_of_computed (acts := broken) (t := FullSession.init) (by decide +kernel)
  refine ⟨t, h2, Spec.wire (.startup exampleStartup), ?_⟩
  have : (run (FullSession.step exampleParse) FullSession.init broken).map (fun t => (t.base.conn .db).written) =
      some (Spec.wire (.startup exampleStartup) ++ SessionModel.queryBytes.take 4) := by decide +kernel
  rw [h1] at this
  simpa using this

/-- C96_same_db and the others: what the client has sent, and that it is ordinary. -/
example : ((after writing).sess.base.conn .client).sent = (List.replicate 0 Spec.sslRequestPacket).flatten ++ Spec.wire (.startup exampleStartup) ++
    [Msg.query (ascii "hi")].flatMap Spec.wire ∧ Spec.WellFormed (.startup exampleStartup) ∧ Ordinary (.query (ascii "hi")) := by
  refine ⟨by decide +kernel, by decide +kernel, ⟨by decide +kernel, by simp, by decide⟩⟩

/-- C96_rest, C96_complete: the query was passed on, and there is nothing more to do. -/
example : let s := after delivered
    Reachable (step exampleParse) init s ∧ s.sess.base.crashed = false ∧ s.sess.base.fired = false ∧ s.sess.base.proc ≠ .notStarted ∧
    (∀ p x, s.sess.base.outPump p ≠ .exited x) ∧ AtRest exampleParse s ∧
    (s.sess.base.conn .db).written = Spec.wire (.startup exampleStartup) ++ Spec.wire (.query (ascii "hi")) := by
  refine ⟨after_reachable _ (by decide +kernel), by decide +kernel, by decide +kernel, by decide +kernel, ?_, ?_, by decide +kernel⟩
  · intro p x
    have : (after delivered).sess.base.outPump p = .recv := by cases p <;> decide +kernel
    rw [this]; simp
  · generalize hs : after delivered = s
    have h1 : s.sess.base.crashed = false ∧ s.sess.base.proc = .select := by subst hs; exact ⟨by decide +kernel, by decide +kernel⟩
    have h2 : ∀ p, s.sess.base.inPump p = .recv := by intro p; subst hs; cases p <;> decide +kernel
    have h3 : ∀ p, s.sess.base.outPump p = .recv := by intro p; subst hs; cases p <;> decide +kernel
    have h4 : ∀ p, (s.sess.base.conn p).isOpen = true := by intro p; subst hs; cases p <;> decide +kernel
    have h5 : ∀ p, (s.sess.base.conn p).unread = [] := by intro p; subst hs; cases p <;> decide +kernel
    have h6 : ∀ p, (s.sess.base.conn p).ended = none := by intro p; subst hs; cases p <;> decide +kernel
    have h7 : ∀ p, (s.sess.base.inCh p).buf = [] ∧ (s.sess.base.inCh p).closed = false := by
      intro p; subst hs; cases p <;> exact ⟨by decide +kernel, by decide +kernel⟩
    have h8 : ∀ p, (s.sess.base.outCh p).buf = [] ∧ (s.sess.base.outCh p).closed = false := by
      intro p; subst hs; cases p <;> exact ⟨by decide +kernel, by decide +kernel⟩
    refine ⟨fun p => ⟨fun n => ?_, ?_, fun n => ?_, ?_, ?_, ?_⟩, ?_⟩
    · simp [step, h1, h5]; omega
    · simp [step, h1, h2, readError, h4, h5, h6]
    · simp [step, h1, h3]
    · simp [step, h1, replaced, FullSession.step, FullSession.isHandshake, SessionModel.step, h2]
    · simp [step, h1, replaced, FullSession.step, FullSession.isHandshake, SessionModel.step, h7]
    · simp [step, h1, replaced, FullSession.step, FullSession.isHandshake, SessionModel.step, h3, h8]
    · simp [step, h1, replaced, FullSession.step, FullSession.isHandshake, SessionModel.step]

/-- C96_refused: a client that asks for another database. -/
def refused : List Action :=
  [.other (.base (.peerSends .client (Spec.wire (.startup otherStartup)))), .other (.base .callStart)] ++
  [.readStartup 4, .readStartup 9, .readStartup ((Spec.wire (.startup otherStartup)).length - 13)] ++
  [.other (.getConfig (some (ascii "postgres://db.example/app"))), .other (.base .startFinish)] ++
  List.replicate 6 (.other (.base .closeStep)) ++ [.other (.base .startFinish)]

example : let s := after refused
    Reachable (step exampleParse) init s ∧ (s.sess.base.conn .client).sent = [].flatten ++ Spec.wire (.startup otherStartup) ++ [] ∧
    s.sess.configs = [some (ascii "postgres://db.example/app")] ∧
    s.sess.base.crashed = false ∧ s.sess.base.start = .returned ∧ (s.sess.base.conn .client).isOpen = false ∧ Settled exampleParse s := by
  refine ⟨after_reachable _ (by decide +kernel), by decide +kernel, by decide +kernel, by decide +kernel, by decide +kernel, by decide +kernel, ?_⟩
  generalize hs : after _ = s
  have h0 : s.sess.hs = .idle := by subst hs; rfl
  have h1 : s.sess.base.proc = .notStarted ∧ s.sess.base.start = .returned ∧ s.sess.base.closer = .done ∧ s.sess.base.crashed = false := by
    subst hs
    refine ⟨?_, ?_, ?_, ?_⟩ <;> decide +kernel
  have h2 : ∀ p, s.sess.base.inPump p = .notStarted := by intro p; subst hs; cases p <;> decide +kernel
  have h3 : ∀ p, s.sess.base.outPump p = .notStarted := by intro p; subst hs; cases p <;> decide +kernel
  intro a ha
  cases a with
  | other a =>
    cases a with
    | base a =>
      cases a <;> simp [Internal, FullSession.Internal, SessionModel.Action.isSession] at ha <;>
        simp [step, replaced, FullSession.step, FullSession.isHandshake, SessionModel.step, h1, h2, h3]
    | _ => simp [step, replaced, FullSession.step, h0]
  | _ => simp [step, h0, h2, h3]

/-- C96_finite: any session may stand at the beginning. -/
example : ∃ (f : Nat → State), Reachable (step exampleParse) init (f 0) := ⟨fun _ => after reading, after_reachable _ (by decide +kernel)⟩

end Gevulot.Pieces
