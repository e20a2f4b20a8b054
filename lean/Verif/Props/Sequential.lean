import Verif.Proofs.SequentialConverse
import Verif.Props.FullSession
import Verif.Props.System
import Verif.Props.Served

/-!
# C98: the outcome of a handshake does not depend on timing

`negotiateSessionParams` runs while the client sends its bytes in pieces, while other sessions run, and while the session may be
closed. `handshake env r` (Model/Handshake.lean, the subject of C27–C32) is the same code read as a sequential program that is given
the client's bytes `r` and that gets its answers from `env`.
-/

namespace Gevulot.FullSession

open SessionModel (Peer)

variable {parse : Bytes → Option ConnectionParams} {env : HandshakeEnv}

/-- C98: the handshake of a session that nobody has closed comes to what the sequential program makes of all that the client has sent,
however it was cut into pieces, whenever it came, and whatever came later. -/
theorem C98 (s : State) (acts : List Action) (h : run (step parse) init acts = some s) (ho : Spec.Outside parse env acts s)
    (hover : s.hs = .idle) (hcalled : s.base.start ≠ .notCalled) (hopen : s.base.fired = false) (r : Reader)
    (hr : r.bytes = (s.base.conn .client).sent) : Spec.SameOutcome s (s.base.conn .client).sent (handshake env r) :=
  same_sent h hover hcalled hopen ho hr

/-- C98, for a session that was closed at any moment: the handshake comes to what the sequential program makes of the bytes that it
has read up to then. -/
theorem C98_closed (s : State) (acts : List Action) (h : run (step parse) init acts = some s) (ho : Spec.Outside parse env acts s)
    (hover : s.hs = .idle) (r : Reader) (hr : r.bytes = s.base.hsRead) : Spec.SameOutcome s s.base.hsRead (handshake env r) :=
  same_read h hover ho hr

/-- C98: every execution has such an outside world. -/
theorem C98_outside (s : State) (acts : List Action) (h : run (step parse) init acts = some s) : ∃ env, Spec.Outside parse env acts s :=
  outside_exists h

/-- C98: two executions with the same bytes of the client and the same outside world have handshakes with the same outcome. -/
theorem C98_timing (s s' : State) (acts acts' : List Action) (h : run (step parse) init acts = some s)
    (h' : run (step parse) init acts' = some s') (ho : Spec.Outside parse env acts s) (ho' : Spec.Outside parse env acts' s')
    (hover : s.hs = .idle ∧ s.base.start ≠ .notCalled ∧ s.base.fired = false)
    (hover' : s'.hs = .idle ∧ s'.base.start ≠ .notCalled ∧ s'.base.fired = false)
    (hsent : (s'.base.conn .client).sent = (s.base.conn .client).sent) :
    s'.base.hsRead = s.base.hsRead ∧ s'.base.hsWritten = s.base.hsWritten ∧ s'.dialed = s.dialed ∧
    s'.configs.length = s.configs.length ∧ (s'.base.proc = .notStarted ↔ s.base.proc = .notStarted) ∧
    (s'.base.conn .db).assigned = (s.base.conn .db).assigned := by
  obtain ⟨a1, a2, a3, a4, a5, a6, a7⟩ := C98 s acts h ho hover.1 hover.2.1 hover.2.2 ⟨[(s.base.conn .client).sent], .eof⟩ (by simp [Reader.bytes])
  obtain ⟨b1, b2, b3, b4, b5, b6, b7⟩ := C98 s' acts' h' ho' hover'.1 hover'.2.1 hover'.2.2 ⟨[(s.base.conn .client).sent], .eof⟩ (by simp [Reader.bytes, hsent])
  refine ⟨?_, ?_, b6.symm.trans a6, b5.symm.trans a5, ?_, b7.symm.trans a7⟩
  · exact (List.append_cancel_right (a2.symm.trans (hsent.symm.trans b2))).symm
  · funext p
    cases p
    · exact b3.symm.trans a3
    · exact b4.symm.trans a4
  · rcases a1 with ⟨x, y⟩ | ⟨⟨e, x⟩, y⟩ <;> rcases b1 with ⟨x', y'⟩ | ⟨⟨e', x'⟩, y'⟩
    · exact ⟨fun h => absurd h y', fun h => absurd h y⟩
    · rw [x] at x'; simp at x'
    · rw [x] at x'; simp at x'
    · exact ⟨fun _ => y, fun _ => y'⟩

/-- C98, the other way round: whatever the sequential program can meet — any bytes of the client, any answers of the outside world but
panics — a session can meet, and comes to the same. -/
theorem C98_all (hconfig : ∀ i p, env.getConfig i ≠ .panic p) (hdial : ∀ addr p, env.dial addr ≠ .panic p)
    (hok : ∀ u p, parse u = some p → env.parseURI u = .ok p) (herr : ∀ u, parse u = none → ∃ e, env.parseURI u = .err e)
    (r : Reader) :
    ∃ acts s, run (step parse) init acts = some s ∧ Spec.Outside parse env acts s ∧ s.hs = .idle ∧ s.base.fired = false ∧
      (s.base.conn .client).sent = r.bytes ∧ (s.base.conn .client).ended = some r.final ∧ Spec.SameOutcome s r.bytes (handshake env r) := by
  obtain ⟨acts, s, h1, h2, h3, h4, h5, h6, h7⟩ := met ⟨hok, herr, hconfig, hdial⟩ r.bytes r.final
  exact ⟨acts, s, h1, h7, h2, h4, h5, h6, h5 ▸ C98 s acts h1 h7 h2 h3 h4 r h5.symm⟩

/-- C98, in the server: the handshake of every session comes to what the sequential program makes of the bytes it has read. -/
theorem C98_server {c : Option ServerModel.Addr} (s : System.State) (h : Reachable (System.step parse) (System.init c) s) (t : ServerModel.Tid)
    (hover : (s.sess t).hs = .idle) (r : Reader) (hr : r.bytes = (s.sess t).base.hsRead) :
    ∃ env, (∀ u p, parse u = some p → env.parseURI u = .ok p) ∧ (∀ u, parse u = none → ∃ e, env.parseURI u = .err e) ∧
      Spec.SameOutcome (s.sess t) (s.sess t).base.hsRead (handshake env r) := by
  obtain ⟨acts, hs⟩ := System.session_reachable h t
  obtain ⟨env, ho⟩ := outside_exists hs
  exact ⟨env, ho.parse_ok, ho.parse_err, same_read hs hover ho hr⟩

/-- C98, in the whole program. -/
theorem C98_program {bytes : Nat → Bytes} {path : Option Nat} {text : Nat → CliModel.Text} (s : Process.State)
    (h : Reachable (Process.step parse bytes) (Process.init path text) s) (t : ServerModel.Tid)
    (hover : (s.sys.sess t).hs = .idle) (r : Reader) (hr : r.bytes = (s.sys.sess t).base.hsRead) :
    ∃ env, (∀ u p, parse u = some p → env.parseURI u = .ok p) ∧ (∀ u, parse u = none → ∃ e, env.parseURI u = .err e) ∧
      Spec.SameOutcome (s.sys.sess t) (s.sys.sess t).base.hsRead (handshake env r) :=
  C98_server s.sys (Process.parts_reachable h).2.2 t hover r hr

/-! ### Examples -/

/-- Whether a handshake is over, to be evaluated. -/
def isIdle : HsPC → Bool
  | .idle => true
  | _ => false

theorem idle_of {pc : HsPC} (h : isIdle pc = true) : pc = .idle := by
  cases pc <;> simp_all [isIdle]

/-- Example for C98, C98_outside: a client is admitted, and its session has an outside world. -/
example : ∃ env s, run (step exampleParse) init (opened ++ [.base (.peerSends .client [1, 2, 3])]) = some s ∧
    Spec.Outside exampleParse env (opened ++ [.base (.peerSends .client [1, 2, 3])]) s ∧ s.hs = .idle ∧ s.base.start ≠ .notCalled ∧ s.base.fired = false ∧
    s.base.hsRead ≠ (s.base.conn .client).sent ∧ (handshake env ⟨[(s.base.conn .client).sent], .eof⟩).1 = .ok () := by
  obtain ⟨s, hs⟩ := Option.isSome_iff_exists.mp (show (run (step exampleParse) init (opened ++ [.base (.peerSends .client [1, 2, 3])])).isSome by decide +kernel)
  have he : after (opened ++ [.base (.peerSends .client [1, 2, 3])]) = s := by rw [after, hs]; rfl
  subst he
  obtain ⟨env, ho⟩ := C98_outside _ _ hs
  have h1 : (after (opened ++ [.base (.peerSends .client [1, 2, 3])])).hs = .idle := idle_of (by decide +kernel)
  have h2 : (after (opened ++ [.base (.peerSends .client [1, 2, 3])])).base.start ≠ .notCalled := by decide +kernel
  have h3 : (after (opened ++ [.base (.peerSends .client [1, 2, 3])])).base.fired = false := by decide +kernel
  refine ⟨env, _, hs, ho, h1, h2, h3, by decide +kernel, ?_⟩
  rcases (C98 _ _ hs ho h1 h2 h3 ⟨[((after (opened ++ [.base (.peerSends .client [1, 2, 3])])).base.conn .client).sent], .eof⟩ (by simp [Reader.bytes])).result with h | h
  · exact h.1
  · exact absurd h.2 (by decide +kernel)

/-- Example for C98_closed: a session that is closed while the client's startup packet is on its way. -/
example : (after [.base .callStart, .base (.peerSends .client [0, 0, 0]), .base .callClose, .base .closeStep, .recvStartup]).hs = .idle ∧
    (after [.base .callStart, .base (.peerSends .client [0, 0, 0]), .base .callClose, .base .closeStep, .recvStartup]).base.start = .deferred true ∧
    (after [.base .callStart, .base (.peerSends .client [0, 0, 0]), .base .callClose, .base .closeStep, .recvStartup]).base.hsRead = [] :=
  ⟨idle_of (by decide +kernel), by decide +kernel, by decide +kernel⟩

/-- An outside world in which everything works out. -/
def kindEnv : HandshakeEnv :=
  { getConfig := fun _ => .ok (ascii "postgres://db.example/app"), parseURI := fun _ => .ok exampleSettings, dial := fun _ => .ok (),
    clientWrite := fun _ => none, dbWrite := fun _ => none }

/-- The client of `opened`, with its bytes in three pieces, and one more packet. -/
def slowly : List Action :=
  [.base .callStart, .base (.peerSends .client ((Spec.sslRequestPacket ++ Spec.wire (.startup exampleStartup)).take 3)),
    .base (.peerSends .client (((Spec.sslRequestPacket ++ Spec.wire (.startup exampleStartup)).drop 3).take 10)), .recvStartup, .reply true,
    .base (.peerSends .client ((Spec.sslRequestPacket ++ Spec.wire (.startup exampleStartup)).drop 13)), .recvStartup,
    .getConfig (some (ascii "postgres://db.example/app")), .dial true, .assign, .startup none]

theorem kind_outside (acts : List Action) (s : State) (h1 : (Spec.replies acts).all (· = true) = true)
    (h2 : (Spec.answers acts).all (· = some (ascii "postgres://db.example/app")) = true) (h3 : .dial false ∉ acts)
    (h4 : ∀ n, .startup (some n) ∉ acts) : Spec.Outside exampleParse kindEnv acts s := by
  simp only [List.all_eq_true, decide_eq_true_eq] at h1 h2
  refine ⟨by simp [exampleParse, kindEnv], by simp [exampleParse], fun _ _ => rfl, fun i h => ?_, fun i u h => ?_, fun i h => ?_, fun _ _ _ => rfl,
    fun h => absurd h h3, fun _ _ _ => rfl, fun n h => absurd h (h4 n)⟩
  · exact absurd (h1 _ (List.mem_of_getElem? h)) (by simp)
  · have := h2 _ (List.mem_of_getElem? h)
    simp only [Option.some.injEq] at this
    rw [this]; rfl
  · exact absurd (h2 _ (List.mem_of_getElem? h)) (by simp)

/-- Example for C98_timing: the same client, fast and slow. -/
example : opened ≠ slowly ∧ Spec.Outside exampleParse kindEnv opened (after opened) ∧ Spec.Outside exampleParse kindEnv slowly (after slowly) ∧
    Reachable (step exampleParse) init (after opened) ∧ Reachable (step exampleParse) init (after slowly) ∧
    ((after opened).hs = .idle ∧ (after opened).base.start ≠ .notCalled ∧ (after opened).base.fired = false) ∧
    ((after slowly).hs = .idle ∧ (after slowly).base.start ≠ .notCalled ∧ (after slowly).base.fired = false) ∧
    ((after slowly).base.conn .client).sent = ((after opened).base.conn .client).sent ∧ (after slowly).dialed ≠ [] :=
  ⟨by simp [opened, opening, slowly], kind_outside _ _ (by decide) (by decide) (by simp [opened, opening]) (by simp [opened, opening]),
    kind_outside _ _ (by decide) (by decide) (by simp [slowly]) (by simp [slowly]), after_reachable _ (by decide +kernel),
    after_reachable _ (by decide +kernel), ⟨idle_of (by decide +kernel), by decide +kernel, by decide +kernel⟩,
    ⟨idle_of (by decide +kernel), by decide +kernel, by decide +kernel⟩, by decide +kernel, by decide +kernel⟩

/-- Example for C98_program and C98_server: the program has served a client. -/
example : let s := Process.after (Process.started ++ Process.served)
    Reachable (Process.step Process.exampleParse Process.exampleBytes) (Process.init (some 0) CliModel.oldText) s ∧
    Reachable (System.step Process.exampleParse) (System.init none) s.sys ∧
    (s.sys.sess (.go 1)).hs = .idle ∧ (s.sys.sess (.go 1)).base.hsRead ≠ [] ∧ (s.sys.sess (.go 1)).dialed ≠ [] :=
  have h := Process.after_reachable (Process.started ++ Process.served) (by decide +kernel)
  ⟨h, (Process.parts_reachable h).2.2, idle_of (by decide +kernel), by decide +kernel, by decide +kernel⟩

/-- Example for C98_all: an outside world in which everything works out. -/
example : ∃ env : HandshakeEnv, (∀ i p, env.getConfig i ≠ .panic p) ∧ (∀ addr p, env.dial addr ≠ .panic p) ∧
    (∀ u p, exampleParse u = some p → env.parseURI u = .ok p) ∧ (∀ u, exampleParse u = none → ∃ e, env.parseURI u = .err e) :=
  ⟨kindEnv, by simp [kindEnv], by simp [kindEnv], by simp [exampleParse, kindEnv], by simp [exampleParse]⟩

end Gevulot.FullSession
