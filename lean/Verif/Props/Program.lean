import Verif.Proofs.Program
import Verif.Props.Listening
import Verif.Props.URIProgram

/-!
# C105: the whole program, with the goroutines of `Watch`

`s` ranges over every state that the program can reach if each `Read` returns as many or as few bytes as it likes, each `Write` takes as
long as it likes, and the goroutines that watch the configuration file run next to each other and to everything else (Model/Program.lean).
-/

namespace Gevulot.Program

open ServerModel (Tid)
open SessionModel (Peer)

variable {parse : Bytes → Option ConnectionParams} {bytes : Nat → Bytes} {path : Option Nat} {text : Nat → CliModel.Text}

theorem current_of_rel {w : CliWatch.State} {c : CliModel.State} (h : CliWatch.Rel w c) : c.current = w.current := by
  unfold CliModel.State.current CliWatch.State.current
  rw [h.same.path, h.same.text]

theorem handler_of_rel {w : CliWatch.State} {c : CliModel.State} (h : CliWatch.Rel w c) (he : w.call.handler ≠ .ended) : c.handler ≠ .stopped := by
  rw [h.seen.handler]
  unfold CliWatch.absHandler
  repeat' split
  all_goals first | (simp; done) | contradiction

theorem running_of_rel {w : CliWatch.State} {c : CliModel.State} (h : CliWatch.Rel w c) : c.main = .running ↔ w.main = .running := by
  rw [h.seen.main]
  unfold CliWatch.absMain
  repeat' split
  all_goals simp_all

theorem failed_of_rel {w : CliWatch.State} {c : CliModel.State} (h : CliWatch.Rel w c) (hf : w.main = .failed) : c.main = .failed := by
  rw [h.seen.main, hf]
  rfl

/-- C105: every execution is one of Model/Whole.lean but for the watcher's side, of which the same is seen: the file, what was read of it,
the channel, and whether `prepareConfigChan` has returned without an error. The same is done by the rest of the program, and to it and to the file from outside, in
the same order; the distributor, the server, every session, and what was read and written of every message are the same. -/
theorem C105 (s : State) (acts : List Action) (h : run (step parse bytes) (init path text) acts = some s) :
    ∃ acts' c, run (Whole.step parse bytes) (Whole.init path text) acts' = some ⟨⟨c, s.dist, s.sys, s.main⟩, s.rbuf, s.wrote⟩ ∧
      acts'.filter isShown = acts.flatMap shown ∧
      c.current = s.watch.current ∧ c.chan = s.watch.chan ∧ c.sent = s.watch.sent ∧ c.received = s.watch.received ∧ c.reads = s.watch.reads ∧
      c.history = s.watch.history ∧ (c.main = .running ↔ s.watch.main = .running) ∧ (s.watch.main = .failed → c.main = .failed) := by
  obtain ⟨acts', c, h1, h2, -, h3⟩ := sim_run (CliWatch.inv_init path text) (CliWatch.rel_init path text) h
  exact ⟨acts', c, h1, h3, current_of_rel h2, h2.same.chan, h2.same.sent, h2.same.received, h2.same.reads, h2.same.history, running_of_rel h2, failed_of_rel h2⟩

/-- C105, and every session of the program is a session as in C96, so that C96 and its corollaries hold of it. -/
theorem C105_session (s : State) (h : Reachable (step parse bytes) (init path text) s) (t : Tid) :
    Reachable (Pieces.step parse) Pieces.init (s.sess t) := by
  obtain ⟨c, h1, -⟩ := sim_reachable h
  exact Whole.C97_session _ h1 t

/-- C105, what databases get (C97_db): whatever was written to the database of a session, or the address it was dialled at, is due to a
configuration that was read from the file, and to a client that this configuration admits; it got the beginning of the startup
message and of what the client sent after it. -/
theorem C105_db (s : State) (h : Reachable (step parse bytes) (init path text) s) (t : Tid)
    (hd : (s.sess t).sess.dialed ≠ [] ∨ ((s.sess t).sess.base.conn .db).written ≠ []) :
    ∃ (c : CliModel.Config) (x : Option CliModel.Text) (requests : List Bytes) (pkt relayed rest : Bytes) (m : StartupMessage) (settings : ConnectionParams) (ms : List Msg),
      x ∈ s.watch.reads ∧ x ∈ s.watch.history ∧ CliModel.readServerConfig x = some c ∧ parse (bytes c.databaseURL) = some settings ∧
      (∀ b ∈ requests, Spec.SSLRequest b) ∧ Spec.StartupPacket pkt m ∧ Spec.Admitted m settings ∧
      ((s.sess t).sess.base.conn .client).sent = requests.flatten ++ pkt ++ relayed ∧ Spec.Stream relayed ms rest ∧
      (s.sess t).sess.dialed = [joinHostPort (settings.get (ascii "host")) (settings.get (ascii "port"))] ∧
      ((s.sess t).sess.base.conn .db).written <+: sendMessage (.startup m) ++ ms.flatMap sendMessage := by
  obtain ⟨c, h1, h2, -⟩ := sim_reachable h
  have := Whole.C97_db (s.rest c) h1 t hd
  rw [show (s.rest c).proc.cli = c from rfl, h2.same.reads, h2.same.history] at this
  exact this

/-- C105, with the URI in the file read by `ParseDatabaseURI` and `url.Parse` (C102): if a session has dialled, or written to a database,
then that is due to a configuration that was in the file at some time and was read. If its URI is one that says `p`, then the host
and port of `p` were dialled, and nothing else; and the startup message of the client asked for the database of `p`. -/
theorem C105_uri {osUser : Option Bytes} {order : List (Bytes × List Bytes) → List (Bytes × List Bytes)} (horder : ∀ l, (order l).Perm l) (s : State)
    (h : Reachable (step (URLModel.reads osUser order) bytes) (init path text) s) (t : Tid)
    (hd : (s.sess t).sess.dialed ≠ [] ∨ ((s.sess t).sess.base.conn .db).written ≠ []) :
    ∃ (c : CliModel.Config) (x : Option CliModel.Text) (requests : List Bytes) (pkt more : Bytes) (m : StartupMessage),
      x ∈ s.watch.reads ∧ x ∈ s.watch.history ∧ CliModel.readServerConfig x = some c ∧
      (∀ b ∈ requests, Spec.SSLRequest b) ∧ Spec.StartupPacket pkt m ∧ ((s.sess t).sess.base.conn .client).sent = requests.flatten ++ pkt ++ more ∧
      ∀ p, Spec.UsualURI p (bytes c.databaseURL) →
        (∃ host port, Spec.meaning p osUser (ascii "host") = some host ∧ Spec.meaning p osUser (ascii "port") = some port ∧
          (s.sess t).sess.dialed = [Spec.address host port]) ∧
        Spec.meaning p osUser (ascii "database") = some (Spec.firstValue m.parameters (ascii "database")) := by
  obtain ⟨c, h1, h2, -⟩ := sim_reachable h
  have := URLModel.C102 horder (s.rest c) h1 t hd
  rw [show (s.rest c).proc.cli = c from rfl, h2.same.reads, h2.same.history] at this
  exact this

/-- C105, C85: listeners are opened for the listen addresses that were read from the file, in that order, once for each change. -/
theorem C105_listen (s : State) (h : Reachable (step parse bytes) (init path text) s) :
    s.sys.server.tried.map (·.2.1) <+: Spec.changes (s.watch.sent.map (·.listen)) := by
  obtain ⟨c, h1, h2, -⟩ := sim_reachable h
  have := Process.C85 _ (Whole.abs_reachable h1).2
  rw [show (Whole.abs (s.rest c)).cli = c from rfl, h2.same.sent] at this
  exact this

/-- C105, C76 and C85: when the program has nothing to do, it runs; all of them have been tried, and the last configuration that was sent is
the one that sessions are given and that the server listens for. If the file was not changed without a notification,
the watcher has not stopped, and the file can be read, this is what is in the file. -/
theorem C105_current (s : State) (h : Reachable (step parse bytes) (init path text) s) (ho : s.over = false) (hr : AtRest parse bytes s) :
    s.watch.main = .running ∧ s.sys.server.tried.map (·.2.1) = Spec.changes (s.watch.sent.map (·.listen)) ∧
    ∃ c, s.watch.sent.getLast? = some c ∧ s.dist.lastConfig = some (Process.encode c) ∧ s.sys.server.current = some c.listen ∧
      ServerModel.lastTried s.sys.server = some c.listen ∧
      (s.watch.missed = false → s.watch.call.handler ≠ .ended → ∀ c', CliModel.readServerConfig s.watch.current = some c' → c' = c) := by
  obtain ⟨c, h1, h2, h3⟩ := sim_reachable h
  obtain ⟨hw, hm⟩ := rest_whole h1 h2 h3 ho hr
  have hab := (Whole.abs_reachable h1).2
  have hra := Whole.rest_abs h1 ho hw
  have e1 := Process.C85_rest _ hab ho hra
  obtain ⟨x, k1, k2, k3, k4⟩ := Process.C76 _ hab ho hra
  rw [show (Whole.abs (s.rest c)).cli = c from rfl, h2.same.sent] at e1 k1
  refine ⟨hm, e1, x, k1, k2, k3, k4, fun hmi he c' hc => ?_⟩
  have hs := h2.seen.rest he
  have := (Process.C76_file _ hab ho hra (hs.2.2.trans hmi) (handler_of_rel h2 he) c' (by rw [← hc, ← current_of_rel h2]; rfl)).1
  rw [k2] at this
  simp only [Option.some.injEq] at this
  have := congrArg Process.decode this
  simpa [Process.decode_encode] using this.symm

/-- C105, C84: whoever connects after the program has come to rest with the configuration `c` in the file, which nobody changes, with a
startup packet that `c` admits, and whose session nothing disturbs, has its session when the program has nothing left to do,
with the database of `c`. -/
theorem C105_served (s0 s : State) (h : Reachable (step parse bytes) (init path text) s0) (ho0 : s0.over = false) (hrest0 : AtRest parse bytes s0)
    (hm : s0.watch.missed = false) (hh : s0.watch.call.handler ≠ .ended) (c : CliModel.Config) (hc : CliModel.readServerConfig s0.watch.current = some c)
    (n : Nat) (hnew : s0.sess (.go n) = Pieces.init)
    (acts : List Action) (hrun : run (step parse bytes) s0 acts = some s) (hch : ∀ a ∈ acts, ¬ Changes a)
    (hacts : ∀ x, .rest (.other (.sys (.session (.go n) x))) ∈ acts → FullSession.Undisturbed x) (hwr : .rest (.piece (.go n) .writeStartupFails) ∉ acts)
    (ho : s.over = false) (hrest : AtRest parse bytes s) (conn : Nat) (hconn : s.sys.server.op (.go n) = some (.serveConn conn))
    (settings : ConnectionParams) (hurl : parse (bytes c.databaseURL) = some settings) (m : StartupMessage) (hadm : Spec.Admitted m settings)
    (requests : List Bytes) (pkt more : Bytes) (hr : ∀ b ∈ requests, Spec.SSLRequest b) (hp : Spec.StartupPacket pkt m)
    (hsent : ((s.sess (.go n)).sess.base.conn .client).sent = requests.flatten ++ pkt ++ more) :
    s.sys.server.pc (.go n) = .connRun ∧ (s.sess (.go n)).sess.base.start = .waiting ∧ (s.sess (.go n)).sess.base.proc ≠ .notStarted ∧
    (s.sess (.go n)).sess.dialed = [joinHostPort (settings.get (ascii "host")) (settings.get (ascii "port"))] ∧
    sendMessage (.startup m) <+: ((s.sess (.go n)).sess.base.conn .db).written ∧
    List.replicate requests.length Spec.no <+: ((s.sess (.go n)).sess.base.conn .client).written := by
  obtain ⟨c0, h1, h2, h3⟩ := sim_reachable h
  obtain ⟨acts', c1, k1, k2, k3, k4⟩ := sim_run h3 h2 hrun
  have h1' := h1.trans ⟨acts', k1⟩
  refine Whole.C97_served (s0.rest c0) (s.rest c1) h1 ho0 (rest_whole h1 h2 h3 ho0 hrest0).1 ((h2.seen.rest hh).2.2.trans hm) (handler_of_rel h2 hh) c
    (by rw [← hc, ← current_of_rel h2]; rfl) n hnew acts' k1 (changes_run hrun hch k4) (fun x hx => ?_) (fun hx => ?_) ho
    (rest_whole h1' k2 k3 ho hrest).1 conn hconn settings hurl m hadm requests pkt more hr hp hsent
  · rcases of_shown k4 hx rfl with hy | ⟨_, b, -, -, e⟩
    · exact hacts x hy
    · simp at e
  · rcases of_shown k4 hx rfl with hy | ⟨_, b, -, -, e⟩
    · exact hwr hy
    · simp at e

/-- C105, from end to end (C97_delivered): if its client has sent `k` SSL requests, its startup packet and the messages `ms`, and the
database has sent the messages `ms'`, none of them one that makes gevulot panic, then a session that is open and whose peers
read has brought all of it to the other side when the program has nothing left to do. -/
theorem C105_delivered (s : State) (h : Reachable (step parse bytes) (init path text) s) (ho : s.over = false) (hrest : AtRest parse bytes s) (t : Tid)
    (hrun : (s.sess t).sess.base.proc ≠ .notStarted) (hopen : (s.sess t).sess.base.fired = false)
    (hw : ∀ p m e, (s.sess t).sess.base.outPump p ≠ .exited (some (m, e)))
    (k : Nat) (m : StartupMessage) (ms ms' : List Msg) (hm : Spec.WellFormed (.startup m)) (hv : m.protocolVersion.toNat ≠ 80877103)
    (hms : ∀ x ∈ ms, FullSession.Ordinary x) (hms' : ∀ x ∈ ms', FullSession.Ordinary x)
    (hsent : ((s.sess t).sess.base.conn .client).sent =
      (List.replicate k Spec.sslRequestPacket).flatten ++ Spec.wire (.startup m) ++ ms.flatMap Spec.wire)
    (hsent' : ((s.sess t).sess.base.conn .db).sent = ms'.flatMap Spec.wire) :
    ((s.sess t).sess.base.conn .db).written = Spec.wire (.startup m) ++ ms.flatMap Spec.wire ∧
    ((s.sess t).sess.base.conn .client).written = List.replicate k Spec.no ++ ms'.flatMap Spec.wire := by
  obtain ⟨c, h1, h2, h3⟩ := sim_reachable h
  exact Whole.C97_delivered (s.rest c) h1 ho (rest_whole h1 h2 h3 ho hrest).1 t hrun hopen hw k m ms ms' hm hv hms hms' hsent hsent'

/-- C105, how the program ends (C97_end): `main` gives up because `prepareConfigChan` has returned an error, or else the message that a
session has just got in full is one that makes `parseMessage` panic (C19); there is no other way. In particular, nothing that is
done to the configuration file or reported of it ends the program. -/
theorem C105_end (s s' : State) (h : Reachable (step parse bytes) (init path text) s) (a : Action) (hs : step parse bytes s a = some s')
    (ho : s'.over = true) :
    (a = .rest (.other .main) ∧ s.main = .prepare ∧ s.watch.main = .failed) ∨
    ∃ t p n y, a = .rest (.piece t (.read p n)) ∧ parseMessage (.standard (s.rbuf t p ++ ((s.sys.sess t).base.conn p).unread.take n)) = .panic y := by
  obtain ⟨c, h1, h2, h3⟩ := sim_reachable h
  cases a with
  | watch a =>
    exfalso
    obtain ⟨ho', -, w, d, -, k, rfl⟩ := watch_cases hs
    have : d.panicked = s.dist.panicked := by
      cases hx : sends s.watch a with
      | none => rw [hx] at k; simp [Process.also] at k; rw [k]
      | some y => rw [hx] at k; exact produce_alive k
    simp only [State.over, this] at ho ho'
    rw [ho] at ho'
    simp at ho'
  | rest a =>
    obtain ⟨c', k1, -⟩ := sim_rest h2 hs
    rcases Whole.C97_end _ _ h1 a k1 ho with ⟨rfl, k2, kf⟩ | ⟨t, p, n, y, rfl, k2⟩
    · refine .inl ⟨rfl, k2, ?_⟩
      have k2 : s.main = .prepare := k2
      have kf : c.main = .failed := kf
      obtain ⟨-, -, x, w, k3, -, -⟩ := rest_cases hs
      obtain ⟨-, p, hp, -⟩ := Whole.other_cases k3
      obtain ⟨-, q, hq, -⟩ := Process.step_plan hp
      simp only [Process.plan, Process.planMain, State.rest, State.seen, k2] at hq
      cases hwm : s.watch.main with
      | failed => rfl
      | running => rw [(running_of_rel h2).mpr hwm] at kf; simp at kf
      | _ => simp [hwm, seenMain] at hq
    · exact .inr ⟨t, p, n, y, rfl, k2⟩

/-- C105, and it comes to rest: it cannot go on for ever unless a peer does something, a connection comes, or somebody changes the file
or fsnotify reports something. -/
theorem C105_finite (f : Nat → State) (a : Nat → Action) (h0 : Reachable (step parse bytes) (init path text) (f 0)) :
    ¬ ∀ i, Own (a i) ∧ step parse bytes (f i) (a i) = some (f (i + 1)) :=
  fun h => no_infinite f a h0 h

/-! ## Examples -/

open Process (exampleParse exampleBytes prepared started served)

def after (acts : List Action) : State := (run (step exampleParse exampleBytes) (init (some 0) CliModel.oldText) acts).getD (init (some 0) CliModel.oldText)

theorem after_run (acts : List Action) (h : (run (step exampleParse exampleBytes) (init (some 0) CliModel.oldText) acts).isSome) :
    run (step exampleParse exampleBytes) (init (some 0) CliModel.oldText) acts = some (after acts) := by
  obtain ⟨s, hs⟩ := Option.isSome_iff_exists.mp h
  rw [after, hs]; rfl

theorem after_reachable (acts : List Action) (h : (run (step exampleParse exampleBytes) (init (some 0) CliModel.oldText) acts).isSome) :
    Reachable (step exampleParse exampleBytes) (init (some 0) CliModel.oldText) (after acts) := ⟨acts, after_run acts h⟩

theorem after_step (acts : List Action) (a : Action) (h1 : (run (step exampleParse exampleBytes) (init (some 0) CliModel.oldText) acts).isSome)
    (h2 : (run (step exampleParse exampleBytes) (init (some 0) CliModel.oldText) (acts ++ [a])).isSome) :
    step exampleParse exampleBytes (after acts) a = some (after (acts ++ [a])) := by
  have h := after_run _ h2
  obtain ⟨u, h3, h4⟩ := Whole.run_last h
  rw [after_run acts h1] at h3
  cases h3
  exact h4

/-- `prepareConfigChan`. -/
def up : List Action := [.main, .main, .main, .created none, .starter, .starter, .enter, .register true, .added none, .starter, .main].map .watch

/-- The steps of C97's examples after `prepareConfigChan`. -/
def next (acts : List Whole.Action) : List Action := up ++ (acts.drop 4).map .rest

/-- The file is changed, and the change handled, while a session is half way through its handshake. -/
def changed : List Action :=
  next Whole.asking ++ ([.write CliModel.newText, .event, .handle, .handle, .handle].map .watch)

/-- C105, C105_session, C105_listen -/
example : Reachable (step exampleParse exampleBytes) (init (some 0) CliModel.oldText) (after changed) ∧
    (after changed).rbuf (.go 1) .client = (Spec.wire (.startup FullSession.exampleStartup)).take 4 ∧ (after changed).watch.sent = [⟨1, 1⟩, ⟨2, 2⟩] ∧
    (after changed).watch.received = [⟨1, 1⟩] ∧ (after changed).sys.server.tried.map (·.2.1) = [1] :=
  ⟨after_reachable _ (by decide +kernel), by decide +kernel, by decide +kernel, by decide +kernel, by decide +kernel⟩

/-- C105_db -/
example : Reachable (step exampleParse exampleBytes) (init (some 0) CliModel.oldText) (after (next Whole.passing)) ∧
    (after (next Whole.passing)).wrote (.go 1) .db = 5 ∧ ((after (next Whole.passing)).sess (.go 1)).sess.dialed = [ascii "one:5432"] ∧
    (((after (next Whole.passing)).sess (.go 1)).sess.base.conn .db).written = (Spec.wire (.startup FullSession.exampleStartup)).take 5 :=
  ⟨after_reachable _ (by decide +kernel), by decide +kernel, by decide +kernel, by decide +kernel⟩

/-- C105_uri -/
def uriAfter (acts : List Action) : State :=
  (run (step (URLModel.reads none id) fun _ => URLModel.exampleURI) (init (some 0) CliModel.oldText) acts).getD (init (some 0) CliModel.oldText)

theorem uriAfter_reachable (acts : List Action)
    (h : (run (step (URLModel.reads none id) fun _ => URLModel.exampleURI) (init (some 0) CliModel.oldText) acts).isSome) :
    Reachable (step (URLModel.reads none id) fun _ => URLModel.exampleURI) (init (some 0) CliModel.oldText) (uriAfter acts) := by
  obtain ⟨s, hs⟩ := Option.isSome_iff_exists.mp h
  exact ⟨acts, by rw [uriAfter, hs]; rfl⟩

example : Reachable (step (URLModel.reads none id) fun _ => URLModel.exampleURI) (init (some 0) CliModel.oldText) (uriAfter (next Whole.passing)) ∧
    ((uriAfter (next Whole.passing)).sess (.go 1)).sess.dialed = [ascii "[fd00::1]:5433"] :=
  ⟨uriAfter_reachable _ (by decide +kernel), by decide +kernel⟩

/-- C105_end -/
example : let s := after (next Whole.ending)
    let a : Action := .rest (.piece (.go 1) (.read .client 2))
    Reachable (step exampleParse exampleBytes) (init (some 0) CliModel.oldText) s ∧
    step exampleParse exampleBytes s a = some (after (next Whole.ending ++ [a])) ∧ (after (next Whole.ending ++ [a])).over = true :=
  ⟨after_reachable _ (by decide +kernel), after_step _ _ (by decide +kernel) (by decide +kernel), by decide +kernel⟩

/-- `Add` fails. -/
def unwatched : List Action :=
  [.main, .main, .main, .created none, .starter, .starter, .enter, .register false, .added (some 3), .starter, .main].map .watch

example : Reachable (step exampleParse exampleBytes) (init (some 0) CliModel.oldText) (after unwatched) ∧
    step exampleParse exampleBytes (after unwatched) (.rest (.other .main)) = some (after (unwatched ++ [.rest (.other .main)])) ∧
    (after (unwatched ++ [.rest (.other .main)])).over = true :=
  ⟨after_reachable _ (by decide +kernel), after_step _ _ (by decide +kernel) (by decide +kernel), by decide +kernel⟩

/-- C105_finite: any state of the program may stand at the beginning. -/
example : ∃ f : Nat → State, Reachable (step exampleParse exampleBytes) (init (some 0) CliModel.oldText) (f 0) :=
  ⟨fun _ => after changed, after_reachable _ (by decide +kernel)⟩

/-- After `prepareConfigChan`, the program is the one of C97's examples. -/
theorem up_rest : (after up).rest (Process.after prepared).cli = Whole.whole (Process.after prepared) := by with_unfolding_all rfl

theorem up_rel : CliWatch.Rel (after up).watch (Process.after prepared).cli := by
  refine ⟨⟨by decide +kernel, by with_unfolding_all rfl, by decide +kernel, by decide +kernel, by decide +kernel, by decide +kernel, by decide +kernel, by decide +kernel⟩,
    ⟨by decide +kernel, by decide +kernel, fun _ => ⟨by decide +kernel, by decide +kernel, by decide +kernel⟩⟩⟩

/-- Steps of C97's examples are not steps of the watcher's side. -/
def isCli : Process.Action → Bool
  | .cli _ => true
  | _ => false

/-- From there on, the program does what it does in C97's examples. -/
theorem lift_split {s : State} {p p' : Process.State} {acts : List Process.Action} (hrel : CliWatch.Rel s.watch p.cli) (hm : s.watch.main = .running)
    (he : s.rest p.cli = Whole.whole p) (h : run (Process.step exampleParse exampleBytes) p acts = some p') (hh : acts.all Whole.harmless = true)
    (hc : acts.all (fun a => !isCli a) = true) (ho : p'.over = false) :
    ∃ acts' s', run (step exampleParse exampleBytes) s acts' = some s' ∧ s'.rest p'.cli = Whole.whole p' ∧ CliWatch.Rel s'.watch p'.cli ∧
      s'.watch = { s.watch with chan := s'.watch.chan, received := s'.watch.received } ∧
      ∀ a ∈ acts', (∃ b ∈ acts, a = .rest (.other b)) ∨ ∃ t y, a = .rest (.piece t y) ∧ y ≠ .writeStartupFails := by
  obtain ⟨xs, x, k0, k1, -, k3⟩ := Whole.split_run (Whole.possible_of_run h fun a hx q => Whole.possible_of_harmless (List.all_eq_true.mp hh a hx) q)
  rw [k3 ho, ← he] at k1
  have hr : ∀ a ∈ xs, replaced a = false := by
    intro a ha
    rcases k0 a ha with ⟨b, hb, rfl⟩ | ⟨t, y, rfl, -⟩
    · have := List.all_eq_true.mp hc b hb
      cases b <;> simp_all [isCli, replaced]
    · rfl
  obtain ⟨s', c', k4, k5, k6, k7⟩ := lift_run hr hrel hm k1
  have hcc : p'.cli = c' := congrArg (fun x : Whole.State => x.proc.cli) k5
  subst hcc
  refine ⟨_, s', k4, k5.symm, k6, k7, fun a ha => ?_⟩
  obtain ⟨b, hb, rfl⟩ := List.mem_map.mp ha
  rcases k0 b hb with ⟨d, hd, rfl⟩ | ⟨t, y, rfl, hy⟩
  · exact .inl ⟨d, hd, rfl⟩
  · refine .inr ⟨t, y, rfl, fun e => ?_⟩
    obtain ⟨k, hk⟩ := hy e
    have := List.all_eq_true.mp hh _ hk
    simp [Whole.harmless] at this

/-- The watcher has nothing to do, then. -/
theorem watch_rest {s : State} (h : s.watch = { (after up).watch with chan := s.watch.chan, received := s.watch.received }) (hc : s.watch.chan = []) :
    CliWatch.AtRest s.watch := by
  have key : ∀ {α : Type} (f : CliWatch.State → α) {v : α}, f { (after up).watch with chan := s.watch.chan, received := s.watch.received } = v → f s.watch = v :=
    fun f v hv => by rw [h]; exact hv
  refine CliWatch.rest_of _ (key (·.main) (by with_unfolding_all rfl)) hc (key (·.onWrite) (by with_unfolding_all rfl)) (key (·.call.queue) (by with_unfolding_all rfl))
    (.inl ⟨⟨some 0, key (·.call.handler) (by with_unfolding_all rfl)⟩, key (·.call.starter) (by with_unfolding_all rfl)⟩)

/-- The program has been started and has nothing to do. -/
theorem up_started : ∃ s, Reachable (step exampleParse exampleBytes) (init (some 0) CliModel.oldText) s ∧
    s.rest (Process.after started).cli = Whole.whole (Process.after started) ∧ CliWatch.Rel s.watch (Process.after started).cli ∧
    s.watch = { (after up).watch with chan := s.watch.chan, received := s.watch.received } ∧ AtRest exampleParse exampleBytes s := by
  obtain ⟨acts, s, h1, h2, h3, h4, -⟩ := lift_split up_rel (by decide +kernel) up_rest
    (Process.after_append prepared (started.drop 4) (by decide +kernel) (by decide +kernel)) (by decide +kernel) (by decide +kernel) (by decide +kernel)
  refine ⟨s, (after_reachable up (by decide +kernel)).trans ⟨acts, h1⟩, h2, h3, h4, ?_⟩
  refine rest_of_whole h3 ?_ (watch_rest h4 (by rw [← h3.same.chan]; decide +kernel))
  exact h2 ▸ Whole.started_rest

/-- C105_current: the program has been started and has nothing to do. -/
example : ∃ s, Reachable (step exampleParse exampleBytes) (init (some 0) CliModel.oldText) s ∧ s.over = false ∧ AtRest exampleParse exampleBytes s ∧
    s.watch.missed = false ∧ s.watch.call.handler ≠ .ended ∧ CliModel.readServerConfig s.watch.current = some ⟨1, 1⟩ := by
  obtain ⟨s, h1, h2, h3, h4, h5⟩ := up_started
  refine ⟨s, h1, ?_, h5, ?_, ?_, ?_⟩
  · rw [← over_rest s (Process.after started).cli, h2]; decide +kernel
  · rw [h4]; show (after up).watch.missed = false; decide +kernel
  · rw [h4]; show (after up).watch.call.handler ≠ .ended; decide +kernel
  · rw [h4]; show CliModel.readServerConfig (after up).watch.current = _; decide +kernel

/-- C105_served, C105_delivered: a client connects; and it has its session, with a query and an answer. -/
example : ∃ s0 s s', Reachable (step exampleParse exampleBytes) (init (some 0) CliModel.oldText) s0 ∧ s0.over = false ∧ AtRest exampleParse exampleBytes s0 ∧
    s0.watch.missed = false ∧ s0.watch.call.handler ≠ .ended ∧ CliModel.readServerConfig s0.watch.current = some ⟨1, 1⟩ ∧ s0.sess (.go 1) = Pieces.init ∧
    (∃ acts, run (step exampleParse exampleBytes) s0 acts = some s ∧ (∀ a ∈ acts, ¬ Changes a) ∧
      (∀ x, .rest (.other (.sys (.session (.go 1) x))) ∈ acts → FullSession.Undisturbed x) ∧ .rest (.piece (.go 1) .writeStartupFails) ∉ acts) ∧
    s.over = false ∧ AtRest exampleParse exampleBytes s ∧ s.sys.server.op (.go 1) = some (.serveConn 5) ∧
    ((s.sess (.go 1)).sess.base.conn .client).sent = [Spec.sslRequestPacket].flatten ++ Spec.wire (.startup FullSession.exampleStartup) ++ [] ∧
    Reachable (step exampleParse exampleBytes) s s' ∧ s'.over = false ∧ AtRest exampleParse exampleBytes s' ∧
    (s'.sess (.go 1)).sess.base.proc ≠ .notStarted ∧ (s'.sess (.go 1)).sess.base.fired = false ∧
    (∀ p, (s'.sess (.go 1)).sess.base.outPump p = .recv) ∧
    ((s'.sess (.go 1)).sess.base.conn .client).sent =
      (List.replicate 1 Spec.sslRequestPacket).flatten ++ Spec.wire (.startup FullSession.exampleStartup) ++ [Msg.query (ascii "hi")].flatMap Spec.wire ∧
    ((s'.sess (.go 1)).sess.base.conn .db).sent = [Msg.commandComplete (ascii "OK")].flatMap Spec.wire := by
  obtain ⟨s0, h1, h2, h3, h4, h5⟩ := up_started
  have hm : s0.watch.main = .running := (running_of_rel h3).mp (by decide +kernel)
  obtain ⟨acts, s, k1, k2, k3, k4, k5⟩ := lift_split h3 hm h2 (Process.after_append started served (by decide +kernel) (by decide +kernel)) (by decide +kernel)
    (by decide +kernel) (by decide +kernel)
  have k4' : s.watch = { (after up).watch with chan := s.watch.chan, received := s.watch.received } := by rw [k4, h4]
  obtain ⟨acts', s', l1, l2, l3, l4, -⟩ := lift_split k3 ((running_of_rel k3).mp (by decide +kernel)) k2
    (Process.after_append (started ++ served) (Whole.relayed.drop (started ++ served).length) (by decide +kernel) (by decide +kernel)) (by decide +kernel)
    (by decide +kernel) (by decide +kernel)
  have l4' : s'.watch = { (after up).watch with chan := s'.watch.chan, received := s'.watch.received } := by rw [l4, k4']
  have e0 : ∀ t, s0.sess t = (Whole.whole (Process.after started)).sess t := fun t => by rw [← h2, sess_rest]
  have e1 : ∀ t, s.sess t = (Whole.whole (Process.after (started ++ served))).sess t := fun t => by rw [← k2, sess_rest]
  have e2 : ∀ t, s'.sess t = (Whole.whole (Process.after Whole.relayed)).sess t := fun t => (sess_rest s' _ t).symm.trans (congrArg (Whole.State.sess · t) l2)
  have o : ∀ (s : State) p, s.rest p.cli = Whole.whole p → p.over = false → s.over = false := fun s p he ho => by
    rw [← over_rest s p.cli, he]; exact ho
  refine ⟨s0, s, s', h1, o _ _ h2 (by decide +kernel), h5, ?_, ?_, ?_, ?_, ⟨acts, k1, ?_, ?_, ?_⟩, o _ _ k2 (by decide +kernel), ?_, ?_, ?_, ⟨acts', l1⟩,
    o _ _ l2 (by decide +kernel), ?_, ?_, ?_, ?_, ?_, ?_⟩
  · rw [h4]; show (after up).watch.missed = false; decide +kernel
  · rw [h4]; show (after up).watch.call.handler ≠ .ended; decide +kernel
  · rw [h4]; show CliModel.readServerConfig (after up).watch.current = _; decide +kernel
  · rw [e0]; with_unfolding_all rfl
  · intro a ha hc
    rcases k5 a ha with ⟨b, -, rfl⟩ | ⟨t, y, rfl, -⟩ <;> exact hc
  · intro x hx
    rcases k5 _ hx with ⟨b, hb, e⟩ | ⟨t, y, e, -⟩
    · cases e
      simp [served, Process.asking, Process.dialled] at hb
      rcases hb with rfl | rfl | rfl | rfl | rfl | rfl | rfl | rfl <;> simp [FullSession.Undisturbed]
    · simp at e
  · intro hx
    rcases k5 _ hx with ⟨b, -, e⟩ | ⟨t, y, e, hy⟩
    · simp at e
    · cases e; exact hy rfl
  · exact rest_of_whole k3 (k2 ▸ Whole.served_rest) (watch_rest k4' (by rw [← k3.same.chan]; decide +kernel))
  · rw [show s.sys = (Process.after (started ++ served)).sys from congrArg (fun x : Whole.State => x.proc.sys) k2]; decide +kernel
  · rw [e1]; decide +kernel
  · refine rest_of_whole l3 (l2 ▸ ?_) (watch_rest l4' (by rw [← l3.same.chan]; decide +kernel))
    exact Whole.rest_whole (Process.after_reachable _ (by decide +kernel)) (by decide +kernel) (Process.rest_after (by decide +kernel))
      (Whole.unread_after (by decide +kernel) (by decide +kernel))
  · rw [e2]; decide +kernel
  · rw [e2]; decide +kernel
  · intro p; rw [e2]; cases p <;> decide +kernel
  · rw [e2]; decide +kernel
  · rw [e2]; decide +kernel

end Gevulot.Program
