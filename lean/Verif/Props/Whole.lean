import Verif.Proofs.WholeConverse
import Verif.Props.Pieces
import Verif.Props.Served

/-!
# C97: the whole program, piece by piece

`s` ranges over every state that the program can reach if each `Read` returns as many or as few bytes as it likes, and each `Write` takes
as long as it likes (Model/Whole.lean).
-/

namespace Gevulot.Whole

open ServerModel (Tid PC)
open SessionModel (Peer)

variable {parse : Bytes → Option ConnectionParams} {bytes : Nat → Bytes} {path : Option Nat} {text : Nat → CliModel.Text}

/-- C97: the program looks like one in which every message is read in one step and written in one step (C73–C77, C84, C85): the two
differ in messages of which a part was read or written, and in nothing else. -/
theorem C97 (s : State) (h : Reachable (step parse bytes) (init path text) s) :
    ∃ t, Reachable (Process.step parse bytes) (Process.init path text) t ∧ Spec.ProgramLooksLike s t :=
  ⟨abs s, (abs_reachable h).2, abs_looksLike (abs_reachable h).1⟩

/-- C97, the other way round: whatever the program can do in which every message is read in one step and written in one step, it can
do piece by piece, and then nothing is left half read or half written, unless it has crashed. -/
theorem C97_all (t : Process.State) (acts : List Process.Action) (h : PossibleRun parse bytes (Process.init path text) acts t) :
    ∃ s, Reachable (step parse bytes) (init path text) s ∧ Spec.ProgramLooksLike s t ∧
      (t.over = false → s = { proc := t, rbuf := fun _ _ => [], wrote := fun _ _ => 0 }) := by
  obtain ⟨acts', s, -, h1, h2, h3⟩ := split_run h
  have hr : Reachable (step parse bytes) (init path text) s := ⟨acts', h1⟩
  exact ⟨s, hr, h2 ▸ abs_looksLike (abs_reachable hr).1, h3⟩

/-- A step of the program, seen by one session. -/
theorem session_of_step {s s' : State} {a : Action} (h : Reachable (step parse bytes) (init path text) s) (hs : step parse bytes s a = some s') (t : Tid) :
    s'.sess t = s.sess t ∨ ∃ x, Pieces.step parse (s.sess t) x = some (s'.sess t) := by
  cases a with
  | piece u a =>
    obtain ⟨ho, ha, x, hx, rfl⟩ := piece_cases hs
    rw [congrFun (set_sess s u x _) t]
    by_cases ht : t = u
    · subst ht; exact .inr ⟨a, by rw [upd_same]; exact hx⟩
    · exact .inl (upd_other _ _ ht)
  | other a =>
    obtain ⟨hrep, p, hp, rfl⟩ := other_cases hs
    obtain ⟨-, q, hq, -, -, h3, -⟩ := Process.step_plan hp
    cases hb : q.sys with
    | none =>
      rw [hb] at h3; simp only [Process.also, Option.some.injEq] at h3
      exact .inl (by simp only [State.sess, h3])
    | some b =>
      rw [hb] at h3
      obtain ⟨-, ⟨_, _, -, -, -, e⟩ | ⟨u, _, -, hu, -⟩ | ⟨u, b', x, rfl, -, h1, e⟩⟩ := System.step_cases h3
      · exact .inl (by simp only [State.sess, e])
      · have hr := (abs_reachable h).2
        have := (System.link_of_reachable (Process.parts_reachable hr).2.2).before (.inl (Process.linked_of_reachable hr).link.up.1)
        rw [show s.proc.sys.toClose = [] from this.1] at hu; simp at hu
      · simp only [State.sess, e]
        by_cases ht : t = u
        · subst ht
          refine .inr ⟨.other b', ?_⟩
          have hnr : Pieces.replaced b' = false := by
            cases a with
            | sys a =>
              simp only [Process.plan, Process.planSys] at hq
              repeat' split at hq
              all_goals first
                | (simp at hq; done)
                | (simp only [Option.some.injEq] at hq; subst hq; simp at hb; done)
                | (simp only [Option.some.injEq] at hq; subst hq; simp at hb; obtain ⟨rfl, rfl⟩ := hb; exact hrep)
            | gotten u =>
              simp only [Process.plan] at hq
              split at hq
              · simp only [Option.some.injEq] at hq; subst hq
                simp at hb
                rw [← hb.2]; rfl
              · simp at hq
            | _ =>
              exfalso
              simp only [Process.plan, Process.planCli, Process.planDist, Process.planMain] at hq
              repeat' split at hq
              all_goals first | (simp at hq; done) | (simp only [Option.some.injEq] at hq; subst hq; simp at hb)
          have hc := FullSession.alive h1
          simp only [Pieces.step, hc, hnr, h1, upd_same, Option.map_some, Bool.false_eq_true, if_false]
        · exact .inl (by rw [upd_other _ _ ht])

/-- C97, and every session of the program is a session as in C96, so that C96 and its corollaries hold of it. -/
theorem C97_session (s : State) (h : Reachable (step parse bytes) (init path text) s) (t : Tid) :
    Reachable (Pieces.step parse) Pieces.init (s.sess t) := by
  refine (h.invariant (fun s => Reachable (step parse bytes) (init path text) s ∧ Reachable (Pieces.step parse) Pieces.init (s.sess t))
    ⟨Reachable.refl _, Reachable.refl _⟩ ?_).2
  rintro s a s' ⟨hr, hk⟩ hs
  refine ⟨hr.next hs, ?_⟩
  rcases session_of_step hr hs t with e | ⟨x, hx⟩
  · rw [e]; exact hk
  · exact hk.next hx

/-- C97, what databases get, to the last byte: whatever was written to the database of a session, or the address it was dialled at, is
due to a configuration that was read from the file, and to a client that this configuration admits; it got the beginning of the startup message and of
what the client sent after it. -/
theorem C97_db (s : State) (h : Reachable (step parse bytes) (init path text) s) (t : Tid)
    (hd : (s.sess t).sess.dialed ≠ [] ∨ ((s.sess t).sess.base.conn .db).written ≠ []) :
    ∃ (c : CliModel.Config) (x : Option CliModel.Text) (requests : List Bytes) (pkt relayed rest : Bytes) (m : StartupMessage) (settings : ConnectionParams) (ms : List Msg),
      x ∈ s.proc.cli.reads ∧ x ∈ s.proc.cli.history ∧ CliModel.readServerConfig x = some c ∧ parse (bytes c.databaseURL) = some settings ∧
      (∀ b ∈ requests, Spec.SSLRequest b) ∧ Spec.StartupPacket pkt m ∧ Spec.Admitted m settings ∧
      ((s.sess t).sess.base.conn .client).sent = requests.flatten ++ pkt ++ relayed ∧ Spec.Stream relayed ms rest ∧
      (s.sess t).sess.dialed = [joinHostPort (settings.get (ascii "host")) (settings.get (ascii "port"))] ∧
      ((s.sess t).sess.base.conn .db).written <+: sendMessage (.startup m) ++ ms.flatMap sendMessage := by
  obtain ⟨requests, pkt, relayed, rest, url, m, settings, ms, h1, h2, h3, h4, h5, h6, h7, h8, h9⟩ := Pieces.C96_db _ (C97_session s h t) hd
  obtain ⟨hi, hr⟩ := abs_reachable h
  have hcfg : ((abs s).sys.sess t).configs = (s.sess t).sess.configs := (Pieces.abs_looksLike (hi t)).configs
  obtain ⟨c, -, e, x, hxr, hx, hx'⟩ := Process.C74_told (abs s) hr t (some url) (by rw [hcfg, h5]; simp)
  simp only [Option.some.injEq] at e
  subst e
  exact ⟨c, x, requests, pkt, relayed, rest, m, settings, ms, hxr, hx, hx', h6, h1, h2, h7, h3, h4, h8, h9⟩

/-- C97, how the program ends: `main` gives up because the configuration could not be read when it was started (C73), or else the
message that a session has just got in full is one that makes `parseMessage` panic (C19); there is no other way. -/
theorem C97_end (s s' : State) (h : Reachable (step parse bytes) (init path text) s) (a : Action) (hs : step parse bytes s a = some s')
    (ho : s'.proc.over = true) :
    (a = .other .main ∧ s.proc.main = .prepare ∧ s.proc.cli.main = .failed) ∨
    ∃ t p n y, a = .piece t (.read p n) ∧ parseMessage (.standard (s.rbuf t p ++ ((s.proc.sys.sess t).base.conn p).unread.take n)) = .panic y :=
  ends h hs ho

/-- C97, and it comes to rest: it cannot go on for ever unless a peer does something, a connection comes, or somebody changes the file. -/
theorem C97_finite (f : Nat → State) (a : Nat → Action) (h0 : Reachable (step parse bytes) (init path text) (f 0)) :
    ¬ ∀ i, Own (a i) ∧ step parse bytes (f i) (a i) = some (f (i + 1)) :=
  fun h => no_infinite f a h0 h

/-- At rest, a session is as it looks like, but for what it has read and not used. -/
theorem rest_session {s : State} (h : Reachable (step parse bytes) (init path text) s) (ho : s.proc.over = false) (hr : AtRest parse bytes s) (t : Tid) :
    (abs s).sys.sess t = { (s.sess t).sess with base := { (s.sess t).sess.base with conn := fun p =>
      { (s.sess t).sess.base.conn p with unread := s.rbuf t p ++ ((s.sess t).sess.base.conn p).unread } } } :=
  Pieces.abs_same (s := s.sess t) (rest_wrote h ho hr t)

theorem new_abs {s : State} {t : Tid} (h : s.sess t = Pieces.init) : (abs s).sys.sess t = FullSession.init := by
  show Pieces.abs (s.sess t) = _
  rw [h, show Pieces.init = Pieces.whole FullSession.init from rfl, Pieces.abs_whole]

/-- C97, C84: whoever connects after the program has come to rest with the configuration `c` in the file, which nobody changes, with a
startup packet that `c` admits, and whose session nothing disturbs, has its session when the program has nothing left to do,
with the database of `c`, however the bytes come. -/
theorem C97_served (s0 s : State) (h : Reachable (step parse bytes) (init path text) s0) (ho0 : s0.proc.over = false) (hrest0 : AtRest parse bytes s0)
    (hm : s0.proc.cli.missed = false) (hh : s0.proc.cli.handler ≠ .stopped) (c : CliModel.Config) (hc : CliModel.readServerConfig s0.proc.cli.current = some c)
    (n : Nat) (hnew : s0.sess (.go n) = Pieces.init)
    (acts : List Action) (hrun : run (step parse bytes) s0 acts = some s) (hch : ∀ a ∈ acts, ¬ Changes a)
    (hacts : ∀ x, .other (.sys (.session (.go n) x)) ∈ acts → FullSession.Undisturbed x) (hwr : .piece (.go n) .writeStartupFails ∉ acts)
    (ho : s.proc.over = false) (hrest : AtRest parse bytes s) (conn : Nat) (hconn : s.proc.sys.server.op (.go n) = some (.serveConn conn))
    (settings : ConnectionParams) (hurl : parse (bytes c.databaseURL) = some settings) (m : StartupMessage) (hadm : Spec.Admitted m settings)
    (requests : List Bytes) (pkt more : Bytes) (hr : ∀ b ∈ requests, Spec.SSLRequest b) (hp : Spec.StartupPacket pkt m)
    (hsent : ((s.sess (.go n)).sess.base.conn .client).sent = requests.flatten ++ pkt ++ more) :
    s.proc.sys.server.pc (.go n) = .connRun ∧ (s.sess (.go n)).sess.base.start = .waiting ∧ (s.sess (.go n)).sess.base.proc ≠ .notStarted ∧
    (s.sess (.go n)).sess.dialed = [joinHostPort (settings.get (ascii "host")) (settings.get (ascii "port"))] ∧
    sendMessage (.startup m) <+: ((s.sess (.go n)).sess.base.conn .db).written ∧
    List.replicate requests.length Spec.no <+: ((s.sess (.go n)).sess.base.conn .client).written := by
  have h' := h.trans ⟨acts, hrun⟩
  obtain ⟨acts', k1, k2⟩ := sim_run h hrun
  have e := rest_session h' ho hrest (.go n)
  have key := Process.C84_file (abs s0) (abs s) (abs_reachable h).2 ho0 (rest_abs h ho0 hrest0) hm hh c hc n (new_abs hnew) acts' k1
    (changes_run hch k2) (undisturbed_run hacts hwr k2) ho (rest_abs h' ho hrest) conn hconn settings hurl m hadm requests pkt more hr hp
    (by rw [e]; exact hsent)
  rw [e] at key
  exact key

/-- C97, from end to end: if its client has sent `k` SSL requests, its startup packet and the messages `ms`, and the database has sent
the messages `ms'`, none of them one that makes gevulot panic, then a session that is open and whose peers read has brought
all of it to the other side when the program has nothing left to do. -/
theorem C97_delivered (s : State) (h : Reachable (step parse bytes) (init path text) s) (ho : s.proc.over = false) (hrest : AtRest parse bytes s) (t : Tid)
    (hrun : (s.sess t).sess.base.proc ≠ .notStarted) (hopen : (s.sess t).sess.base.fired = false)
    (hw : ∀ p m e, (s.sess t).sess.base.outPump p ≠ .exited (some (m, e)))
    (k : Nat) (m : StartupMessage) (ms ms' : List Msg) (hm : Spec.WellFormed (.startup m)) (hv : m.protocolVersion.toNat ≠ 80877103)
    (hms : ∀ x ∈ ms, FullSession.Ordinary x) (hms' : ∀ x ∈ ms', FullSession.Ordinary x)
    (hsent : ((s.sess t).sess.base.conn .client).sent =
      (List.replicate k Spec.sslRequestPacket).flatten ++ Spec.wire (.startup m) ++ ms.flatMap Spec.wire)
    (hsent' : ((s.sess t).sess.base.conn .db).sent = ms'.flatMap Spec.wire) :
    ((s.sess t).sess.base.conn .db).written = Spec.wire (.startup m) ++ ms.flatMap Spec.wire ∧
    ((s.sess t).sess.base.conn .client).written = List.replicate k Spec.no ++ ms'.flatMap Spec.wire := by
  obtain ⟨hi, hr⟩ := abs_reachable h
  have hsys := (Process.parts_reachable hr).2.2
  have hset := System.settled_session (s := (abs s).sys) (Process.over_false ho).2.2 (Process.rest_settled hr (s := abs s) ho (rest_abs h ho hrest)) t
  have e := rest_session h ho hrest t
  have hsess := System.session_reachable hsys t
  rw [e] at hset hsess
  have hb : ∀ a, SessionModel.Action.isSession a = true → FullSession.isHandshake a = false →
      SessionModel.step { (s.sess t).sess.base with conn := fun p =>
        { (s.sess t).sess.base.conn p with unread := s.rbuf t p ++ ((s.sess t).sess.base.conn p).unread } } a = none := by
    intro a h1 h2
    have := hset (.base a) h1
    simp only [FullSession.step, h2] at this
    simpa using this
  exact FullSession.C68_complete _ hsess (sess_alive h ho t) hopen hrun hw
    ⟨fun p => ⟨hb _ rfl rfl, hb _ rfl rfl, hb _ rfl rfl, hb _ rfl rfl, hb _ rfl rfl⟩, hb _ rfl rfl⟩ k m ms ms' hm hv hms hms' hsent hsent'

/-! ## Examples -/

open Process (exampleParse exampleBytes started served)

def after (acts : List Action) : State := (run (step exampleParse exampleBytes) (init (some 0) CliModel.oldText) acts).getD (init (some 0) CliModel.oldText)

theorem after_run (acts : List Action) (h : (run (step exampleParse exampleBytes) (init (some 0) CliModel.oldText) acts).isSome) :
    run (step exampleParse exampleBytes) (init (some 0) CliModel.oldText) acts = some (after acts) := by
  obtain ⟨s, hs⟩ := Option.isSome_iff_exists.mp h
  rw [after, hs]; rfl

theorem after_reachable (acts : List Action) (h : (run (step exampleParse exampleBytes) (init (some 0) CliModel.oldText) acts).isSome) :
    Reachable (step exampleParse exampleBytes) (init (some 0) CliModel.oldText) (after acts) := ⟨acts, after_run acts h⟩

theorem after_step (acts : List Action) (a : Action) (h1 : (run (step exampleParse exampleBytes) (init (some 0) CliModel.oldText) acts).isSome)
    (h2 : (run (step exampleParse exampleBytes) (init (some 0) CliModel.oldText) (acts ++ [a])).isSome) :
    step exampleParse exampleBytes (after acts) a = some (after (acts ++ [a])) := by
  have h := after_run _ h2
  obtain ⟨u, h3, h4⟩ := run_last h
  rw [after_run acts h1] at h3
  cases h3
  exact h4

/-- The SSL request comes in two pieces, the startup packet in three. -/
def asking : List Action :=
  ((started ++ ([.sys (.server (.accept (.go 0) (.conn 5))), .sys (.server (.thread (.go 0))), .sys (.server (.thread (.go 1))), .sys (.server (.thread (.go 1))),
    .sys (.server (.thread (.go 1))), .sys (.session (.go 1) (.base (.peerSends .client (Spec.sslRequestPacket ++ Spec.wire (.startup FullSession.exampleStartup))))),
    .sys (.session (.go 1) (.base .callStart))] : List Process.Action)).map .other) ++
  [.piece (.go 1) (.readStartup 4), .piece (.go 1) (.readStartup 4), .other (.sys (.session (.go 1) (.reply true))),
    .piece (.go 1) (.readStartup 3), .piece (.go 1) (.readStartup 1)]

/-- It is passed on in two. -/
def passing : List Action :=
  asking ++ [.piece (.go 1) (.readStartup ((Spec.wire (.startup FullSession.exampleStartup)).length - 4))] ++
  (([.get (.go 1), .dist (.thread (Process.getter (.go 1))), .dist (.thread (Process.getter (.go 1))), .gotten (.go 1), .sys (.session (.go 1) (.dial true)),
    .sys (.session (.go 1) .assign)] : List Process.Action).map .other) ++ [.piece (.go 1) (.writeStartup 5)]

/-- Of a `RowDescription` of -1 columns, two bytes are missing. -/
def ending : List Action :=
  passing ++ [.piece (.go 1) (.writeStartup ((Spec.wire (.startup FullSession.exampleStartup)).length - 5)),
    .other (.sys (.session (.go 1) (.base (.peerSends .client [84, 0, 0, 0, 6, 255, 255])))), .piece (.go 1) (.read .client 5)]

/-- C97, C97_session, C97_db: in mid packet, and in mid message. -/
example : Reachable (step exampleParse exampleBytes) (init (some 0) CliModel.oldText) (after asking) ∧
    (after asking).rbuf (.go 1) .client = (Spec.wire (.startup FullSession.exampleStartup)).take 4 :=
  ⟨after_reachable _ (by decide +kernel), by decide +kernel⟩

example : Reachable (step exampleParse exampleBytes) (init (some 0) CliModel.oldText) (after passing) ∧ (after passing).wrote (.go 1) .db = 5 ∧
    ((after passing).sess (.go 1)).sess.dialed = [ascii "one:5432"] ∧
    (((after passing).sess (.go 1)).sess.base.conn .db).written = (Spec.wire (.startup FullSession.exampleStartup)).take 5 :=
  ⟨after_reachable _ (by decide +kernel), by decide +kernel, by decide +kernel, by decide +kernel⟩

/-- No step of this kind is an impossible one. -/
def harmless : Process.Action → Bool
  | .sys (.session _ (.base (.outWrite _ (some _)))) => false
  | .sys (.session _ (.startup (some _))) => false
  | _ => true

theorem possible_of_harmless {a : Process.Action} (h : harmless a = true) (q : Process.State) : Possible q a := by
  unfold harmless at h
  split at h
  · simp at h
  · simp at h
  · rename_i h1 h2
    unfold Possible
    split
    · rename_i t a
      unfold Pieces.Possible
      split
      · exact absurd rfl (h1 _ _ _)
      · exact absurd rfl (h2 _ _)
      · trivial
    · trivial

/-- C97_all: the program of C84's example. -/
theorem served_possible (acts : List Process.Action) (h : (run Process.exampleStep Process.exampleInit acts).isSome) (ha : acts.all harmless = true) :
    PossibleRun exampleParse exampleBytes (Process.init (some 0) CliModel.oldText) acts (Process.after acts) :=
  possible_of_run (Process.after_run acts h) fun a hx q => possible_of_harmless (List.all_eq_true.mp ha a hx) q

example : PossibleRun exampleParse exampleBytes (Process.init (some 0) CliModel.oldText) (started ++ served) (Process.after (started ++ served)) :=
  served_possible _ (by decide +kernel) (by decide +kernel)

/-- C97_end: a session gets the end of a message that makes it panic; and `main` gives up. -/
example : let s := after ending
    Reachable (step exampleParse exampleBytes) (init (some 0) CliModel.oldText) s ∧
    step exampleParse exampleBytes s (.piece (.go 1) (.read .client 2)) = some (after (ending ++ [.piece (.go 1) (.read .client 2)])) ∧
    (after (ending ++ [.piece (.go 1) (.read .client 2)])).proc.over = true :=
  ⟨after_reachable _ (by decide +kernel), after_step _ _ (by decide +kernel) (by decide +kernel), by decide +kernel⟩

def unwatched : List Action := [.other (.cli .main), .other (.cli .main), .other (.cli (.add false))]

example : Reachable (step exampleParse exampleBytes) (init (some 0) CliModel.oldText) (after unwatched) ∧
    step exampleParse exampleBytes (after unwatched) (.other .main) = some (after (unwatched ++ [.other .main])) ∧
    (after (unwatched ++ [.other .main])).proc.over = true :=
  ⟨after_reachable _ (by decide +kernel), after_step _ _ (by decide +kernel) (by decide +kernel), by decide +kernel⟩

/-- C97_finite: any state of the program may stand at the beginning. -/
example : ∃ f : Nat → State, Reachable (step exampleParse exampleBytes) (init (some 0) CliModel.oldText) (f 0) :=
  ⟨fun _ => after asking, after_reachable _ (by decide +kernel)⟩

theorem readError_none {c : SessionModel.PeerConn} (h : SessionModel.tryRecv c = none) : Pieces.readError c = none := by
  unfold SessionModel.tryRecv at h
  unfold Pieces.readError
  split at h
  · simp at h
  · rename_i ho
    rw [if_neg ho]
    split at h
    · simp at h
    · rename_i he; simp [he]

theorem readError_none_startup {c : SessionModel.PeerConn} (h : FullSession.tryRecvStartup c = none) : Pieces.readError c = none := by
  unfold FullSession.tryRecvStartup at h
  unfold Pieces.readError
  split at h
  · simp at h
  · rename_i ho
    rw [if_neg ho]
    split at h
    · simp at h
    · rename_i he; simp [he]

/-- Nothing is left to be read, so the program is at rest if it is reading message by message. -/
theorem rest_whole {p : Process.State} (hR : Reachable (Process.step parse bytes) (Process.init path text) p) (ho : p.over = false)
    (hr : Process.AtRest parse bytes p) (hu : ∀ t q, ((p.sys.sess t).base.conn q).unread = []) : AtRest parse bytes (whole p) := by
  have hsys := (Process.parts_reachable hR).2.2
  have hcr := (Process.over_false ho).2.2
  have hset := System.settled_session hcr (Process.rest_settled hR ho hr)
  intro a ha
  cases a with
  | other a =>
    simp only [step]
    split
    · rfl
    · rw [show (whole p).proc = p from rfl, hr a ha]; rfl
  | piece t a =>
    have hs := System.session_reachable hsys t
    have hc : (p.sys.sess t).base.crashed = false := (System.link_of_reachable hsys).crashed hcr |>.2.2 t
    have hb : ∀ a, SessionModel.Action.isSession a = true → FullSession.isHandshake a = false → SessionModel.step (p.sys.sess t).base a = none := by
      intro a h1 h2
      have := hset t (.base a) h1
      simp only [FullSession.step, h2] at this
      simpa using this
    have hw : ∀ q m, (p.sys.sess t).base.outPump q ≠ .write m := by
      intro q m hm
      have := hb (.outWrite q (some (0, .io 0))) rfl rfl
      simp [SessionModel.step, hc, hm] at this
    have hh := FullSession.settled_hs _ hs hc (hset t)
    have hin := fun q => hb (.inRecv q) rfl rfl
    have : Pieces.step parse ((whole p).sess t) a = none ∨ ∃ b, a = .other b := by
      cases a with
      | other b => exact .inr ⟨b, rfl⟩
      | read q n => left; simp [Pieces.step, sess_whole, Pieces.whole, hc, hu]; omega
      | readFails q =>
        left
        by_cases hq : (p.sys.sess t).base.inPump q = .recv
        · have := hin q
          simp only [SessionModel.step, hc, hq, Bool.false_eq_true, if_false, if_true] at this
          have hn : SessionModel.tryRecv ((p.sys.sess t).base.conn q) = none := by
            cases hx : SessionModel.tryRecv ((p.sys.sess t).base.conn q) with
            | none => rfl
            | some y => rw [hx] at this; obtain ⟨y, r⟩ := y; cases y <;> simp at this
          simp [Pieces.step, sess_whole, Pieces.whole, hc, hq, readError_none hn]
        · simp [Pieces.step, sess_whole, Pieces.whole, hc, hq]
      | readStartup n => left; rcases hh with hh | ⟨hh, -⟩ <;> simp [Pieces.step, sess_whole, Pieces.whole, hc, hh, hu]; omega
      | readStartupFails =>
        left
        rcases hh with hh | ⟨hh, hn⟩
        · simp [Pieces.step, sess_whole, Pieces.whole, hc, hh]
        · simp [Pieces.step, sess_whole, Pieces.whole, hc, hh, readError_none_startup hn]
      | write q n =>
        left
        simp only [Pieces.step, sess_whole, Pieces.whole, hc]
        split
        · rfl
        · split
          · rename_i m hm; exact absurd hm (hw q m)
          · rfl
      | writeFails q e =>
        left
        simp only [Pieces.step, sess_whole, Pieces.whole, hc]
        split
        · rfl
        · split
          · rename_i m hm; exact absurd hm (hw q m)
          · rfl
      | writeStartup n => left; rcases hh with hh | ⟨hh, -⟩ <;> simp [Pieces.step, sess_whole, Pieces.whole, hc, hh]
      | writeStartupFails => left; rcases hh with hh | ⟨hh, -⟩ <;> simp [Pieces.step, sess_whole, Pieces.whole, hc, hh]
    rcases this with h1 | ⟨b, rfl⟩
    · cases a with
      | other b => rfl
      | _ => simp only [step, ho, h1, show (whole p).proc = p from rfl]; rfl
    · rfl

/-- Nothing was sent that was not read. -/
theorem unread_after {acts : List Process.Action} (h : Process.restful acts = true)
    (hu : [Tid.user 0, .go 0, .go 1].all (fun t => (((Process.after acts).sys.sess t).base.conn .client).unread.isEmpty &&
      (((Process.after acts).sys.sess t).base.conn .db).unread.isEmpty) = true) (t : Tid) (q : Peer) :
    (((Process.after acts).sys.sess t).base.conn q).unread = [] := by
  by_cases ht : t ∈ [Tid.user 0, .go 0, .go 1]
  · have := List.all_eq_true.mp hu t ht
    simp only [Bool.and_eq_true, List.isEmpty_iff] at this
    cases q
    · exact this.1
    · exact this.2
  · simp only [Process.restful, Bool.and_eq_true] at h
    have hR := Process.after_run acts (by simp only [h])
    have hx := (System.untouched (Process.run_sysActs hR) t (fun hx => ht (by simpa using List.all_eq_true.mp h.1.1.1.1.1.1.1.1.1.1.1.1.1.2 t hx))).1
    rw [hx]
    cases q <;> rfl

/-- The program that was started, and the program with a session, at rest. -/
theorem started_rest : AtRest exampleParse exampleBytes (whole (Process.after started)) :=
  rest_whole (Process.after_reachable _ (by decide +kernel)) (by decide +kernel) (Process.rest_after (by decide +kernel))
    (unread_after (by decide +kernel) (by decide +kernel))

theorem served_rest : AtRest exampleParse exampleBytes (whole (Process.after (started ++ served))) :=
  rest_whole (Process.after_reachable _ (by decide +kernel)) (by decide +kernel) Process.served_rest
    (unread_after (by decide +kernel) (by decide +kernel))

/-- C97_served: the program has been started and has nothing to do; a client connects, and so on. -/
example : let s0 := whole (Process.after started)
    let s := whole (Process.after (started ++ served))
    Reachable (step exampleParse exampleBytes) (init (some 0) CliModel.oldText) s0 ∧ s0.proc.over = false ∧ AtRest exampleParse exampleBytes s0 ∧
    s0.proc.cli.missed = false ∧ s0.proc.cli.handler ≠ .stopped ∧ CliModel.readServerConfig s0.proc.cli.current = some ⟨1, 1⟩ ∧
    s0.sess (.go 1) = Pieces.init ∧
    (∃ acts, run (step exampleParse exampleBytes) s0 acts = some s ∧ (∀ a ∈ acts, ¬ Changes a) ∧
      (∀ x, .other (.sys (.session (.go 1) x)) ∈ acts → FullSession.Undisturbed x) ∧ .piece (.go 1) .writeStartupFails ∉ acts) ∧
    s.proc.over = false ∧ AtRest exampleParse exampleBytes s ∧ s.proc.sys.server.op (.go 1) = some (.serveConn 5) ∧
    ((s.sess (.go 1)).sess.base.conn .client).sent = [Spec.sslRequestPacket].flatten ++ Spec.wire (.startup FullSession.exampleStartup) ++ [] := by
  refine ⟨?_, by decide +kernel, started_rest, by decide +kernel, by decide +kernel, by decide +kernel, by with_unfolding_all rfl, ?_, by decide +kernel, served_rest,
    by decide +kernel, by decide +kernel⟩
  · obtain ⟨acts, s, -, h1, -, h3⟩ := split_run (served_possible started (by decide +kernel) (by decide +kernel))
    exact ⟨acts, by rw [← h3 (by decide +kernel)]; exact h1⟩
  · obtain ⟨acts, s, h0, h1, -, h3⟩ := split_run (possible_of_run (Process.after_append started served (by decide +kernel) (by decide +kernel))
      fun a hx q => possible_of_harmless (List.all_eq_true.mp (by decide +kernel : served.all harmless = true) a hx) q)
    rw [h3 (by decide +kernel)] at h1
    refine ⟨acts, h1, fun a ha hc => ?_, fun x hx => ?_, fun hx => ?_⟩
    · rcases h0 a ha with ⟨b, hb, rfl⟩ | ⟨t, y, rfl, -⟩
      · have : ∀ b ∈ served, ¬ Process.Changes b := by simp [served, Process.asking, Process.dialled, Process.Changes]
        exact this b hb hc
      · exact hc
    · rcases h0 _ hx with ⟨b, hb, e⟩ | ⟨t, y, e, -⟩
      · cases e
        simp [served, Process.asking, Process.dialled] at hb
        rcases hb with rfl | rfl | rfl | rfl | rfl | rfl | rfl | rfl <;> simp [FullSession.Undisturbed]
      · simp at e
    · rcases h0 _ hx with ⟨b, hb, e⟩ | ⟨t, y, e, hy⟩
      · simp at e
      · cases e
        obtain ⟨k, hk⟩ := hy rfl
        simp [served, Process.asking, Process.dialled] at hk

/-- A query, and an answer. -/
def relayed : List Process.Action :=
  started ++ served ++ ([.base (.peerSends .client SessionModel.queryBytes), .base (.peerSends .db (Spec.wire (.commandComplete (ascii "OK")))),
    .base (.inRecv .client), .base (.inSend .client), .base (.procRecv .client), .base .procSend, .base (.outRecv .db), .base (.outWrite .db none),
    .base (.inRecv .db), .base (.inSend .db), .base (.procRecv .db), .base .procSend, .base (.outRecv .client), .base (.outWrite .client none)].map
    fun a => .sys (.session (.go 1) a))

/-- C97_delivered -/
example : let s := whole (Process.after relayed)
    Reachable (step exampleParse exampleBytes) (init (some 0) CliModel.oldText) s ∧ s.proc.over = false ∧ AtRest exampleParse exampleBytes s ∧
    (s.sess (.go 1)).sess.base.proc ≠ .notStarted ∧ (s.sess (.go 1)).sess.base.fired = false ∧
    (∀ p, (s.sess (.go 1)).sess.base.outPump p = .recv) ∧
    ((s.sess (.go 1)).sess.base.conn .client).sent =
      (List.replicate 1 Spec.sslRequestPacket).flatten ++ Spec.wire (.startup FullSession.exampleStartup) ++ [Msg.query (ascii "hi")].flatMap Spec.wire ∧
    ((s.sess (.go 1)).sess.base.conn .db).sent = [Msg.commandComplete (ascii "OK")].flatMap Spec.wire ∧
    FullSession.Ordinary (.query (ascii "hi")) ∧ FullSession.Ordinary (.commandComplete (ascii "OK")) := by
  refine ⟨?_, by decide +kernel, rest_whole (Process.after_reachable _ (by decide +kernel)) (by decide +kernel) (Process.rest_after (by decide +kernel))
    (unread_after (by decide +kernel) (by decide +kernel)), by decide +kernel, by decide +kernel, fun p => by cases p <;> decide +kernel, by decide +kernel,
    by decide +kernel, ⟨by decide +kernel, by simp, by decide⟩, ⟨by decide +kernel, by simp, by decide⟩⟩
  obtain ⟨acts, s, -, h1, -, h3⟩ := split_run (served_possible relayed (by decide +kernel) (by decide +kernel))
  exact ⟨acts, by rw [← h3 (by decide +kernel)]; exact h1⟩

end Gevulot.Whole
