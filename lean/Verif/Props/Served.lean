import Verif.Props.Admission
import Verif.Props.Process

/-!
# C84: whoever is admitted by what is in the file gets its session

C83, in the whole program.
-/

namespace Gevulot

namespace System

open ServerModel (Tid PC)

/-- A goroutine that serves a connection ends when its session has ended, or because the server is shut down. -/
theorem done_step {s s' : ServerModel.State} {a : ServerModel.Action} (hi : ServerModel.Inv s) (hs : ServerModel.step s a = some s') (t : Tid)
    (ho : isConn (s'.op t) = true) (hd : s'.pc t = .done ∨ ∃ r, s'.pc t = .returned r) :
    (s.pc t = .done ∨ ∃ r, s.pc t = .returned r) ∨ (s.pc t).ended = true ∨ s.shutdown = true := by
  have hf := hi.fit t
  have hx := hi.go.fresh s.spawned
  simp only [Nat.le_refl, iff_true] at hx
  have e1 : ∀ op, ServerModel.entry op ≠ .done := by intro op; cases op <;> simp [ServerModel.entry]
  have e2 : ∀ op r, ServerModel.entry op ≠ .returned r := by intro op; cases op <;> simp [ServerModel.entry]
  clear hi
  server_cases hs <;> grind [upd_apply, PC.ended, isConn, PC.fits]

end System

namespace Process

open ServerModel (Tid PC)

variable {parse : Bytes → Option ConnectionParams} {bytes : Nat → Bytes} {path : Option Nat} {text : Nat → CliModel.Text}

/-- At rest, the server and its sessions are. -/
theorem rest_settled {s : State} (h : Reachable (step parse bytes) (init path text) s) (ho : s.over = false) (hr : AtRest parse bytes s) :
    System.Settled parse s.sys := by
  have hx := rest_of_reachable h ho hr
  have hl := (linked_of_reachable h).link
  have hi := ServerModel.inv_of_reachable (System.server_reachable (parts_reachable h).2.2)
  intro a ha
  cases hq : System.step parse s.sys a with
  | none => rfl
  | some sys =>
    exfalso
    have hp : (planSys s a).isSome := by
      cases a with
      | closeNext t => rfl
      | server b =>
        cases b with
        | thread t =>
          have hn : s.sys.server.pc t ≠ .startSubscribe := by
            intro hpc
            have hf := hi.fit t
            rw [hpc] at hf
            cases t with
            | user n =>
              obtain ⟨rfl, -⟩ := hl.users n _ hf
              rw [hx.loop] at hpc; simp at hpc
            | go n => exact (hl.goes n _ hf).1 rfl
          simp [planSys, hn]
        | _ => first | rfl | exact absurd ha (by simp [System.Internal])
      | session t b =>
        cases b with
        | getConfig r =>
          exfalso
          obtain ⟨-, ⟨_, _, e, _⟩ | ⟨_, _, e, _⟩ | ⟨u, b, x, e, -, h1, -⟩⟩ := System.step_cases hq
          · simp at e
          · simp at e
          · simp only [System.Action.session.injEq] at e
            obtain ⟨rfl, rfl⟩ := e
            simp only [FullSession.step] at h1
            split at h1
            · rename_i m hm; exact hx.sessions _ _ hm
            · simp at h1
        | _ => rfl
    exact rest_step hr (a := .sys a) ha (free_sys h ho hp (by simp [hq]))

/-- A step of the program, seen by one session. -/
theorem session_of_step {s s' : State} {a : Action} (h : Reachable (step parse bytes) (init path text) s) (hs : step parse bytes s a = some s') (t : Tid) :
    s'.sys.sess t = s.sys.sess t ∨
    ∃ x, FullSession.step parse (s.sys.sess t) x = some (s'.sys.sess t) ∧ (a = .sys (.session t x) ∨ ∃ r, x = .getConfig r) := by
  obtain ⟨-, p, hp, -, -, h3, -⟩ := step_plan hs
  cases hq : p.sys with
  | none => rw [hq] at h3; simp only [also, Option.some.injEq] at h3; rw [h3]; exact .inl rfl
  | some b =>
    rw [hq] at h3
    obtain ⟨-, ⟨_, _, -, -, -, e⟩ | ⟨u, _, -, hu, -⟩ | ⟨u, b', x, rfl, -, h1, e⟩⟩ := System.step_cases h3
    · rw [e]; exact .inl rfl
    · have := (System.link_of_reachable (parts_reachable h).2.2).before (.inl (linked_of_reachable h).link.up.1)
      rw [this.1] at hu; simp at hu
    · rw [e]
      by_cases ht : t = u
      · subst ht
        refine .inr ⟨b', by simpa [upd_apply] using h1, ?_⟩
        cases a with
        | sys a =>
          refine .inl ?_
          simp only [plan, planSys] at hp
          repeat' split at hp
          all_goals first | (simp at hp; done) | (simp only [Option.some.injEq] at hp; subst hp; simp at hq; done) | (simp only [Option.some.injEq] at hp; subst hp; simp at hq; obtain ⟨rfl, rfl⟩ := hq; rfl)
        | gotten u =>
          refine .inr ?_
          simp only [plan] at hp
          split at hp
          · simp only [Option.some.injEq] at hp; subst hp
            simp at hq
            exact ⟨_, hq.2.symm⟩
          · simp at hp
        | _ =>
          exfalso
          simp only [plan, planCli, planDist, planMain] at hp
          repeat' split at hp
          all_goals first | (simp at hp; done) | (simp only [Option.some.injEq] at hp; subst hp; simp at hq)
      · exact .inl (by simp [upd_apply, ht])

theorem session_of_run {s s' : State} {acts : List Action} (h : Reachable (step parse bytes) (init path text) s)
    (hr : run (step parse bytes) s acts = some s') (t : Tid) :
    ∃ xs, run (FullSession.step parse) (s.sys.sess t) xs = some (s'.sys.sess t) ∧ ∀ x ∈ xs, .sys (.session t x) ∈ acts ∨ ∃ r, x = .getConfig r := by
  induction acts generalizing s with
  | nil => simp only [run, Option.some.injEq] at hr; subst hr; exact ⟨[], rfl, by simp⟩
  | cons a acts ih =>
    simp only [run] at hr
    cases hx : step parse bytes s a with
    | none => rw [hx] at hr; simp at hr
    | some y =>
      rw [hx] at hr
      obtain ⟨xs, h1, h2⟩ := ih (h.next hx) hr
      rcases session_of_step h hx t with e | ⟨x, h3, h4⟩
      · exact ⟨xs, e ▸ h1, fun x hx => (h2 x hx).imp (List.mem_cons_of_mem _) id⟩
      · refine ⟨x :: xs, by simp only [run, h3]; exact h1, ?_⟩
        intro z hz
        rcases List.mem_cons.mp hz with rfl | hz
        · rcases h4 with rfl | h4
          · exact .inl (by simp)
          · exact .inr h4
        · exact (h2 z hz).imp (List.mem_cons_of_mem _) id

/-- A goroutine that has served a connection has called `Start`. -/
theorem done_called {s : State} (h : Reachable (step parse bytes) (init path text) s) (t : Tid) (ho : System.isConn (s.sys.server.op t) = true)
    (hd : s.sys.server.pc t = .done ∨ ∃ r, s.sys.server.pc t = .returned r) : (s.sys.sess t).base.start = .returned := by
  revert t
  refine (h.invariant (fun s => Reachable (step parse bytes) (init path text) s ∧ ∀ t, System.isConn (s.sys.server.op t) = true →
    (s.sys.server.pc t = .done ∨ ∃ r, s.sys.server.pc t = .returned r) → (s.sys.sess t).base.start = .returned) ⟨Reachable.refl _, by simp [init, System.init, ServerModel.init]⟩ ?_).2
  rintro s a s' ⟨hr, hk⟩ hs
  refine ⟨hr.next hs, fun t ho hd => ?_⟩
  have hv := (parts_reachable hr).2.2
  have hi := ServerModel.inv_of_reachable (System.server_reachable hv)
  obtain ⟨-, p, -, -, -, h3, -⟩ := step_plan hs
  cases hq : p.sys with
  | none =>
    rw [hq] at h3; simp only [also, Option.some.injEq] at h3
    rw [← h3] at ho hd ⊢
    exact hk t ho hd
  | some b =>
    rw [hq] at h3
    obtain ⟨-, ⟨b', srv, rfl, -, hb, e⟩ | ⟨u, x, -, hu, -⟩ | ⟨u, b', x, rfl, -, h1, e⟩⟩ := System.step_cases h3
    · rw [e] at ho hd ⊢
      rcases System.done_step hi hb t ho hd with h4 | h4 | h4
      · refine hk t ?_ h4
        rw [System.op_step hi.go hb t (fun hn => ?_)] at ho
        · exact ho
        · have := hi.fit t
          rcases h4 with h4 | ⟨r, h4⟩ <;> rw [h4] at this
          · exact this hn
          · exact ServerModel.fits_ne_none this hn
      · exact (System.link_of_reachable hv).ended t h4
      · rw [(linked_of_reachable hr).link.up.1] at h4; simp at h4
    · have := (System.link_of_reachable hv).before (.inl (linked_of_reachable hr).link.up.1)
      rw [this.1] at hu; simp at hu
    · rw [e] at ho hd ⊢
      have h4 := hk t ho hd
      by_cases ht : t = u
      · subst ht
        by_cases hc : b' = .base .callStart
        · subst hc
          rw [(System.callStart_frame h1).1] at h4; simp at h4
        · simpa [upd_apply] using ((System.session_frame h1).1 hc).2 h4
      · simpa [upd_apply, ht] using h4

/-- C84: a connection `conn` has been accepted; its client has sent SSL requests and then a startup packet `m`, of protocol 3.0; the
configurations that its session was given (C74_told: they have been read from the file) admit `m`; nothing goes wrong between
the session and its peers. Then, when the program has nothing left to do, the client has its session: `ServeConn` is running
it, the database of one of the configurations read was dialled, once, and what it got begins with `m`. -/
theorem C84 (s0 s : State) (h : Reachable (step parse bytes) (init path text) s0) (n : Nat) (hnew : s0.sys.sess (.go n) = FullSession.init)
    (acts : List Action) (hrun : run (step parse bytes) s0 acts = some s) (hacts : ∀ x, .sys (.session (.go n) x) ∈ acts → FullSession.Undisturbed x)
    (ho : s.over = false) (hrest : AtRest parse bytes s) (conn : Nat) (hconn : s.sys.server.op (.go n) = some (.serveConn conn))
    (m : StartupMessage) (hconf : ∀ r ∈ (s.sys.sess (.go n)).configs, ∃ url settings, r = some url ∧ parse url = some settings ∧ Spec.Admitted m settings)
    (requests : List Bytes) (pkt more : Bytes) (hr : ∀ b ∈ requests, Spec.SSLRequest b) (hp : Spec.StartupPacket pkt m)
    (hv : m.protocolVersion.toNat = 196608) (hsent : ((s.sys.sess (.go n)).base.conn .client).sent = requests.flatten ++ pkt ++ more) :
    s.sys.server.pc (.go n) = .connRun ∧ (s.sys.sess (.go n)).base.start = .waiting ∧ (s.sys.sess (.go n)).base.proc ≠ .notStarted ∧
    (∃ c ∈ s.cli.sent, ∃ settings, parse (bytes c.databaseURL) = some settings ∧ (s.sys.sess (.go n)).configs = [some (bytes c.databaseURL)] ∧
      (s.sys.sess (.go n)).dialed = [joinHostPort (settings.get (ascii "host")) (settings.get (ascii "port"))]) ∧
    sendMessage (.startup m) <+: ((s.sys.sess (.go n)).base.conn .db).written ∧
    List.replicate requests.length Spec.no <+: ((s.sys.sess (.go n)).base.conn .client).written := by
  have h' := h.trans ⟨acts, hrun⟩
  have hsys := (parts_reachable h').2.2
  have hi := ServerModel.inv_of_reachable (System.server_reachable hsys)
  obtain ⟨-, -, hc⟩ := over_false ho
  have hset := rest_settled h' ho hrest
  have hspawned : n < s.sys.server.spawned := by
    refine Decidable.byContradiction fun hn => ?_
    have := (hi.go.opIdle _).mpr ((hi.go.fresh n).mpr (by omega))
    rw [this] at hconn; simp at hconn
  have hgo := System.settled_go hsys hc hset hspawned
  have hfit := hi.fit (.go n)
  have hcalled : (s.sys.sess (.go n)).base.start ≠ .notCalled := by
    rcases hgo with hd | ⟨ln, hd, -⟩ | ⟨-, hd, -⟩
    · rw [done_called h' (.go n) (by rw [hconn]; rfl) (.inl hd)]; simp
    · rw [hd, hconn] at hfit; simp [PC.fits] at hfit
    · exact hd
  obtain ⟨xs, hxs, hin⟩ := session_of_run h hrun (.go n)
  rw [hnew] at hxs
  have key := FullSession.C83 (parse := parse) _ m xs hxs (fun x hx => by
    rcases hin x hx with h1 | ⟨r, rfl⟩
    · exact hacts x h1
    · trivial) hconf requests pkt more hr hp hv hsent
    ((System.link_of_reachable hsys).crashed hc |>.2.2 (.go n)) hcalled (System.settled_session hc hset (.go n))
  obtain ⟨-, k2, k3, ⟨url, settings, k4, k5, k6⟩, k7, k8⟩ := key
  refine ⟨?_, k3, k2, ?_, k7, k8⟩
  · exact (System.link_of_reachable hsys).live _ hcalled (by rw [k3]; simp)
  · obtain ⟨c, hc, e, -⟩ := C74_told s h' (.go n) (some url) (by rw [k4]; simp)
    simp only [Option.some.injEq] at e
    subst e
    exact ⟨c, hc, settings, k5, k4, k6⟩

/-- Only a session that has been started calls `Get`. -/
theorem begun_of_reachable {s : State} (h : Reachable (step parse bytes) (init path text) s) (t : Tid) (ht : s.dist.pc (getter t) ≠ .idle) :
    (s.sys.sess t).base.start ≠ .notCalled := by
  revert t
  refine (h.invariant (fun s => Reachable (step parse bytes) (init path text) s ∧ ∀ t, s.dist.pc (getter t) ≠ .idle → (s.sys.sess t).base.start ≠ .notCalled)
    ⟨Reachable.refl _, by simp [init, DistributorModel.init]⟩ ?_).2
  rintro s a s' ⟨hr, hk⟩ hs
  refine ⟨hr.next hs, ?_⟩
  have hl := linked_of_reachable hr
  have hge0 : ∀ u, getter u ≠ 0 := fun u hu => by have := getter_ge u; omega
  have hsess : ∀ {x x' : FullSession.State} {b : FullSession.Action}, FullSession.step parse x b = some x' → x.base.start ≠ .notCalled → x'.base.start ≠ .notCalled := by
    intro x x' b h1 hx
    by_cases hc : b = .base .callStart
    · subst hc; exact (System.callStart_frame h1).2
    · exact fun hy => hx (((System.session_frame h1).1 hc).1.mp hy)
  have hsys : ∀ {b sys}, System.step parse s.sys b = some sys → ∀ t, (s.sys.sess t).base.start ≠ .notCalled → (sys.sess t).base.start ≠ .notCalled := by
    intro b sys h3 t ht
    obtain ⟨-, ⟨_, _, -, -, -, e⟩ | ⟨u, x, -, -, -, h1, e⟩ | ⟨u, b', x, -, -, h1, e⟩⟩ := System.step_cases h3
    · rw [e]; exact ht
    all_goals
      rw [e]
      by_cases hu : t = u
      · subst hu; simpa [upd_apply] using hsess h1 ht
      · simpa [upd_apply, hu] using ht
  -- the distributor begins no call
  have hdist : ∀ {b dist}, DistributorModel.step s.dist b = some dist → (∀ n op, b ≠ .call n op) → ∀ t, dist.pc (getter t) ≠ .idle → s.dist.pc (getter t) ≠ .idle := by
    intro b dist h2 hb t ht
    obtain ⟨-, htr⟩ := DistributorModel.step_tr h2
    clear h2
    cases htr <;> (try rw [DistributorModel.finishSubscribe_eq] at ht) <;> grind [upd_apply]
  cases move_of_step hr hl hs with
  | cli hr hc hs hm hh h1 => exact hk
  | send ha hc hs h1 h2 => exact fun t ht => hk t (hdist h2 (by simp) t ht)
  | dist ha h2 => exact fun t ht => hk t (hdist h2 (by rcases ha with ⟨t, rfl, -⟩ | ⟨i, rfl⟩ | ⟨i, rfl⟩ | ⟨t, rfl⟩ | ⟨i, t, rfl⟩ <;> simp) t ht)
  | subscribed hpc h2 h3 => exact fun t ht => hsys h3 t (hk t (hdist h2 (by simp) t ht))
  | take h1 h2 => exact fun t ht => hk t (hdist h2 (by simp) t ht)
  | notify hm h2 h3 => exact fun t ht => hsys h3 t (hk t (hdist h2 (by simp) t ht))
  | server hb h3 => exact fun t ht => hsys h3 t (hk t ht)
  | takeConfig h2 h3 => exact fun t ht => hsys h3 t (hk t (hdist h2 (by simp) t ht))
  | session hb hg hv h3 => exact fun t ht => hsys h3 t (hk t ht)
  | start hm hc h3 => exact fun t ht => hsys h3 t (hk t ht)
  | exit hm hc => exact hk
  | subscribe hpc h2 =>
    intro t ht
    refine hk t fun hx => ht ?_
    obtain ⟨-, htr⟩ := DistributorModel.step_tr h2
    have := hge0 t
    clear h2
    cases htr <;> grind [upd_apply]
  | get hh hconn h2 =>
    rename_i u m dist
    intro t ht
    by_cases hu : t = u
    · subst hu
      have hst := (FullSession.hinv_of_reachable (System.session_reachable (parts_reachable hr).2.2 t)).stage
      unfold FullSession.Stage at hst
      simp only [hh] at hst
      rw [hst.1]; simp
    · refine hk t fun hx => ht ?_
      obtain ⟨-, htr⟩ := DistributorModel.step_tr h2
      have : getter t ≠ getter u := fun h => hu (getter_inj h)
      clear h2
      cases htr <;> grind [upd_apply]
  | gotten hpc hv h3 => exact fun t ht => hsys h3 t (hk t ht)

/-- C84, with what is in the file: the program has come to rest with the configuration `c` in the file, which nobody changes; a client
connects after that, with a startup packet that `c` admits, and nothing goes wrong between its session and its peers. Then,
when the program has nothing left to do, the client has its session, with the database of `c`. -/
theorem C84_file (s0 s : State) (h : Reachable (step parse bytes) (init path text) s0) (ho0 : s0.over = false) (hrest0 : AtRest parse bytes s0)
    (hm : s0.cli.missed = false) (hh : s0.cli.handler ≠ .stopped) (c : CliModel.Config) (hc : CliModel.readServerConfig s0.cli.current = some c)
    (n : Nat) (hnew : s0.sys.sess (.go n) = FullSession.init)
    (acts : List Action) (hrun : run (step parse bytes) s0 acts = some s) (hch : ∀ a ∈ acts, ¬ Changes a)
    (hacts : ∀ x, .sys (.session (.go n) x) ∈ acts → FullSession.Undisturbed x)
    (ho : s.over = false) (hrest : AtRest parse bytes s) (conn : Nat) (hconn : s.sys.server.op (.go n) = some (.serveConn conn))
    (settings : ConnectionParams) (hurl : parse (bytes c.databaseURL) = some settings) (m : StartupMessage) (hadm : Spec.Admitted m settings)
    (requests : List Bytes) (pkt more : Bytes) (hr : ∀ b ∈ requests, Spec.SSLRequest b) (hp : Spec.StartupPacket pkt m)
    (hsent : ((s.sys.sess (.go n)).base.conn .client).sent = requests.flatten ++ pkt ++ more) :
    s.sys.server.pc (.go n) = .connRun ∧ (s.sys.sess (.go n)).base.start = .waiting ∧ (s.sys.sess (.go n)).base.proc ≠ .notStarted ∧
    (s.sys.sess (.go n)).dialed = [joinHostPort (settings.get (ascii "host")) (settings.get (ascii "port"))] ∧
    sendMessage (.startup m) <+: ((s.sys.sess (.go n)).base.conn .db).written ∧
    List.replicate requests.length Spec.no <+: ((s.sys.sess (.go n)).base.conn .client).written := by
  have hidle : s0.dist.pc (getter (.go n)) = .idle := Classical.byContradiction fun hx =>
    begun_of_reachable h (.go n) hx (by rw [hnew]; rfl)
  obtain ⟨-, -, -, htold⟩ := C76_stays s0 s h ho0 hrest0 hm hh c hc acts hch hrun
  have htold := htold _ hidle
  obtain ⟨h1, h2, h3, ⟨c', -, settings', h4, h5, h6⟩, h7, h8⟩ := C84 s0 s h n hnew acts hrun hacts ho hrest conn hconn m
    (fun r hr => ⟨_, settings, htold r hr, hurl, hadm⟩) requests pkt more hr hp hadm.1 hsent
  have := htold (some (bytes c'.databaseURL)) (by rw [h5]; simp)
  simp only [Option.some.injEq] at this
  rw [this, hurl] at h4
  simp only [Option.some.injEq] at h4
  subst h4
  exact ⟨h1, h2, h3, h6, h7, h8⟩

/-! ## Example -/

/-- The session of `asking` and `dialled` is running. -/
def served : List Action := asking ++ dialled ++ [.sys (.session (.go 1) .assign), .sys (.session (.go 1) (.startup none))]

/-- The steps of the server and its sessions in an execution of the program. -/
def sysActs (parse : Bytes → Option ConnectionParams) (bytes : Nat → Bytes) : State → List Action → List System.Action
  | _, [] => []
  | s, a :: acts =>
    match plan bytes s a, step parse bytes s a with
    | some p, some s' => p.sys.toList ++ sysActs parse bytes s' acts
    | _, _ => []

theorem run_sysActs {s s' : State} {acts : List Action} (h : run (step parse bytes) s acts = some s') :
    run (System.step parse) s.sys (sysActs parse bytes s acts) = some s'.sys := by
  induction acts generalizing s with
  | nil => simp only [run, Option.some.injEq] at h; subst h; rfl
  | cons a acts ih =>
    simp only [run] at h
    cases hx : step parse bytes s a with
    | none => rw [hx] at h; simp at h
    | some y =>
      rw [hx] at h
      obtain ⟨-, p, hp, -, -, h3, -⟩ := step_plan hx
      simp only [sysActs, hp, hx]
      cases hq : p.sys with
      | none =>
        rw [hq] at h3; simp only [also, Option.some.injEq] at h3
        rw [h3]
        exact ih h
      | some b =>
        rw [hq] at h3
        simp only [also] at h3
        simp only [Option.toList, List.cons_append, List.nil_append, run, h3]
        exact ih h

/-- The program is at rest when its parts are. -/
theorem atRest_of {s : State} (hR : Reachable (step parse bytes) (init path text) s) (hsys : System.Settled parse s.sys)
    (hs0 : ∀ t, s.dist.pc t = .idle ∨ ∃ r, s.dist.pc t = .returned r) (hm0 : ∀ i, s.dist.mon i = .select ∨ s.dist.mon i = .notStarted)
    (c1 : s.cli.main = .running) (c2 : s.cli.handler = .select) (c3 : s.cli.queue = []) (c4 : s.dist.source = []) (c5 : s.main = .start)
    (c6 : s.sys.server.pc (.user 0) = .startLoop) (c7 : s.dist.sourceClosed = false) (c8 : s.dist.closed = false)
    (hses : ∀ t m, (s.sys.sess t).hs ≠ .config m) : AtRest parse bytes s := by
  have hl := linked_of_reachable hR
  intro a ha
  cases hx : step parse bytes s a with
  | none => rfl
  | some s' =>
    exfalso
    cases move_of_step hR hl hx with
    | cli hr hc hs hm hh h1 =>
      rcases ha with rfl | ⟨ok, rfl⟩ | rfl | rfl | rfl <;> simp [CliModel.step, c1, c2, c3] at h1
    | send hb hc hs h1 h2 => rcases hb with ⟨-, hb⟩ | ⟨-, hb⟩ <;> simp [c1, c2] at hb
    | dist hb h2 =>
      rcases hb with ⟨t, rfl, -⟩ | ⟨i, rfl⟩ | ⟨i, rfl⟩ | ⟨t, rfl⟩ | ⟨i, t, rfl⟩
      · rcases hs0 t with h0 | ⟨r, h0⟩ <;> simp [DistributorModel.step, h0] at h2
      · rcases hm0 i with h0 | h0 <;> simp [DistributorModel.step, h0] at h2
      · rcases hm0 i with h0 | h0 <;> simp [DistributorModel.step, h0, c8] at h2
      · rcases hs0 t with h0 | ⟨r, h0⟩ <;> simp [DistributorModel.step, h0] at h2
      · rcases hm0 i with h0 | h0 <;> simp [DistributorModel.step, h0] at h2
    | @subscribed t n ks dist sys hpc h2 h3 => rcases hs0 t with h0 | ⟨r, h0⟩ <;> rw [h0] at hpc <;> simp at hpc
    | @take i cli dist h1 h2 => rcases hm0 i with h0 | h0 <;> simp [DistributorModel.step, h0, c4, c7] at h2
    | @notify i _ _ _ _ _ _ hm h2 h3 => rcases hm0 i with h0 | h0 <;> rw [h0] at hm <;> simp at hm
    | server hb h3 => rw [hsys _ ha] at h3; simp at h3
    | @takeConfig k dist sys h2 h3 => rw [hsys (.server (.takeConfig k)) ha] at h3; simp at h3
    | session hb hg hv h3 => rw [hsys _ ha] at h3; simp at h3
    | start hm => rw [c5] at hm; simp at hm
    | exit hm => rw [c5] at hm; simp at hm
    | subscribe hpc => rw [c6] at hpc; simp at hpc
    | @get t m dist hh => exact hses t m hh
    | @gotten t c sys hpc hv h3 =>
      rw [hsys (.session t (.getConfig _)) (.inr trivial)] at h3
      simp at h3

/-- Neither is waiting for the other, as a computation. -/
def quiet : DistributorModel.PC → FullSession.HsPC → Bool
  | _, .config _ => false
  | .idle, _ => true
  | .returned _, _ => true
  | _, _ => false

theorem quiet_call {x : DistributorModel.PC} {y : FullSession.HsPC} (h : quiet x y = true) : (x = .idle ∨ ∃ r, x = .returned r) ∧ ∀ m, y ≠ .config m := by
  cases y <;> cases x <;> simp_all [quiet]

/-- What has to be computed to see that the program is at rest. -/
def restful (acts : List Action) : Bool :=
  let s := after acts
  let ts := [Tid.user 0, .go 0, .go 1]
  let sys := sysActs exampleParse exampleBytes exampleInit acts
  (run exampleStep exampleInit acts).isSome && (sys.flatMap System.touches).all (· ∈ ts) && (List.range s.sys.server.spawned).all (fun n => .go n ∈ ts) &&
  System.allIdle s.sys ts && ts.all (fun t => quiet (s.dist.pc (getter t)) (s.sys.sess t).hs) && quiet (s.dist.pc 0) .idle &&
  (s.dist.mon 0 = .select : Bool) && (s.cli.main = .running : Bool) && (s.cli.handler = .select : Bool) && s.cli.queue.isEmpty && s.dist.source.isEmpty &&
  (s.main = .start : Bool) && (s.sys.server.pc (.user 0) = .startLoop : Bool) && !s.dist.sourceClosed && !s.dist.closed

theorem rest_after {acts : List Action} (h : restful acts = true) : AtRest exampleParse exampleBytes (after acts) := by
  simp only [restful, Bool.and_eq_true, decide_eq_true_eq, List.isEmpty_iff, Bool.not_eq_true'] at h
  obtain ⟨⟨⟨⟨⟨⟨⟨⟨⟨⟨⟨⟨⟨⟨h0, h1⟩, h2⟩, h3⟩, h4⟩, h5⟩, h6⟩, h7⟩, h8⟩, h9⟩, h10⟩, h11⟩, h12⟩, h13⟩, h14⟩ := h
  have hR := after_run acts h0
  have hr := after_reachable acts h0
  have hl := linked_of_reachable hr
  have hq : ∀ t, ((after acts).dist.pc (getter t) = .idle ∨ ∃ r, (after acts).dist.pc (getter t) = .returned r) ∧
      ∀ m, ((after acts).sys.sess t).hs ≠ .config m := by
    intro t
    by_cases ht : t ∈ [Tid.user 0, .go 0, .go 1]
    · exact quiet_call (List.all_eq_true.mp h4 t ht)
    · have hx := (System.untouched (run_sysActs hR) t (fun hx => ht (by simpa using List.all_eq_true.mp h1 t hx))).1
      refine ⟨.inl (Classical.byContradiction fun hn => begun_of_reachable hr t hn (by rw [hx]; rfl)), fun m => ?_⟩
      rw [hx]
      simp [FullSession.init]
  refine atRest_of hr (System.settled_of_allIdle (run_sysActs hR) _ h1 h2 h3) (fun t => ?_) (fun i => ?_) h7 h8 h9 h10 h11 h12 h13 h14 fun t => (hq t).2
  · match t with
    | 0 => exact (quiet_call h5).1
    | 1 => exact .inl hl.link.idle
    | t + 2 =>
      by_cases he : t % 2 = 0
      · have := (hq (.go (t / 2))).1
        rwa [show getter (.go (t / 2)) = t + 2 by simp only [getter]; omega] at this
      · have := (hq (.user (t / 2))).1
        rwa [show getter (.user (t / 2)) = t + 2 by simp only [getter]; omega] at this
  · by_cases hi : (after acts).dist.mon i = .notStarted
    · exact .inr hi
    · obtain ⟨rfl, -⟩ := mon_zero (DistributorModel.inv_of_reachable (parts_reachable hr).2.1).lock hi
      exact .inl h6

theorem served_rest : AtRest exampleParse exampleBytes (after (started ++ served)) := rest_after (by decide +kernel)

/-- C84, C84_file: the program has been started and has nothing to do; a client connects, and so on. -/
example : let s := after (started ++ served)
    run (step exampleParse exampleBytes) (after started) served = some s ∧ (after started).sys.sess (.go 1) = FullSession.init ∧
    (∀ a ∈ served, ¬ Changes a) ∧ (∀ x, .sys (.session (.go 1) x) ∈ served → FullSession.Undisturbed x) ∧ s.over = false ∧
    AtRest exampleParse exampleBytes s ∧ s.sys.server.op (.go 1) = some (.serveConn 5) ∧
    (∃ settings, exampleParse (exampleBytes 1) = some settings ∧ Spec.Admitted FullSession.exampleStartup settings) ∧
    Spec.SSLRequest Spec.sslRequestPacket ∧ Spec.StartupPacket (Spec.wire (.startup FullSession.exampleStartup)) FullSession.exampleStartup ∧
    ((s.sys.sess (.go 1)).base.conn .client).sent = [Spec.sslRequestPacket].flatten ++ Spec.wire (.startup FullSession.exampleStartup) ++ [] := by
  refine ⟨after_append _ _ (by decide +kernel) (by decide +kernel), by with_unfolding_all rfl, ?_, ?_, by decide +kernel, served_rest, by decide +kernel,
    ⟨_, rfl, by decide, by decide +kernel⟩, ?_, ?_, by decide +kernel⟩
  · simp [served, asking, dialled, Changes]
  · intro x hx
    simp [served, asking, dialled] at hx
    rcases hx with rfl | rfl | rfl | rfl | rfl | rfl | rfl | rfl <;> simp [FullSession.Undisturbed]
  · rw [sslRequestPacket_eq]
    exact ⟨_, FullSession.packet_of_message (by decide +kernel), rfl⟩
  · rw [← sendMessage_eq_wire]
    exact FullSession.packet_of_message (by decide +kernel)

end Process
end Gevulot
