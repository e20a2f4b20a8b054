import Verif.Proofs.ProcessFree

/-!
# C73–C77: the whole program

`s` ranges over every state that the program (Model/Process.lean) can reach by any interleaving of its goroutines, of whoever
writes to the configuration file, and of all clients and databases. `parse` is `pg.ParseDatabaseURI`, `bytes` says which string
a number in a configuration stands for; both are arbitrary. `path` and `text` are the file at the beginning.
-/

namespace Gevulot.Process

open ServerModel (Tid PC)
open DistributorModel (ChanId)

variable {parse : Bytes → Option ConnectionParams} {bytes : Nat → Bytes} {path : Option Nat} {text : Nat → CliModel.Text}

/-! ## C73 The program ends only if it cannot start, or by a panic of a session -/

/-- C73: `Start` never returns, so that neither of the deferred `Close`s is ever called, and neither the server nor the
distributor is ever closed; -/
theorem C73 (s : State) (h : Reachable (step parse bytes) (init path text) s) :
    (∀ r, s.sys.server.pc (.user 0) ≠ .returned r) ∧ s.main ≠ .closeServer ∧ s.main ≠ .closeConfig ∧ (∀ t, s.sys.server.op t ≠ some .close) ∧
    s.sys.server.shutdown = false ∧ s.dist.closed = false := by
  have hl := (linked_of_reachable h).link
  refine ⟨hl.runs, ?_, ?_, fun t ht => ?_, hl.up.1, hl.distUp.1⟩
  · intro hm; have := hl.main; rw [hm] at this; simp at this
  · intro hm; have := hl.main; rw [hm] at this; simp at this
  · cases t with
    | user n => have := (hl.users n _ ht).2.1; simp at this
    | go n => exact (hl.goes n _ ht).2 rfl

/-- the program exits only if the configuration cannot be read, or not be watched, at the beginning, before the server has been
started; -/
theorem C73_exit (s : State) (h : Reachable (step parse bytes) (init path text) s) (hm : s.main = .exited) :
    s.cli.main = .failed ∧ (∀ t, s.sys.server.pc t = .idle) ∧ ∀ t, s.dist.pc t = .idle := by
  have hl := (linked_of_reachable h).link
  have hi := (ServerModel.inv_of_reachable (System.server_reachable (parts_reachable h).2.2))
  have hf : s.cli.main = .failed := by
    rcases hl.main with hx | hx | ⟨-, hx⟩
    · rw [hm] at hx; simp at hx
    · rw [hm] at hx; simp at hx
    · exact hx
  have hu : ∀ n, s.sys.server.pc (.user n) = .idle := by
    intro n
    refine (hi.go.opIdle _).mp ?_
    cases hx : s.sys.server.op (.user n) with
    | none => rfl
    | some op => have := (hl.users n op hx).2.2; rw [hm] at this; simp at this
  have hsub : s.sys.server.subscribed = false := by rw [hl.loop, hu 0]; rfl
  have hlast := (hl.before hsub).2.2.1
  refine ⟨hf, fun t => ?_, fun t => ?_⟩
  · cases t with
    | user n => exact hu n
    | go n => exact (hi.go.fresh n).mpr (by rw [(hl.fresh hlast).2.1]; omega)
  · rcases dist_thread hl t with ⟨rfl, ht⟩ | ⟨-, ht⟩
    · rcases ht with ⟨-, hx⟩ | ⟨-, hx, -⟩ | ⟨hx, -⟩
      · exact hx
      · rw [hu 0] at hx; simp at hx
      · rw [hsub] at hx; simp at hx
    · rcases thread_cases t with rfl | rfl | ⟨u, rfl⟩
      · rcases hl.sub with ⟨-, hx⟩ | ⟨-, hx, -⟩ | ⟨hx, -⟩
        · exact hx
        · rw [hu 0] at hx; simp at hx
        · rw [hsub] at hx; simp at hx
      · exact hl.idle
      · rcases hl.getters u with hx | ⟨-, hx⟩
        · exact hx
        · exact absurd hlast hx

/-- it does exit then, and otherwise starts the server; and it starts the server only when the configuration has been read and is being
watched; -/
theorem C73_begin (s : State) (h : Reachable (step parse bytes) (init path text) s) :
    (s.main = .start → s.cli.main = .running) ∧
    (s.over = false → s.main = .prepare →
      (s.cli.main = .failed → ∃ s', step parse bytes s .main = some s' ∧ s'.main = .exited) ∧
      (s.cli.main = .running → ∃ s', step parse bytes s .main = some s' ∧ s'.main = .start)) := by
  refine ⟨started_running h, fun ho hm => ⟨fun hf => ?_, fun hf => ?_⟩⟩
  · exact ⟨_, by simp only [step, ho, plan, planMain, hm, hf, also]; rfl, rfl⟩
  · have hl := (linked_of_reachable h).link
    have hop : s.sys.server.op (.user 0) = none := by
      cases hx : s.sys.server.op (.user 0) with
      | none => rfl
      | some op => have := (hl.users 0 op hx).2.2; rw [hm] at this; simp at this
    have hi := (ServerModel.inv_of_reachable (System.server_reachable (parts_reachable h).2.2))
    have hpc := (hi.go.opIdle _).mp hop
    have hcr : s.sys.crashed = false := by
      simp only [State.over, Bool.or_eq_false_iff] at ho
      exact ho.2
    have hstep : ∃ sys, System.step parse s.sys (.server (.call 0 .start)) = some sys := by
      simp [System.step, hcr, System.State.allows, ServerModel.step, hpc, hl.up, ServerModel.Op.exists]
    obtain ⟨sys, hsys⟩ := hstep
    exact ⟨_, by simp only [step, ho, plan, planMain, hm, hf, also, hsys]; rfl, rfl⟩

/-- and otherwise ends only by a panic in a session, and only when that receives a malformed message, from its client or its
database (C19). -/
theorem C73_end (s s' : State) (h : Reachable (step parse bytes) (init path text) s) (a : Action) (hs : step parse bytes s a = some s')
    (ho : s'.over = true) :
    (a = .main ∧ s.main = .prepare ∧ s.cli.main = .failed) ∨
    ∃ t p x rest, a = .sys (.session t (.base (.inRecv p))) ∧ SessionModel.tryRecv ((s.sys.sess t).base.conn p) = some (.panic x, rest) := by
  have hl := (linked_of_reachable h).link
  have hl' := (linked_of_reachable (h.next hs)).link
  have ho0 := (step_plan hs).1
  have hsys := (parts_reachable h).2.2
  simp only [State.over, Bool.or_eq_true, decide_eq_true_eq, hl'.distUp.2.2, Bool.false_eq_true, or_false] at ho
  simp only [State.over, Bool.or_eq_false_iff, decide_eq_false_iff_not] at ho0
  have key : ∀ b sys, System.step parse s.sys b = some sys → sys.crashed = true →
      ∃ t p x rest, b = .session t (.base (.inRecv p)) ∧ SessionModel.tryRecv ((s.sys.sess t).base.conn p) = some (.panic x, rest) := by
    intro b sys hb hc
    rcases System.C71_partial _ _ hsys b hb hc with hx | ⟨hx, -⟩
    · exact hx
    · rw [hl.up.1] at hx; simp at hx
  obtain ⟨⟨hm0, -⟩, hc0⟩ := ho0
  cases move_of_step h (linked_of_reachable h) hs with
  | exit hm hc => exact .inl ⟨rfl, hm, hc⟩
  | session hb hg hv h3 =>
    rcases ho with ho | ho
    · exact absurd ho hm0
    · obtain ⟨t, p, x, rest, rfl, hx⟩ := key _ _ h3 ho
      exact .inr ⟨t, p, x, rest, rfl, hx⟩
  | server hb h3 =>
    rcases ho with ho | ho
    · exact absurd ho hm0
    · obtain ⟨t, p, x, rest, hx, -⟩ := key _ _ h3 ho; simp at hx
  | subscribed hpc h2 h3 =>
    rcases ho with ho | ho
    · exact absurd ho hm0
    · obtain ⟨t, p, x, rest, hx, -⟩ := key _ _ h3 ho; simp at hx
  | notify hm h2 h3 =>
    rcases ho with ho | ho
    · exact absurd ho hm0
    · obtain ⟨t, p, x, rest, hx, -⟩ := key _ _ h3 ho; simp at hx
  | takeConfig h2 h3 =>
    rcases ho with ho | ho
    · exact absurd ho hm0
    · obtain ⟨t, p, x, rest, hx, -⟩ := key _ _ h3 ho; simp at hx
  | start hm hc h3 =>
    rcases ho with ho | ho
    · simp at ho
    · obtain ⟨t, p, x, rest, hx, -⟩ := key _ _ h3 ho; simp at hx
  | gotten hpc hv h3 =>
    rcases ho with ho | ho
    · exact absurd ho hm0
    · obtain ⟨t, p, x, rest, hx, -⟩ := key _ _ h3 ho; simp at hx
  | _ =>
    rcases ho with ho | ho
    · exact absurd ho hm0
    · rw [hc0] at ho; simp at ho

/-! ## C74 A session always gets a configuration, at once -/

/-- C74: by the time there is a session, there is a configuration. Its call of `Get` therefore never subscribes or waits for one: it
takes the current configuration, under the lock, and returns it; -/
theorem C74 (s : State) (h : Reachable (step parse bytes) (init path text) s) (t : Tid) :
    s.dist.pc (getter t) = .idle ∨ s.dist.pc (getter t) = .getEnter ∨ s.dist.pc (getter t) = .getSnapshot ∨
    ∃ c ∈ s.cli.sent, s.dist.pc (getter t) = .returned (.config (encode c)) := by
  have hl := (linked_of_reachable h).link
  rcases hl.getters t with hg | ⟨hg | hg | ⟨x, hg⟩, -⟩
  · exact .inl hg
  · exact .inr (.inl hg)
  · exact .inr (.inr (.inl hg))
  · obtain ⟨h1, -, -, h4⟩ := DistributorModel.C43_seen _ _ (parts_reachable h).2.1
    have := h1.subset (h4 _ _ hg)
    rw [hl.produced] at this
    obtain ⟨c, hc, rfl⟩ := List.mem_map.mp this
    exact .inr (.inr (.inr ⟨c, hc, hg⟩))

/-- and what the session has been told is never an error, but the URL of a configuration that has been read. -/
theorem C74_told (s : State) (h : Reachable (step parse bytes) (init path text) s) (t : Tid) (r : Option Bytes) (hr : r ∈ (s.sys.sess t).configs) :
    ∃ c ∈ s.cli.sent, r = some (bytes c.databaseURL) ∧ ∃ x ∈ s.cli.reads, x ∈ s.cli.history ∧ CliModel.readServerConfig x = some c := by
  rcases told_of_reachable h t with h1 | ⟨x, h1, h2⟩
  · rw [h1] at hr; simp at hr
  · rcases C74 s h t with h3 | h3 | h3 | ⟨c, hc, h3⟩ <;> rw [h3] at h1 <;> simp at h1
    subst h1
    rw [h2] at hr
    refine ⟨c, hc, by simpa using hr, ?_⟩
    obtain ⟨-, ⟨next, -, hn⟩, hx⟩ := CliModel.C59 path text s.cli (parts_reachable h).1
    have : c ∈ s.cli.reads.filterMap CliModel.readServerConfig := by rw [← hn]; simp [hc]
    obtain ⟨y, hy, hy'⟩ := List.mem_filterMap.mp this
    exact ⟨y, hy, hx y hy, hy'⟩

/-! ## C75 The program does not lock itself up -/

/-- C75: used the way the program uses it, the distributor never waits for itself (C48) and never sends to a closed channel. -/
theorem C75 (s : State) (h : Reachable (step parse bytes) (init path text) s) : ¬ DistributorModel.Deadlocked s.dist ∧ s.dist.panicked = false := by
  have hl := (linked_of_reachable h).link
  refine ⟨?_, hl.distUp.2.2⟩
  rintro (⟨t, ks, ht, -⟩ | ⟨i, old, new, rem, t, r, -, -, hp⟩)
  · rcases dist_thread hl t with ⟨rfl, ht'⟩ | ⟨-, ht'⟩
    · rcases ht' with ⟨-, hx⟩ | ⟨-, -, hx | hx | hx⟩ | ⟨-, hx⟩ <;> rw [hx] at ht <;> simp at ht
    · rcases ht' with hx | hx | hx | ⟨y, hx⟩ <;> rw [hx] at ht <;> simp at ht
  · rcases dist_thread hl t with ⟨rfl, ht'⟩ | ⟨-, ht'⟩
    · rcases ht' with ⟨-, hx⟩ | ⟨-, -, hx | hx | hx⟩ | ⟨-, hx⟩ <;> rw [hx] at hp <;> simp at hp
    · rcases ht' with hx | hx | hx | ⟨y, hx⟩ <;> rw [hx] at hp <;> simp at hp

/-- C75, and none of the parts waits for another where it could go on by itself: what the watcher, the distributor, the server or
a session can do on its own (and is not left out in the composition, as `plan` says), it can do in the program. In particular
the distributor always gets its configuration to `Start`, or leaves it out, exactly as the model of the server has it. -/
theorem C75_free (s : State) (h : Reachable (step parse bytes) (init path text) s) (ho : s.over = false) :
    (∀ a, (planCli s a).isSome → (CliModel.step s.cli a).isSome → (step parse bytes s (.cli a)).isSome) ∧
    (∀ a, (planDist s a).isSome → (DistributorModel.step s.dist a).isSome → (step parse bytes s (.dist a)).isSome) ∧
    (∀ a, (planSys s a).isSome → (System.step parse s.sys a).isSome → (step parse bytes s (.sys a)).isSome) := by
  refine ⟨fun a hp hs => free_cli h ho ?_ hs, fun a => free_dist h ho, fun a => free_sys h ho⟩
  rintro rfl
  simp [planCli] at hp

/-- C75, when the program has nothing to do: it has been started, no lock is held, no call of the distributor is waiting, no
configuration is on its way, and no session is waiting for one; -/
theorem C75_rest (s : State) (h : Reachable (step parse bytes) (init path text) s) (ho : s.over = false) (hr : AtRest parse bytes s) :
    s.main = .start ∧ s.dist.lock = none ∧ s.sys.locked = false ∧ (∀ t, s.dist.pc t = .idle ∨ ∃ r, s.dist.pc t = .returned r) ∧
    s.cli.chan = [] ∧ s.dist.source = [] ∧ s.dist.mon 0 = .select ∧ s.sys.server.updates = [] ∧ ∀ t m, (s.sys.sess t).hs ≠ .config m := by
  have hx := rest_of_reachable h ho hr
  exact ⟨hx.main, hx.lock, unlocked (linked_of_reachable h) (parts_reachable h).2.2, hx.callers, hx.chan, hx.source, hx.mon, hx.updates, hx.sessions⟩

/-- and it comes to that: from any state, the program can make only a bounded number of steps of its own before it has nothing to
do, or a peer does something, a connection comes, or somebody changes the file. -/
theorem C75_finite (s : State) (h : Reachable (step parse bytes) (init path text) s) :
    ∃ n, ∀ acts s', (∀ a ∈ acts, Own a) → run (step parse bytes) s acts = some s' → acts.length ≤ n := by
  let n := s.sys.server.spawned + baseW s
  refine ⟨weight n s, fun acts s' ha hr => ?_⟩
  have := run_measure Own (weight n) (fun x => Reachable (step parse bytes) (init path text) x ∧ x.sys.server.spawned + baseW x ≤ n) ⟨h, Nat.le_refl _⟩
    (fun x a x' ha hx hs => ⟨hx.1.next hs, Nat.le_trans (weight_step (n := n) hx.1 ha (by have := hx.2; omega) hs).2 hx.2⟩)
    (fun x a x' ha hx hs => (weight_step hx.1 ha (by have := hx.2; omega) hs).1) ha hr
  omega

/-! ## C76 What is in the file comes into force, everywhere, and stays -/

/-- C76: when the program has nothing to do, the last configuration that was read is in force: `Get` returns it, and `Start` has
tried to listen on its address; -/
theorem C76 (s : State) (h : Reachable (step parse bytes) (init path text) s) (ho : s.over = false) (hr : AtRest parse bytes s) :
    ∃ c, s.cli.sent.getLast? = some c ∧ s.dist.lastConfig = some (encode c) ∧ s.sys.server.current = some c.listen ∧
      ServerModel.lastTried s.sys.server = some c.listen := by
  have hx := rest_of_reachable h ho hr
  obtain ⟨c, h1, h2, h3⟩ := rest_last h hx
  exact ⟨c, h1, h2, h3, by rw [ServerModel.C52_tried none _ (System.server_reachable (parts_reachable h).2.2) hx.settled, h3]⟩

/-- and this is what is in the file, if it can be read, was not changed without a notification, and the watcher has not stopped. -/
theorem C76_file (s : State) (h : Reachable (step parse bytes) (init path text) s) (ho : s.over = false) (hr : AtRest parse bytes s)
    (hm : s.cli.missed = false) (hh : s.cli.handler ≠ .stopped) (c : CliModel.Config) (hc : CliModel.readServerConfig s.cli.current = some c) :
    s.dist.lastConfig = some (encode c) ∧ s.sys.server.current = some c.listen ∧ ServerModel.lastTried s.sys.server = some c.listen := by
  have hx := rest_of_reachable h ho hr
  obtain ⟨c', h1, h2⟩ := C76 s h ho hr
  have hsel : s.cli.handler = .select ∧ s.cli.queue = [] := by
    rcases hx.handler with hy | hy | hy
    · exact hy
    · exact absurd hy ((cli_begun (parts_reachable h).1).2 hx.running)
    · exact absurd hy hh
  have h3 := CliModel.C60 path text s.cli (parts_reachable h).1 hx.running hm hsel.1 (by simp [hsel.2]) c hc
  rw [h1] at h3
  simp only [Option.some.injEq] at h3
  exact h3 ▸ h2

/-- C76, and it stays in force: as long as nobody changes the file, whatever else happens, every call of `Get` made from now on by
a session returns this configuration, and the address is not changed again. -/
theorem C76_stays (s s' : State) (h : Reachable (step parse bytes) (init path text) s) (ho : s.over = false) (hr : AtRest parse bytes s)
    (hm : s.cli.missed = false) (hh : s.cli.handler ≠ .stopped) (c : CliModel.Config) (hc : CliModel.readServerConfig s.cli.current = some c)
    (acts : List Action) (ha : ∀ a ∈ acts, ¬ Changes a) (hrun : run (step parse bytes) s acts = some s') :
    s'.dist.lastConfig = some (encode c) ∧ s'.sys.server.current = some c.listen ∧ s'.sys.server.updates = [] ∧
    ∀ t, s.dist.pc (getter t) = .idle → ∀ r ∈ (s'.sys.sess t).configs, r = some (bytes c.databaseURL) := by
  have hx := rest_of_reachable h ho hr
  obtain ⟨h1, h2, -⟩ := C76_file s h ho hr hm hh c hc
  have hsel : s.cli.handler = .select ∧ s.cli.queue = [] := by
    rcases hx.handler with hy | hy | hy
    · exact hy
    · exact absurd hy ((cli_begun (parts_reachable h).1).2 hx.running)
    · exact absurd hy hh
  have hmon : ∀ i, s.dist.mon i = .select ∨ s.dist.mon i = .notStarted := by
    intro i
    by_cases hi : s.dist.mon i = .notStarted
    · exact .inr hi
    · obtain ⟨rfl, -⟩ := mon_zero (DistributorModel.inv_of_reachable (parts_reachable h).2.1).lock hi
      exact .inl hx.mon
  have hst : Steady c s := by
    refine ⟨hc, hx.running, ?_, ?_, ?_, ?_, h1, h2, hx.updates⟩
    · intro x hs; rw [hsel.1] at hs; simp at hs
    · rw [hx.chan]; simp
    · intro i x hi; rcases hmon i with hy | hy <;> rw [hy] at hi <;> simp at hi
    · intro i old x rem hi; rcases hmon i with hy | hy <;> rw [hy] at hi <;> simp at hi
  have key := run_invariant_of (fun a => ¬ Changes a) (fun x => Reachable (step parse bytes) (init path text) x ∧ Steady c x ∧
      ∀ t, s.dist.pc (getter t) = .idle → ∀ y, x.dist.pc (getter t) = .returned (.config y) → y = encode c)
    ⟨h, hst, fun t ht y hy => by rw [ht] at hy; simp at hy⟩
    (fun x a x' ha hk hs => ⟨hk.1.next hs, steady_step hk.1 hk.2.1 ha hs, fun t ht y hy => ?_⟩) ha hrun
  · obtain ⟨k1, k2, k3⟩ := key
    refine ⟨k2.last, k2.shown, k2.updates, fun t ht r hr => ?_⟩
    rcases told_of_reachable k1 t with h4 | ⟨y, h4, h5⟩
    · rw [h4] at hr; simp at hr
    · rw [k3 t ht y h4, decode_encode] at h5
      rw [h5] at hr
      simpa using hr
  · exact returned_last hk.1 hk.2.1.last (hk.2.2 t ht) hs y hy

/-! ## C77 A session talks to the configured database -/

/-- C77: every address that a session dials is the host and port of the URL of a configuration that was in the file at some time
and was read and sent; -/
theorem C77 (s : State) (h : Reachable (step parse bytes) (init path text) s) (t : Tid) (addr : Bytes) (hd : addr ∈ (s.sys.sess t).dialed) :
    ∃ c params x, c ∈ s.cli.sent ∧ x ∈ s.cli.reads ∧ x ∈ s.cli.history ∧ CliModel.readServerConfig x = some c ∧ parse (bytes c.databaseURL) = some params ∧
      addr = joinHostPort (params.get (ascii "host")) (params.get (ascii "port")) := by
  obtain ⟨_, _, _, _, url, _, params, _, -, -, -, -, h1, h2, -, h3, -⟩ :=
    FullSession.C67_db _ (System.session_reachable (parts_reachable h).2.2 t) (.inl (fun hx => by rw [hx] at hd; simp at hd))
  obtain ⟨c, hc, e, x, hxr, hx, hx'⟩ := C74_told s h t (some url) (by rw [h1]; simp)
  simp only [Option.some.injEq] at e
  subst e
  exact ⟨c, params, x, hc, hxr, hx, hx', h2, by rw [h3] at hd; simpa using hd⟩

/-- C77, and not an old one: of the configurations sent, with `n` of them in force when the session had not yet asked for one, it is
number `n - 1` (counting from 0), or a later one. -/
theorem C77_fresh (s s' : State) (h : Reachable (step parse bytes) (init path text) s) (acts : List Action)
    (hr : run (step parse bytes) s acts = some s') (t : Tid) (hcall : s.dist.pc (getter t) = .idle) (addr : Bytes) (hd : addr ∈ (s'.sys.sess t).dialed) :
    ∃ k c params, s'.cli.sent[k]? = some c ∧ (Spec.updates s.dist.hist).length ≤ k + 1 ∧ parse (bytes c.databaseURL) = some params ∧
      addr = joinHostPort (params.get (ascii "host")) (params.get (ascii "port")) := by
  have h' := h.trans ⟨acts, hr⟩
  obtain ⟨_, _, _, _, url, _, params, _, -, -, -, -, h1, h2, -, h3, -⟩ :=
    FullSession.C67_db _ (System.session_reachable (parts_reachable h').2.2 t) (.inl (fun hx => by rw [hx] at hd; simp at hd))
  rcases told_of_reachable h' t with h4 | ⟨x, h4, h5⟩
  · rw [h1] at h4; simp at h4
  · obtain ⟨bs, hbs⟩ := dist_of_run hr
    obtain ⟨k, hk, hn⟩ := DistributorModel.C43 _ _ _ (parts_reachable h).2.1 bs hbs (getter t) hcall x h4
    rw [(linked_of_reachable h').link.produced, List.getElem?_map] at hk
    obtain ⟨c, hc, rfl⟩ := Option.map_eq_some_iff.mp hk
    rw [h1, decode_encode] at h5
    simp only [List.cons.injEq, Option.some.injEq, and_true] at h5
    subst h5
    exact ⟨k, c, params, hc, hn, h2, by rw [h3] at hd; simpa using hd⟩

/-- C77, where `n` is the number of all configurations sent, whenever the program has nothing to do. -/
theorem C77_rest (s : State) (h : Reachable (step parse bytes) (init path text) s) (ho : s.over = false) (hr : AtRest parse bytes s) :
    Spec.updates s.dist.hist = s.cli.sent.map encode :=
  rest_updates h (rest_of_reachable h ho hr)

/-! ## Examples

The file has the address 1 and the URL 1. The program reads it, starts, and opens a listener. -/

/-- The configurations 1 and 2 have different databases; the parser makes their names the host. -/
def exampleBytes (n : Nat) : Bytes := if n = 1 then ascii "one" else ascii "two"

def exampleParse (b : Bytes) : Option ConnectionParams :=
  some (ConnectionParams.set (ConnectionParams.set (ConnectionParams.set (fun _ => none) (ascii "host") b) (ascii "port") (ascii "5432"))
    (ascii "database") (ascii "app"))

def exampleStep : State → Action → Option State := step exampleParse exampleBytes

def exampleInit : State := init (some 0) CliModel.oldText

/-- The state after some steps. -/
def after (acts : List Action) : State := (run exampleStep exampleInit acts).getD exampleInit

theorem after_run (acts : List Action) (h : (run exampleStep exampleInit acts).isSome) : run exampleStep exampleInit acts = some (after acts) := by
  obtain ⟨s, hs⟩ := Option.isSome_iff_exists.mp h
  rw [after, hs]; rfl

theorem after_reachable (acts : List Action) (h : (run exampleStep exampleInit acts).isSome) :
    Reachable (step exampleParse exampleBytes) (init (some 0) CliModel.oldText) (after acts) := ⟨acts, after_run acts h⟩

theorem after_append (as bs : List Action) (h1 : (run exampleStep exampleInit as).isSome) (h2 : (run exampleStep exampleInit (as ++ bs)).isSome) :
    run (step exampleParse exampleBytes) (after as) bs = some (after (as ++ bs)) := by
  have h := after_run _ h2
  rw [run_append, after_run as h1] at h
  exact h

/-- `prepareConfigChan` reads the file, sends the configuration and watches the file. -/
def prepared : List Action := [.cli .main, .cli .main, .cli (.add true), .cli .main]

/-- `Start` subscribes; the monitor takes the configuration and tells `Start`, which opens a listener and calls `Serve`. -/
def started : List Action :=
  prepared ++ [.main, .sys (.server (.thread (.user 0))), .sys (.server (.thread (.user 0))), .subscribe, .dist (.thread 0), .dist (.thread 0),
    .dist (.thread 0), .dist (.monTake 0), .dist (.monLock 0), .dist (.monNotify 0 (.user 0)), .dist (.monLock 0),
    .sys (.server (.takeConfig (.user 0))), .sys (.server (.listen (.user 0) true)), .sys (.server (.thread (.user 0))),
    .sys (.server (.thread (.go 0))), .sys (.server (.thread (.go 0)))]

/-- A client connects and sends its startup packets; the session asks for the configuration. -/
def asking : List Action :=
  [.sys (.server (.accept (.go 0) (.conn 5))), .sys (.server (.thread (.go 0))), .sys (.server (.thread (.go 1))), .sys (.server (.thread (.go 1))), .sys (.server (.thread (.go 1)))] ++
  ([.base (.peerSends .client (Spec.sslRequestPacket ++ Spec.wire (.startup FullSession.exampleStartup))), .base .callStart, .recvStartup,
    .reply true, .recvStartup].map fun a => .sys (.session (.go 1) a)) ++
  [.get (.go 1), .dist (.thread (getter (.go 1)))]

/-- It gets it, and dials the database. -/
def dialled : List Action := [.dist (.thread (getter (.go 1))), .gotten (.go 1), .sys (.session (.go 1) (.dial true))]

/-- A call of the distributor has not been made, or has returned, as a computation. -/
def callIdle : DistributorModel.PC → Bool
  | .idle => true
  | _ => false

theorem of_callIdle {x : DistributorModel.PC} (h : callIdle x = true) : x = .idle := by
  cases x <;> simp_all [callIdle]

/-- C73, C74, C77: a session has dialled. -/
example : let s := after (started ++ asking ++ dialled)
    Reachable (step exampleParse exampleBytes) (init (some 0) CliModel.oldText) s ∧ s.main = .start ∧ s.over = false ∧
    (s.sys.sess (.go 1)).configs = [some (ascii "one")] ∧ (s.sys.sess (.go 1)).dialed = [ascii "one:5432"] ∧ s.cli.sent = [⟨1, 1⟩] :=
  ⟨after_reachable _ (by decide +kernel), by decide +kernel, by decide +kernel, by decide +kernel, by decide +kernel, by decide +kernel⟩

/-- C73_exit: the file cannot be watched. -/
def unwatched : List Action := [.cli .main, .cli .main, .cli (.add false), .main]

example : Reachable (step exampleParse exampleBytes) (init (some 0) CliModel.oldText) (after unwatched) ∧ (after unwatched).main = .exited :=
  ⟨after_reachable _ (by decide +kernel), by decide +kernel⟩

/-- C73_end: a client sends a malformed message (C71). -/
def poisoning : List Action :=
  started ++ asking ++ dialled ++ ([.assign, .startup none, .base (.peerSends .client System.poison)].map fun a => .sys (.session (.go 1) a))

example : let s := after poisoning; let a : Action := .sys (.session (.go 1) (.base (.inRecv .client)))
    Reachable (step exampleParse exampleBytes) (init (some 0) CliModel.oldText) s ∧
    ∃ s', step exampleParse exampleBytes s a = some s' ∧ s'.over = true := by
  refine ⟨after_reachable _ (by decide +kernel), ?_⟩
  have h := after_append poisoning [.sys (.session (.go 1) (.base (.inRecv .client)))] (by decide +kernel) (by decide +kernel)
  have ho : (after (poisoning ++ [.sys (.session (.go 1) (.base (.inRecv .client)))])).over = true := by decide +kernel
  revert h ho
  generalize after (poisoning ++ _) = s'
  intro h ho
  simp only [run] at h
  split at h
  · rename_i s1 h1
    simp only [Option.some.injEq] at h
    exact ⟨s1, h1, h ▸ ho⟩
  · simp at h

/-- C77_fresh: the session has not asked; the file is changed and the new configuration comes into force; the session asks, and
is given the new one. (With the changes only begun when it asks, it may be given the old one.) -/
def changed : List Action :=
  [.cli (.write (some ⟨some 1, some 2⟩)), .cli .event, .cli .handle, .cli .handle, .dist (.monTake 0), .dist (.monLock 0),
    .dist (.monNotify 0 (.user 0)), .dist (.monLock 0)]

example : let s := after (started ++ changed); let s' := after (started ++ changed ++ (asking ++ dialled))
    Reachable (step exampleParse exampleBytes) (init (some 0) CliModel.oldText) s ∧
    run (step exampleParse exampleBytes) s (asking ++ dialled) = some s' ∧ s.dist.pc (getter (.go 1)) = .idle ∧
    (Spec.updates s.dist.hist).length = 2 ∧ (s'.sys.sess (.go 1)).dialed = [ascii "two:5432"] := by
  refine ⟨after_reachable _ (by decide +kernel), after_append _ _ (by decide +kernel) (by decide +kernel), of_callIdle ?_, by decide +kernel, by decide +kernel⟩
  decide +kernel

/-- The program has been started and has nothing to do. -/
def startedSys : List System.Action :=
  [.server (.call 0 .start), .server (.thread (.user 0)), .server (.thread (.user 0)), .server (.thread (.user 0)), .server (.config 1),
    .server (.takeConfig (.user 0)), .server (.listen (.user 0) true), .server (.thread (.user 0)), .server (.thread (.go 0)), .server (.thread (.go 0))]

theorem started_sys : run (System.step exampleParse) (System.init none) startedSys = some (after started).sys := by
  with_unfolding_all rfl

theorem started_dist (t : Nat) : (after started).dist.pc t = if t = 0 then .returned .ok else .idle := by
  cases t with
  | zero => with_unfolding_all rfl
  | succ t => with_unfolding_all rfl

theorem started_mon (i : Nat) : (after started).dist.mon i = if i = 0 then .select else .notStarted := by
  cases i with
  | zero => with_unfolding_all rfl
  | succ i => with_unfolding_all rfl

theorem started_rest : AtRest exampleParse exampleBytes (after started) := by
  have hsys : System.Settled exampleParse (after started).sys :=
    System.settled_of_allIdle started_sys [.user 0, .go 0] (by decide +kernel) (by decide +kernel) (by decide +kernel)
  have hR := after_reachable started (by decide +kernel)
  have hl := linked_of_reachable hR
  have hs0 := started_dist
  have hm0 := started_mon
  have hses : ∀ t, (after started).sys.sess t = FullSession.init := fun t => by with_unfolding_all rfl
  have c1 : (after started).cli.main = .running := by decide +kernel
  have c2 : (after started).cli.handler = .select := by decide +kernel
  have c3 : (after started).cli.queue = [] := by decide +kernel
  have c4 : (after started).dist.source = [] := by decide +kernel
  have c5 : (after started).main = .start := by decide +kernel
  have c6 : (after started).sys.server.pc (.user 0) = .startLoop := by decide +kernel
  have c7 : (after started).dist.sourceClosed = false := by decide +kernel
  have c8 : (after started).dist.closed = false := by decide +kernel
  generalize after started = s at *
  intro a ha
  cases hx : step exampleParse exampleBytes s a with
  | none => rfl
  | some s' =>
    exfalso
    cases move_of_step hR hl hx with
    | cli hr hc hs hm hh h1 =>
      rcases ha with rfl | ⟨ok, rfl⟩ | rfl | rfl | rfl <;> simp [CliModel.step, c1, c2, c3] at h1
    | send hb hc hs h1 h2 => rcases hb with ⟨-, hb⟩ | ⟨-, hb⟩ <;> simp [c1, c2] at hb
    | dist hb h2 =>
      rcases hb with ⟨t, rfl, -⟩ | ⟨i, rfl⟩ | ⟨i, rfl⟩ | ⟨t, rfl⟩ | ⟨i, t, rfl⟩
      · by_cases h0 : t = 0 <;> simp [DistributorModel.step, hs0, h0] at h2
      · by_cases h0 : i = 0 <;> simp [DistributorModel.step, hm0, h0] at h2
      · by_cases h0 : i = 0 <;> simp [DistributorModel.step, hm0, h0, c8] at h2
      · by_cases h0 : t = 0 <;> simp [DistributorModel.step, hs0, h0] at h2
      · by_cases h0 : i = 0 <;> simp [DistributorModel.step, hm0, h0] at h2
    | @subscribed t n ks dist sys hpc h2 h3 => rw [hs0] at hpc; split at hpc <;> simp at hpc
    | @take i cli dist h1 h2 => by_cases h0 : i = 0 <;> simp [DistributorModel.step, hm0, h0, c4, c7] at h2
    | notify hm h2 h3 => rw [hm0] at hm; split at hm <;> simp at hm
    | server hb h3 => rw [hsys _ ha] at h3; simp at h3
    | @takeConfig k dist sys h2 h3 => rw [hsys (.server (.takeConfig k)) ha] at h3; simp at h3
    | session hb hg hv h3 => rw [hsys _ ha] at h3; simp at h3
    | start hm => rw [c5] at hm; simp at hm
    | exit hm => rw [c5] at hm; simp at hm
    | subscribe hpc => rw [c6] at hpc; simp at hpc
    | @get t m dist hh => rw [hses t] at hh; simp [FullSession.init] at hh
    | @gotten t c sys hpc => rw [hs0] at hpc; split at hpc <;> simp at hpc

/-- C75, C75_free, C75_rest, C76, C76_file, C77_rest -/
example : let s := after started
    Reachable (step exampleParse exampleBytes) (init (some 0) CliModel.oldText) s ∧ s.over = false ∧ AtRest exampleParse exampleBytes s ∧
    s.cli.missed = false ∧ s.cli.handler ≠ .stopped ∧ CliModel.readServerConfig s.cli.current = some ⟨1, 1⟩ :=
  ⟨after_reachable _ (by decide +kernel), by decide +kernel, started_rest, by decide +kernel, by decide +kernel, by decide +kernel⟩

/-- C76_stays -/
example : let s' := after (started ++ (asking ++ dialled))
    run (step exampleParse exampleBytes) (after started) (asking ++ dialled) = some s' ∧ (∀ a ∈ asking ++ dialled, ¬ Changes a) ∧
    (after started).dist.pc (getter (.go 1)) = .idle ∧ (s'.sys.sess (.go 1)).configs = [some (ascii "one")] := by
  refine ⟨after_append _ _ (by decide +kernel) (by decide +kernel), ?_, by rw [started_dist]; rfl, by decide +kernel⟩
  simp [asking, dialled, Changes]

/-- C75_finite: steps that the program makes by itself. -/
example : let s' := after (started ++ [.cli (.write (some ⟨some 2, some 2⟩))] ++ [.cli .event, .cli .handle, .cli .handle, .dist (.monTake 0)])
    run (step exampleParse exampleBytes) (after (started ++ [.cli (.write (some ⟨some 2, some 2⟩))])) [.cli .event, .cli .handle, .cli .handle, .dist (.monTake 0)]
      = some s' ∧ (∀ a ∈ [.cli .event, .cli .handle, .cli .handle, .dist (.monTake 0)], Own a) := by
  refine ⟨after_append _ _ (by decide +kernel) (by decide +kernel), ?_⟩
  simp [Own]

end Gevulot.Process
