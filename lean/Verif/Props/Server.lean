import Verif.Proofs.ServerRest

/-!
# C50–C57, C64: the server

`s` ranges over every state reachable by any interleaving of any number of calls of `Start`, `Serve`, `ServeConn` and `Close`,
the server's goroutines, incoming configurations and connections. What is observed: `s.op t` is the call thread `t` executes
and `s.pc t = .returned r` that it has returned `r`; `s.tried` are the attempts of `Start` to listen; `s.installed` are the
listeners set by `Serve`, of which those with `s.lnOpen` are open; `s.accepts t` is what `Accept` returned to the `Serve` of
`t`; `s.jobs` are the goroutines started.
-/

namespace Gevulot.ServerModel

/-- The state after these actions, starting without a configuration. -/
def after (acts : List Action) : State := (run step (init none) acts).getD (init none)

theorem after_run {acts : List Action} (h : (run step (init none) acts).isSome = true) : run step (init none) acts = some (after acts) := by
  unfold after
  cases hr : run step (init none) acts with
  | none => simp [hr] at h
  | some s => simp

theorem after_reachable {acts : List Action} (h : (run step (init none) acts).isSome = true) : Reachable step (init none) (after acts) :=
  ⟨acts, after_run h⟩

theorem after_append {as bs : List Action} (h : (run step (init none) (as ++ bs)).isSome = true) : run step (after as) bs = some (after (as ++ bs)) := by
  have h2 := after_run h
  rw [run_append] at h2
  cases hr : run step (init none) as with
  | none => simp [hr] at h2
  | some s =>
    have : after as = s := by unfold after; rw [hr]; rfl
    rw [this]
    simpa [hr] using h2

/-! ## C50 Start runs at most once and always returns an error -/

/-- C50: all attempts to listen are made by one call of `Start`; whatever `Start` returns is an error: `ErrServerClosed`,
`ErrServerAlreadyStarted`, or that of the closed configuration store; and any call but the one that listens can only return
one of the first two. -/
theorem C50 (c : Option Addr) (s : State) (h : Reachable step (init c) s) :
    (∀ x ∈ s.tried, ∀ y ∈ s.tried, x.1 = y.1 ∧ s.op x.1 = some .start) ∧
    (∀ t r, s.op t = some .start → s.pc t = .returned r → r = .errClosed ∨ r = .errStarted ∨ (r = .errConfig ∧ s.configClosed = true)) ∧
    (∀ t r x, s.op t = some .start → s.pc t = .returned r → x ∈ s.tried → x.1 ≠ t → r = .errClosed ∨ r = .errStarted) := by
  have inv := inv_of_reachable h
  have res := resultInv_of_reachable h
  have hret : ∀ t r, s.op t = some .start → s.pc t = .returned r → r = .errClosed ∨ r = .errStarted ∨ (r = .errConfig ∧ s.configClosed = true) := by
    intro t r hop hpc
    have := inv.fit t
    rw [hpc, hop] at this
    cases r <;> simp [PC.fits, Ret.fits] at this ⊢
    exact (res.config t hpc).2
  refine ⟨?_, hret, ?_⟩
  · intro x hx y hy
    have h1 := inv.start.tried x hx
    have h2 := inv.start.tried y hy
    refine ⟨by rw [h1] at h2; simpa using h2, startOp_of_reachable h x.1 h1⟩
  · intro t r x hop hpc hx hne
    rcases hret t r hop hpc with h' | h' | ⟨h', -⟩
    · exact .inl h'
    · exact .inr h'
    · subst h'
      have h1 := (res.config t hpc).1
      rw [inv.start.tried x hx] at h1
      simp only [Option.some.injEq] at h1
      exact absurd h1 hne

theorem started_closed {n : Nat} {s s' : State} {a : Action} (h : s.shutdown = true ∧ (s.pc (.user n) = .startCheck ∨ s.pc (.user n) = .returned .errClosed))
    (hs : step s a = some s') : s'.shutdown = true ∧ (s'.pc (.user n) = .startCheck ∨ s'.pc (.user n) = .returned .errClosed) := by
  server_cases hs <;> grind [upd_apply]

/-- C50, a `Start` called after `Close` does nothing but return `ErrServerClosed`, -/
theorem C50_closed (c : Option Addr) (s s' : State) (h : Reachable step (init c) s) (hsh : s.shutdown = true) (n : Nat)
    (acts : List Action) (hr : run step s (.call n .start :: acts) = some s') :
    s'.pc (.user n) = .startCheck ∨ s'.pc (.user n) = .returned .errClosed := by
  simp only [run] at hr
  split at hr
  · rename_i s1 hs
    have h1 : s1.shutdown = true ∧ s1.pc (.user n) = .startCheck := by
      obtain ⟨-, htr⟩ := step_tr hs
      cases htr
      exact ⟨hsh, upd_same _ _ _⟩
    refine (run_invariant (fun x => x.shutdown = true ∧ (x.pc (.user n) = .startCheck ∨ x.pc (.user n) = .returned .errClosed))
      ⟨h1.1, .inl h1.2⟩ (fun s a s' h hs => ?_) hr).2
    exact started_closed h hs
  · simp at hr

/-- C50, and as long as nobody calls `Close`, the only `Start` which returns is one after the first, unless the configuration
store was closed before it could subscribe. -/
theorem C50_runs (c : Option Addr) (s : State) (h : Reachable step (init c) s) (hn : s.shutdown = false) (t : Tid) (r : Ret)
    (hop : s.op t = some .start) (hr : s.pc t = .returned r) :
    (r = .errStarted ∧ ∃ t', t' ≠ t ∧ s.starter = some t') ∨ (r = .errConfig ∧ s.configClosed = true) := by
  have res := resultInv_of_reachable h
  rcases (C50 c s h).2.1 t r hop hr with h' | h' | h'
  · subst h'
    rw [(closedInv_of_reachable h) t hr] at hn
    simp at hn
  · subst h'
    obtain ⟨h1, h2⟩ := res.again t hr
    cases hst : s.starter with
    | none => exact absurd hst h1
    | some t' => exact .inl ⟨rfl, t', by rintro rfl; exact h2 hst, rfl⟩
  · exact .inr h'

/-! ## C51 At most one listener is open at a time -/

/-- C51: of all the listeners installed so far, none but the current one is open. -/
theorem C51 (c : Option Addr) (s : State) (h : Reachable step (init c) s) (ln : Nat) (hi : ln ∈ s.installed) (ho : s.lnOpen ln = true) :
    s.listener = some ln :=
  (inv_of_reachable h).listen.current ln hi ho

/-- C51, in particular at most one. -/
theorem C51_one (c : Option Addr) (s : State) (h : Reachable step (init c) s) (a b : Nat) (ha : a ∈ s.installed) (hb : b ∈ s.installed)
    (ha' : s.lnOpen a = true) (hb' : s.lnOpen b = true) : a = b := by
  have h1 := C51 c s h a ha ha'
  rw [C51 c s h b hb hb'] at h1
  simpa using h1.symm

/-! ## C52 The server ends up on the latest configured address -/

/-- C52 in full: when the dust settles, the server is listening on the last listener `Start` could open. -/
def C52_claim : Prop :=
  ∀ c s, ReachableBy Undisturbed c s → Settled s → ∀ ln, lastListener s = some ln → ListeningOn s ln

/-- C52, `Start` always gets to try the current configuration: when the dust settles, the address it tried last is that of
the current configuration. -/
theorem C52_tried (c : Option Addr) (s : State) (h : Reachable step (init c) s) (hd : Settled s) : lastTried s = s.current := by
  obtain ⟨⟨t, ht⟩, hu, -⟩ := hd
  have := (addrInv_of_reachable h).wanted t (by rw [ht]; rfl)
  unfold wanted at this
  rw [hu, ht] at this
  exact this

/-- C52, and the dust does settle: when the server has nothing to do and `Start` was called and has not returned, it is settled; -/
theorem C52_rest (c : Option Addr) (s : State) (h : Reachable step (init c) s) (hp : s.watchdogPanic = false ∧ s.sendPanic = false)
    (hr : AtRest s) (t : Tid) (ht : s.op t = some .start) (hn : ∀ r, s.pc t ≠ .returned r) : Settled s := by
  have hf := (inv_of_reachable h).fit t
  have hd := (jobInv_of_reachable h)
  have hloop : s.pc t = .startLoop ∧ s.updates = [] := by
    rcases rest_pc hp hr t with h1 | h1 | ⟨ln, h1⟩ | h1 | ⟨⟨r, h1⟩, -⟩ | ⟨n, r, -, h1⟩ | h1
    · rw [h1, ht] at hf; simp [PC.fits] at hf
    · exact ⟨h1.1, h1.2.1⟩
    · rw [h1, ht] at hf; simp [PC.fits] at hf
    · rw [h1, ht] at hf; simp [PC.fits] at hf
    · rw [h1, ht] at hf; simp [PC.fits] at hf
    · exact absurd h1 (hn r)
    · cases t with
      | user n => exact absurd h1 ((inv_of_reachable h).go.notDone n)
      | go n => exact absurd ht (hd n).1
  refine ⟨⟨t, hloop.1⟩, hloop.2, fun u => ?_⟩
  rcases rest_pc hp hr u with h1 | h1 | ⟨ln, h1⟩ | h1 | ⟨⟨r, h1⟩, -⟩ | ⟨n, r, -, h1⟩ | h1
  · rw [h1]; rfl
  · rw [h1.1]; rfl
  all_goals rw [h1]; rfl

/-- and it comes to that: the server can make only a bounded number of steps before it has nothing to do, or somebody calls it,
a connection or a configuration comes, or a temporary error. -/
theorem C52_finite (c : Option Addr) (s : State) (h : Reachable step (init c) s) :
    ∃ n, ∀ acts s', (∀ a ∈ acts, a.own = true) → run step s acts = some s' → acts.length ≤ n := finite h

/-- C52, what is missing: it holds if `Start` never starts a `Serve` before the previous one has installed its listener.
Then, when the dust settles, the server is listening on the last listener `Start` could open; -/
theorem C52_partial (c : Option Addr) (s : State) (h : ReachableBy Calm c s) (hd : Settled s) :
    s.listener = lastListener s ∧ ∀ ln, lastListener s = some ln → ListeningOn s ln := by
  have inv := h.calm
  have hl : s.listener = lastListener s := by
    rw [inv.settled hd.2.2, inv.notDoing]
    intro t ln ht
    obtain ⟨⟨t', ht'⟩, -⟩ := hd
    have hst := (inv_of_reachable h.reachable).start.starter
    have h1 := hst t (by rw [ht]; rfl)
    rw [hst t' (by rw [ht']; rfl)] at h1
    simp only [Option.some.injEq] at h1
    subst h1
    rw [ht] at ht'; simp at ht'
  refine ⟨hl, fun ln hln => ?_⟩
  rw [hln] at hl
  exact ⟨hl, inv.opened ln hl, inv.listening ln hl⟩

/-- and if the current configuration's address could be listened on, this is it. -/
theorem C52_partial_address (c : Option Addr) (s : State) (h : ReachableBy Calm c s) (hd : Settled s) (t : Tid) (a : Addr) (ln : Nat)
    (hlast : s.tried.getLast? = some (t, a, some ln)) : ListeningOn s ln ∧ s.lnAddr ln = a ∧ s.current = some a := by
  have hmem : (t, a, some ln) ∈ s.tried := List.mem_of_getLast? hlast
  refine ⟨(C52_partial c s h hd).2 ln ?_, ((addrInv_of_reachable h.reachable).made _ hmem ln rfl).2, ?_⟩
  · unfold lastListener
    obtain ⟨pre, hpre⟩ := List.getLast?_eq_some_iff.mp hlast
    rw [hpre]; simp
  · rw [← C52_tried c s h.reachable hd]
    unfold lastTried
    rw [hlast]; rfl

/-- The configuration changes twice in quick succession; the `Serve` of the second listener is the first to install it. -/
def overtaken : List Action :=
  [.call 0 .start, .thread (.user 0), .thread (.user 0), .thread (.user 0),
   .config 1, .takeConfig (.user 0), .listen (.user 0) true, .thread (.user 0),
   .config 2, .takeConfig (.user 0), .listen (.user 0) true, .thread (.user 0),
   .thread (.go 1), .thread (.go 1), .thread (.go 0), .thread (.go 0)]

theorem overtaken_pending (t : Tid) : ((after overtaken).pc t).pending = none := by
  have h : (after overtaken).pc = fun t => if t = .go 0 then .serveAccept 0 else if t = .go 1 then .serveAccept 1 else if t = .user 0 then .startLoop else .idle := by
    funext t
    match t with
    | .user 0 => rfl
    | .user (n + 1) => rfl
    | .go 0 => rfl
    | .go 1 => rfl
    | .go (n + 2) => rfl
  rw [h]
  simp only
  repeat' split
  all_goals rfl

/-- C52 is false: the goroutines started by `Start` may install their listeners in the wrong order. The listener for the
current configuration is then closed, and the server listens on the previous address, until the next change. -/
theorem C52_refuted : ¬ C52_claim := by
  intro hc
  have hr : ReachableBy Undisturbed none (after overtaken) :=
    reachableBy_run (acts := overtaken) .init (fun s a ha => undisturbed_of_harmless ((by decide : ∀ a ∈ overtaken, a.harmless = true) a ha) s) (after_run (by decide))
  have h1 := (hc _ _ hr ⟨⟨.user 0, by rfl⟩, by decide, overtaken_pending⟩ 1 (by decide)).1
  exact absurd h1 (by decide)

/-- What has happened then. -/
theorem C52_refuted_state : (after overtaken).current = some 2 ∧ (after overtaken).listener = some 0 ∧ (after overtaken).lnAddr 0 = 1 ∧
    (after overtaken).lnOpen 1 = false := ⟨by decide, by decide, by decide, by decide⟩

/-! ## C53 After Close nothing is left listening and no session is left open -/

/-- C53 in full: once the (first) `Close` has returned, everything installed is closed. -/
def C53_claim : Prop :=
  ∀ c s s' acts t r, Reachable step (init c) s → s.pc t = .closeLock → run step s acts = some s' → s'.pc t = .returned r → AllClosed s'

/-- C53, what is missing: it holds, from the moment `Close` has closed everything, if at that moment no `Serve` and no
`ServeConn` is between its check that the server is not closed and the installation of its listener or session. Then nothing
is installed ever again. -/
theorem C53_partial (c : Option Addr) (s s1 s2 : State) (acts : List Action) (t : Tid) (h : Reachable step (init c) s)
    (hc : s.pc t = .closeLock) (h1 : ∀ t' ln, s.pc t' ≠ .serveLock ln) (h2 : ∀ t', s.pc t' ≠ .connRegLock)
    (hs : step s (.thread t) = some s1) (hr : run step s1 acts = some s2) :
    AllClosed s2 ∧ s2.installed = s1.installed := by
  have inv := inv_of_reachable h
  have := swept_run (inv_step _ _ _ inv hs) (swept_of_close inv hc h1 h2 hs) hr
  exact ⟨this.1.closed, this.2⟩

/-- C53, if furthermore `Close` is called when nobody is in the middle of anything, and no configuration arrives after that,
every listener `Start` has ever opened is closed when `Close` returns, and stays so. -/
theorem C53_partial_start (c : Option Addr) (s s1 s2 : State) (acts : List Action) (t : Tid) (h : Reachable step (init c) s)
    (hc : s.pc t = .closeFire) (hsh : s.shutdown = false) (hq : Quiet s) (hs : step s (.thread t) = some s1)
    (ha : ∀ a ∈ acts, ∀ x, a ≠ .config x) (hr : run step s1 acts = some s2) (hret : s2.pc t ≠ .closeLock) :
    AllClosed s2 ∧ ∀ x ∈ s2.tried, ∀ ln, x.2.2 = some ln → s2.lnOpen ln = false := by
  have inv := inv_of_reachable h
  have key := run_invariant_of (fun a => ∀ x, a ≠ .config x) (fun x => Inv x ∧ QuietClose t x)
    ⟨inv_step _ _ _ inv hs, quietClose_start inv (openInv_of_reachable h) hc hsh hq hs⟩
    (fun _ _ _ ha h hs => ⟨inv_step _ _ _ h.1 hs, quietClose_step h.1 h.2 ha hs⟩) ha hr
  have hcl := (key.2.swept.resolve_left hret).closed
  exact ⟨hcl, fun x hx ln hln => hcl.listeners ln (key.2.tried x hx ln hln)⟩

theorem before_ln {t : Tid} {ln : Nat} {s s' : State} {a : Action} (hi : Inv s) (h : ln ∈ s.installed ∧ (s.pc t = .closeLock ∨ s.lnOpen ln = false)) (hs : step s a = some s') :
    ln ∈ s'.installed ∧ (s'.pc t = .closeLock ∨ s'.lnOpen ln = false) := by
  have h1 := hi.listen.current ln h.1
  have h2 := hi.listen.bound ln h.1
  have h3 := hi.go.fresh s.spawned
  simp only [Nat.le_refl, iff_true] at h3
  clear hi
  server_cases hs <;> grind [upd_apply, closeListener_apply]

theorem before_conn {t u : Tid} {s s' : State} {a : Action} (hi : Inv s) (h : s.connClosed u = true ∨ (s.pc t = .closeLock ∧ (s.pc u).serving = true)) (hs : step s a = some s') :
    s'.connClosed u = true ∨ (s'.pc t = .closeLock ∧ (s'.pc u).serving = true) := by
  have h1 := hi.sess.sweep t
  have h2 := hi.sess.ended u
  have h3 := hi.go.fresh s.spawned
  simp only [Nat.le_refl, iff_true] at h3
  clear hi
  server_cases hs <;> grind [upd_apply, PC.serving, PC.ended]

/-- C53, what holds whatever else is going on: what was installed when `Close` came is closed once `Close` has given back the mutex,
that is every listener ever installed, and the connection of every session. -/
theorem C53_partial_before (c : Option Addr) (s s' : State) (acts : List Action) (t : Tid) (h : Reachable step (init c) s)
    (hc : s.pc t = .closeLock) (hr : run step s acts = some s') (ht : s'.pc t ≠ .closeLock) :
    (∀ ln ∈ s.installed, s'.lnOpen ln = false) ∧ ∀ u, s.pc u = .connRun ∨ (∃ r, s.pc u = .connRemove r) → s'.connClosed u = true := by
  refine ⟨fun ln hln => ?_, fun u hu => ?_⟩
  · have := run_invariant (fun x => Inv x ∧ (ln ∈ x.installed ∧ (x.pc t = .closeLock ∨ x.lnOpen ln = false))) ⟨inv_of_reachable h, hln, .inl hc⟩
      (fun _ _ _ h hs => ⟨inv_step _ _ _ h.1 hs, before_ln h.1 h.2 hs⟩) hr
    exact this.2.2.resolve_left ht
  · have hserv : (s.pc u).serving = true := by rcases hu with hu | ⟨r, hu⟩ <;> rw [hu] <;> rfl
    have := run_invariant (fun x => Inv x ∧ (x.connClosed u = true ∨ (x.pc t = .closeLock ∧ (x.pc u).serving = true))) ⟨inv_of_reachable h, .inr ⟨hc, hserv⟩⟩
      (fun _ _ _ h hs => ⟨inv_step _ _ _ h.1 hs, before_conn h.1 h.2 hs⟩) hr
    exact this.2.resolve_right fun h => ht h.1

/-- `Serve` has checked that the server is not closed, then the server is closed. -/
def lateServe : List Action :=
  [.userListen 1, .call 0 (.serve 0), .thread (.user 0), .call 1 .close, .thread (.user 1)]

/-- The same with `ServeConn`. -/
def lateConn : List Action :=
  [.call 0 (.serveConn 0), .thread (.user 0), .thread (.user 0), .call 1 .close, .thread (.user 1)]

/-- C53 is false: the check of `Serve` and the installation of its listener are separate, and `Close` may come in between.
The server then goes on listening after `Close` has returned, and serves new connections. -/
theorem C53_refuted : ¬ C53_claim := by
  intro hc
  have := (hc none (after lateServe) _ [.thread (.user 1), .thread (.user 1), .thread (.user 0)] (.user 1) .nil (after_reachable (by decide)) (by rfl)
    (after_append (by decide)) (by rfl)).listener
  exact absurd this (by decide)

/-- C53, the same with `ServeConn`: a session is registered and runs after `Close` has returned. -/
theorem C53_refuted_conn : ¬ C53_claim := by
  intro hc
  have := (hc none (after lateConn) _ [.thread (.user 1), .thread (.user 1), .thread (.user 0)] (.user 1) .nil (after_reachable (by decide)) (by rfl)
    (after_append (by decide)) (by rfl)).sessions
  exact absurd this (by decide)

/-- A configuration arrives just before `Close`. -/
def lateStart : List Action :=
  [.call 0 .start, .thread (.user 0), .thread (.user 0), .thread (.user 0), .config 1,
   .call 1 .close, .thread (.user 1), .thread (.user 1), .thread (.user 1),
   .takeConfig (.user 0), .listen (.user 0) true, .thread (.user 0), .noticeShutdown (.user 0), .thread (.go 0), .thread (.go 0)]

/-- C53, and a third way: `Start` may take a configuration although the server is closed. It opens a listener, which `Serve`
refuses and nobody ever closes: all calls have returned, and the port is open. -/
theorem C53_refuted_start : Reachable step (init none) (after lateStart) ∧ (after lateStart).pc (.user 1) = .returned .nil ∧
    (after lateStart).pc (.user 0) = .returned .errClosed ∧ (after lateStart).pc (.go 0) = .done ∧ (after lateStart).wg = 0 ∧
    (after lateStart).tried = [(.user 0, 1, some 0)] ∧ (after lateStart).lnOpen 0 = true :=
  ⟨after_reachable (by decide), by rfl, by rfl, by rfl, by decide, by decide, by decide⟩

/-! ## C54 Close waits for the server's goroutines and is idempotent -/

/-- C54: when `Close` returns after waiting, every goroutine the server has started has finished. -/
theorem C54 (c : Option Addr) (s s' : State) (h : Reachable step (init c) s) (t : Tid) (r : Ret) (hw : s.pc t = .closeWait r)
    (hs : step s (.thread t) = some s') :
    (∀ n, n < s.jobs.length → s.pc (.go n) = .done) ∧ s' = { s with pc := upd s.pc t (.returned r) } := by
  have inv := inv_of_reachable h
  obtain ⟨-, htr⟩ := step_tr hs
  cases htr
  case closeDone r' hwg hr' =>
    rw [hw] at hr'
    simp only [PC.closeWait.injEq] at hr'
    subst hr'
    refine ⟨?_, rfl⟩
    rw [inv.go.wg] at hwg
    rw [inv.go.jobs]
    exact live_zero.mp hwg
  all_goals simp_all

/-- C54, only one call of `Close` does anything, -/
theorem C54_one (c : Option Addr) (s : State) (h : Reachable step (init c) s) (t t' : Tid) (h1 : s.pc t = .closeLock ∨ ∃ r, s.pc t = .closeWait r)
    (h2 : s.pc t' = .closeLock ∨ ∃ r, s.pc t' = .closeWait r) : t = t' := by
  refine (inv_of_reachable h).sess.one t t' ?_ ?_
  · rcases h1 with h1 | ⟨r, h1⟩ <;> rw [h1] <;> rfl
  · rcases h2 with h2 | ⟨r, h2⟩ <;> rw [h2] <;> rfl

/-- any other returns nil immediately without doing anything. -/
theorem C54_again (s s' : State) (t : Tid) (hc : s.pc t = .closeFire) (hsh : s.shutdown = true) (hs : step s (.thread t) = some s') :
    s' = { s with pc := upd s.pc t (.returned .nil) } := by
  obtain ⟨-, htr⟩ := step_tr hs
  cases htr
  all_goals simp_all

/-- C54, `Close` returns: under the condition of `C53_partial`, at any time while `Close` is waiting, the goroutines, given
that `Accept` on closed listeners returns an error and sessions with closed connections end, lead to its return. Whether the
sessions do end is the subject of C70. -/
theorem C54_returns (c : Option Addr) (s s1 s2 : State) (acts : List Action) (n : Nat) (r : Ret) (h : Reachable step (init c) s)
    (hc : s.pc (.user n) = .closeLock) (h1 : ∀ t' ln, s.pc t' ≠ .serveLock ln) (h2 : ∀ t', s.pc t' ≠ .connRegLock)
    (hs : step s (.thread (.user n)) = some s1) (hr : run step s1 acts = some s2) (hw : s2.pc (.user n) = .closeWait r)
    (hp : s2.watchdogPanic = false ∧ s2.sendPanic = false) : ∃ s3, WindsDown s2 s3 ∧ s3.pc (.user n) = .returned r := by
  have h' := (h.next hs).trans ⟨acts, hr⟩
  have inv := inv_of_reachable h
  exact close_returns ⟨inv_of_reachable h', jobInv_of_reachable h', (swept_run (inv_step _ _ _ inv hs) (swept_of_close inv hc h1 h2 hs) hr).1, hp,
    installed_of_reachable h'⟩ hw

/-- C54, and it cannot fail to: under that condition, when no such step is possible any more, `Close` has returned. There is no
endless sequence of such steps (`C54_finite`). -/
theorem C54_rest (c : Option Addr) (s s1 s2 : State) (acts : List Action) (t : Tid) (h : Reachable step (init c) s)
    (hc : s.pc t = .closeLock) (h1 : ∀ t' ln, s.pc t' ≠ .serveLock ln) (h2 : ∀ t', s.pc t' ≠ .connRegLock)
    (hs : step s (.thread t) = some s1) (hr : run step s1 acts = some s2) (hp : s2.watchdogPanic = false ∧ s2.sendPanic = false)
    (hrest : ∀ a, a.winding s2 → step s2 a = none) :
    (∃ r, s2.pc t = .returned r) ∧ ∀ n, n < s2.spawned → s2.pc (.go n) = .done := by
  have h' := (h.next hs).trans ⟨acts, hr⟩
  have inv := inv_of_reachable h
  have inv2 := inv_of_reachable h'
  have hsw := (swept_run (inv_step _ _ _ inv hs) (swept_of_close inv hc h1 h2 hs) hr).1
  have hdone : ∀ n, n < s2.spawned → s2.pc (.go n) = .done := by
    intro n hn
    refine Decidable.byContradiction fun hd => ?_
    obtain ⟨a, ha, -, s', hs'⟩ := go_act inv2 (jobInv_of_reachable h') hsw hp (installed_of_reachable h') hn hd
    rw [hrest a ha] at hs'; simp at hs'
  refine ⟨?_, hdone⟩
  have hpc : (∃ r, s2.pc t = .closeWait r) ∨ (∃ r, s2.pc t = .returned r) := by
    have hk : s1.pc t = .closeWait (closeResult s) := by
      obtain ⟨-, htr⟩ := step_tr hs
      cases htr <;> simp_all
    have hgo : ∀ n, t ≠ .go n := by
      rintro n rfl
      have := inv.fit (.go n)
      rw [hc] at this
      exact (jobInv_of_reachable h n).2 this
    refine run_invariant (fun x => (∃ r, x.pc t = .closeWait r) ∨ (∃ r, x.pc t = .returned r)) (.inl ⟨_, hk⟩) (fun x a x' hx hs => ?_) hr
    exact waited_step hgo hx hs
  rcases hpc with ⟨r, hpc⟩ | hpc
  · have hwg : s2.wg = 0 := by rw [inv2.go.wg, live_zero]; exact hdone
    have := hrest (.thread t) trivial
    simp [step, hp, hpc, hwg] at this
  · exact hpc

/-- C54: the steps considered in `C54_rest` are among these, of which there is no endless sequence. -/
theorem C54_finite (c : Option Addr) (s : State) (h : Reachable step (init c) s) :
    ∃ n, ∀ acts s', (∀ a ∈ acts, a.own = true) → run step s acts = some s' → acts.length ≤ n := finite h

/-! ## C55 Sessions are tracked exactly while they are served -/

/-- C55: until `Close`, the registered sessions are exactly those being served, each once. -/
theorem C55 (c : Option Addr) (s : State) (h : Reachable step (init c) s) (hn : s.shutdown = false) :
    s.sessions.Nodup ∧ ∀ t, t ∈ s.sessions ↔ s.pc t = .connRun ∨ ∃ r, s.pc t = .connRemove r := by
  have inv := (inv_of_reachable h).sess
  refine ⟨inv.nodup, fun t => ⟨fun ht => ?_, fun ht => inv.tracked hn t ?_⟩⟩
  · have := inv.serving t ht
    cases hpc : s.pc t <;> rw [hpc] at this <;> simp [PC.serving] at this ⊢
  · rcases ht with ht | ⟨r, ht⟩ <;> rw [ht] <;> rfl

/-- C55, at any time a registered session is one being served, and all those being served when `Close` comes are registered. -/
theorem C55_close (c : Option Addr) (s : State) (h : Reachable step (init c) s) (t : Tid) :
    (t ∈ s.sessions → s.pc t = .connRun ∨ ∃ r, s.pc t = .connRemove r) ∧
    (∀ t', s.pc t' = .closeLock → s.pc t = .connRun → t ∈ s.sessions) := by
  have inv := (inv_of_reachable h).sess
  refine ⟨fun ht => ?_, fun t' ht' ht => inv.sweep t' ht' t (by rw [ht]; rfl)⟩
  have := inv.serving t ht
  cases hpc : s.pc t <;> rw [hpc] at this <;> simp [PC.serving] at this ⊢

/-- C55, each accepted connection is served exactly once: the goroutines started by a call of `Serve` serve the connections
it accepted, in that order, each goroutine one, except that no goroutine has been started yet for a connection which has only
just been accepted; and a goroutine never does anything else. -/
theorem C55_once (c : Option Addr) (s : State) (h : Reachable step (init c) s) :
    (∀ t, (s.jobs.filter (·.1 = t)).filterMap (·.2.conn?) ++ (s.pc t).inHand.toList = (s.accepts t).filterMap Outcome.conn?) ∧
    (∀ n, s.op (.go n) = (s.jobs[n]?).map (·.2)) ∧
    (∀ acts s', run step s acts = some s' → s.jobs <+: s'.jobs ∧ ∀ t o, s.op t = some o → s'.op t = some o) := by
  have inv := inv_of_reachable h
  refine ⟨fun t => ?_, fun n => (inv.go.ops n).symm, fun acts s' hr => ⟨(grows_run inv hr).jobs, (grows_run inv hr).op⟩⟩
  rw [← inv.accept.conns t]
  unfold startedFor
  rw [List.filterMap_filter]
  congr 2
  funext j
  by_cases hj : j.1 = t <;> simp [hj]

/-! ## C56 A configuration update after shutdown does not crash -/

/-- C56 in full. -/
def C56_claim : Prop :=
  ∀ c s s' a, Reachable step (init c) s → step s (.config a) = some s' → s'.sendPanic = false

/-- C56, what is missing: a configuration that arrives crashes the process exactly if it has another listening address than
the one before and a `Start` has subscribed and returned. -/
theorem C56_partial (c : Option Addr) (s s' : State) (a : Addr) (h : Reachable step (init c) s) (hs : step s (.config a) = some s') :
    s'.sendPanic = true ↔ s.current ≠ some a ∧ s.subscribed = true ∧ ∃ n r, s.starter = some (.user n) ∧ s.pc (.user n) = .returned r := by
  have inv := inv_of_reachable h
  have hover : s.updatesClosed = true ↔ ∃ n r, s.starter = some (.user n) ∧ s.pc (.user n) = .returned r := by
    constructor
    · intro hu
      cases hst : s.starter with
      | none => rw [(inv.config.noStart hst).2] at hu; simp at hu
      | some t =>
        have h1 := inv.config.over t hst
        rw [hu] at h1
        have hop := startOp_of_reachable h t hst
        cases t with
        | go n => exact absurd hop (jobInv_of_reachable h n).1
        | user n =>
          cases hpc : s.pc (.user n) <;> rw [hpc] at h1 <;> simp [PC.over] at h1
          · exact ⟨n, _, rfl, hpc⟩
          · exact absurd hpc (inv.go.notDone n)
    · rintro ⟨n, r, h1, h2⟩
      rw [inv.config.over _ h1, h2]; rfl
  have hch : addressChanged s.current a = true ↔ s.current ≠ some a := by
    unfold addressChanged
    cases s.current <;> simp
  rw [← hover, ← hch]
  obtain ⟨hnp, htr⟩ := step_tr hs
  cases htr
  case configPanic h1 h2 h3 h4 => simp [h2, h3, h4]
  case configSend h1 h2 h3 h4 h5 => simp [hnp.2, h3]
  case configSame h1 h2 =>
    simp only [hnp.2, Bool.false_eq_true, false_iff, not_and]
    intro h3 h4
    rw [h2 h4] at h3; simp at h3

/-- The server has been started and closed. -/
def stopped : List Action :=
  [.call 0 .start, .thread (.user 0), .thread (.user 0), .thread (.user 0), .call 1 .close, .thread (.user 1), .thread (.user 1), .thread (.user 1),
   .noticeShutdown (.user 0)]

/-- C56 is false: `Start` closes its channel, but does not unsubscribe it. -/
theorem C56_refuted : ¬ C56_claim := by
  intro hc
  have hs : step (after stopped) (.config 1) = some (after (stopped ++ [.config 1])) := by
    have := after_append (as := stopped) (bs := [.config 1]) (by decide)
    simp only [run] at this
    split at this
    · rw [‹step _ _ = some _›, this]
    · simp at this
  exact absurd (hc _ _ _ _ (after_reachable (by decide)) hs) (by decide)

/-! ## C57 Accept errors: temporary ones are survived, permanent ones stop the loop -/

/-- C57: `Serve` returns an error of `Accept` only as the first which is not a temporary network error, having started a
goroutine for each connection accepted before it, in order; while it is in its loop, all errors so far were temporary network
errors; and if it has been refused, it has accepted nothing. -/
theorem C57 (c : Option Addr) (s : State) (h : Reachable step (init c) s) (t : Tid) :
    (∀ e, s.pc t = .returned (.errAccept e) →
      ∃ before, s.accepts t = before ++ [.err e] ∧ ¬ (e.isNetError = true ∧ e.temporary = true) ∧
        ∀ e', .err e' ∈ before → e'.isNetError = true ∧ e'.temporary = true) ∧
    ((s.pc t).accepting ≠ none → ∀ e', .err e' ∈ s.accepts t → e'.isNetError = true ∧ e'.temporary = true) ∧
    (s.pc t = .returned .errClosed → s.accepts t = []) ∧
    (s.jobs.filter (·.1 = t)).filterMap (·.2.conn?) ++ (s.pc t).inHand.toList = (s.accepts t).filterMap Outcome.conn? := by
  have inv := (inv_of_reachable h).accept
  have hgo : ∀ e, (Outcome.err e).goesOn = true ↔ e.isNetError = true ∧ e.temporary = true := by
    intro e; simp [Outcome.goesOn, AcceptErr.survived]
  refine ⟨fun e he => ?_, fun hln e' he' => (hgo e').mp (inv.accepting t hln _ he'), fun hr => ?_, (C55_once c s h).1 t⟩
  · obtain ⟨pre, h1, h2, h3⟩ := inv.returned t e he
    refine ⟨pre, h1, ?_, fun e' he' => (hgo e').mp (h2 _ he')⟩
    rintro ⟨a1, a2⟩
    simp [AcceptErr.survived, a1, a2] at h3
  · by_cases ha : s.accepts t = []
    · exact ha
    · rcases (resultInv_of_reachable h).accepted t ha with h' | ⟨e, h'⟩ | h' <;> rw [hr] at h' <;> simp [PC.accepting] at h'

/-- C57, step by step: a temporary error is survived, any other ends the loop. -/
theorem C57_step (s s' : State) (t : Tid) (ln : Nat) (e : AcceptErr) (ht : s.pc t = .serveAccept ln) (hs : step s (.accept t (.err e)) = some s') :
    s'.pc t = if e.isNetError = true ∧ e.temporary = true then .serveAccept ln else .returned (.errAccept e) := by
  obtain ⟨-, htr⟩ := step_tr hs
  cases htr
  case acceptTemp ln' h he =>
    simp only [AcceptErr.survived, Bool.and_eq_true] at he
    simp [he, ht]
  case acceptPerm ln' h he =>
    simp only [AcceptErr.survived, Bool.and_eq_false_iff] at he
    rw [if_neg]
    · simp
    · rintro ⟨a1, a2⟩; simp [a1, a2] at he

/-! ## C64 Every accepted connection is closed in the end -/

/-- C64 in full. -/
def C64_claim : Prop :=
  ∀ c s n conn, Reachable step (init c) s → s.op (.go n) = some (.serveConn conn) → s.pc (.go n) = .done → s.connClosed (.go n) = true

/-- C64, what is missing: a `ServeConn` that returns has closed its connection unless it has returned `ErrServerClosed`. -/
theorem C64_partial (c : Option Addr) (s : State) (h : Reachable step (init c) s) (t : Tid) (conn : Nat) (r : Ret)
    (hop : s.op t = some (.serveConn conn)) (hr : s.pc t = .returned r) : (∃ e, r = .session e ∧ s.connClosed t = true) ∨ r = .errClosed := by
  have inv := inv_of_reachable h
  have hf := inv.fit t
  rw [hr, hop] at hf
  cases r <;> simp [PC.fits, Ret.fits] at hf ⊢
  exact inv.sess.ended t (by rw [hr]; rfl)

/-- C64, a connection for which a session has been started is closed from when the session has ended, whatever happens. -/
theorem C64_partial_served (c : Option Addr) (s s' : State) (h : Reachable step (init c) s) (t : Tid) (ht : s.pc t = .connRun)
    (acts : List Action) (hr : run step s acts = some s') (hd : s'.pc t ≠ .connRun) : s'.connClosed t = true := by
  have key := run_invariant (fun s' => Inv s' ∧ (s'.pc t = .connRun ∨ s'.connClosed t = true)) ⟨inv_of_reachable h, .inl ht⟩
    (fun s1 a s2 h hs => ⟨inv_step _ _ _ h.1 hs, by
      have hf := h.1.go.fresh
      have h := h.2
      clear hr hd ht
      server_cases hs <;> grind [upd_apply]⟩) hr
  exact key.2.resolve_left hd

/-- C64, the goroutine serving an accepted connection has finished without closing it only if the server refused it because
`Close` had been called. -/
theorem C64_partial_refused (c : Option Addr) (s : State) (h : Reachable step (init c) s) (n conn : Nat)
    (hop : s.op (.go n) = some (.serveConn conn)) (hd : s.pc (.go n) = .done) : s.connClosed (.go n) = true ∨ s.shutdown = true := by
  have key : Reachable step (init c) s ∧ (∀ conn, s.op (.go n) = some (.serveConn conn) → s.pc (.go n) = .done → s.connClosed (.go n) = true ∨ s.shutdown = true) :=
    h.invariant (fun s => Reachable step (init c) s ∧ ∀ conn, s.op (.go n) = some (.serveConn conn) → s.pc (.go n) = .done → s.connClosed (.go n) = true ∨ s.shutdown = true)
      ⟨.refl _, by simp [init]⟩ (fun s1 a s2 h hs => ⟨h.1.next hs, by
        have hf := (inv_of_reachable h.1).go.fresh
        have ho := (inv_of_reachable h.1).go.opIdle
        have hc := closedInv_of_reachable h.1
        have hp := C64_partial c s1 h.1 (.go n)
        have h := h.2
        server_cases hs <;> grind [upd_apply, entry_ne_done]⟩)
  exact key.2 conn hop hd

/-- A connection is accepted just before `Close`. -/
def lateAccept : List Action :=
  [.userListen 1, .call 0 (.serve 0), .thread (.user 0), .thread (.user 0), .accept (.user 0) (.conn 5), .call 1 .close, .thread (.user 1), .thread (.user 1), .thread (.user 0),
   .thread (.go 0), .thread (.go 0), .thread (.user 1)]

/-- C64 is false: a connection accepted just before `Close` is dropped without being closed. -/
theorem C64_refuted : ¬ C64_claim := by
  intro hc
  have := hc none (after lateAccept) 0 5 (after_reachable (by decide)) (by rfl) (by rfl)
  exact absurd this (by decide)

/-! ## The hypotheses are met -/

-- C64: a session that has ended
example : Reachable step (init none) (after [.call 0 (.serveConn 5), .thread (.user 0), .thread (.user 0), .thread (.user 0), .sessionEnd (.user 0) none, .thread (.user 0)]) ∧
    (after [.call 0 (.serveConn 5), .thread (.user 0), .thread (.user 0), .thread (.user 0), .sessionEnd (.user 0) none, .thread (.user 0)]).pc (.user 0) = .returned (.session none) :=
  ⟨after_reachable (by decide), by rfl⟩

-- and one that is running and one that is refused
example : (after [.call 0 (.serveConn 5), .thread (.user 0), .thread (.user 0), .thread (.user 0)]).pc (.user 0) = .connRun ∧
    (after lateAccept).op (.go 0) = some (.serveConn 5) ∧ (after lateAccept).pc (.go 0) = .done ∧ (after lateAccept).connClosed (.go 0) = false :=
  ⟨by rfl, by rfl, by rfl, by rfl⟩

/-- A server is started, gets two configurations one after the other, and accepts two connections and some errors. -/
def busy : List Action :=
  [.call 0 .start, .call 1 .start, .thread (.user 0), .thread (.user 1), .thread (.user 0), .thread (.user 1), .thread (.user 0),
   .config 1, .takeConfig (.user 0), .listen (.user 0) true, .thread (.user 0), .thread (.go 0), .thread (.go 0),
   .accept (.go 0) (.conn 5), .thread (.go 0), .accept (.go 0) (.err ⟨true, true⟩), .accept (.go 0) (.conn 6), .thread (.go 0),
   .thread (.go 2), .thread (.go 2), .thread (.go 2), .thread (.go 1), .thread (.go 1), .thread (.go 1),
   .config 2, .takeConfig (.user 0), .listen (.user 0) true, .thread (.user 0), .thread (.go 3), .thread (.go 3),
   .accept (.go 0) (.err ⟨true, false⟩), .sessionEnd (.go 1) none]

/-- The first connection has ended; then the server is closed. -/
def closing : List Action := busy ++ [.thread (.go 1), .thread (.go 1), .thread (.go 0), .call 2 .close, .thread (.user 2)]

def closed : List Action :=
  closing ++ [.thread (.user 2), .sessionEnd (.go 2) (some 3), .thread (.go 2), .thread (.go 2), .accept (.go 3) (.err ⟨false, false⟩), .thread (.go 3), .thread (.user 2)]

-- C50, C51, C55, C57: two starts, two listeners, two connections, a temporary and a permanent error
example : Reachable step (init none) (after busy) ∧ (after busy).tried = [(.user 0, 1, some 0), (.user 0, 2, some 1)] ∧
    (after busy).pc (.user 1) = .returned .errStarted ∧ (after busy).op (.user 1) = some .start ∧ (after busy).shutdown = false ∧
    (after busy).installed = [0, 1] ∧ (after busy).lnOpen 1 = true ∧ (after busy).lnOpen 0 = false ∧
    (after busy).sessions = [.go 1, .go 2] ∧ (after busy).pc (.go 0) = .returned (.errAccept ⟨true, false⟩) ∧
    (after busy).accepts (.go 0) = [.conn 5, .err ⟨true, true⟩, .conn 6, .err ⟨true, false⟩] :=
  ⟨after_reachable (by decide), by decide, by rfl, by rfl, by decide, by decide, by decide, by decide, by decide, by rfl, by decide⟩

-- C50_closed: `Start` after `Close`
example : (after closed).shutdown = true ∧ (run step (after closed) [.call 7 .start, .thread (.user 7)]).isSome = true := ⟨by decide, by decide⟩

-- C53_partial, C54, C54_returns: `Close` closes everything, waits and returns
example : Reachable step (init none) (after closing) ∧ (after closing).pc (.user 2) = .closeLock ∧
    (∀ t' ln, (after closing).pc t' ≠ .serveLock ln) ∧ (∀ t', (after closing).pc t' ≠ .connRegLock) ∧
    (after closed).pc (.user 2) = .returned .nil ∧ run step (after closing) (closed.drop closing.length) = some (after closed) := by
  have h : (after closing).pc = fun t => if t = .user 0 then .startLoop else if t = .user 1 then .returned .errStarted else if t = .user 2 then .closeLock
      else if t = .go 0 then .done else if t = .go 1 then .done else if t = .go 2 then .connRun else if t = .go 3 then .serveAccept 1 else .idle := by
    funext t
    match t with
    | .user 0 => rfl
    | .user 1 => rfl
    | .user 2 => rfl
    | .user (n + 3) => rfl
    | .go 0 => rfl
    | .go 1 => rfl
    | .go 2 => rfl
    | .go 3 => rfl
    | .go (n + 4) => rfl
  refine ⟨after_reachable (by decide), by rfl, fun t' ln => ?_, fun t' => ?_, by rfl, after_append (by decide)⟩
  · rw [h]; simp only; repeat' split
    all_goals simp
  · rw [h]; simp only; repeat' split
    all_goals simp

/-- `Close` comes while one session runs and another is being removed. -/
def meeting : List Action := busy ++ [.call 2 .close, .thread (.user 2)]

-- C53_partial_before
example : Reachable step (init none) (after meeting) ∧ (after meeting).pc (.user 2) = .closeLock ∧
    (after meeting).installed = [0, 1] ∧ (after meeting).pc (.go 2) = .connRun ∧ (after meeting).pc (.go 1) = .connRemove (.session none) ∧
    (after (meeting ++ [.thread (.user 2)])).pc (.user 2) ≠ .closeLock ∧ run step (after meeting) [.thread (.user 2)] = some (after (meeting ++ [.thread (.user 2)])) :=
  ⟨after_reachable (by decide), by rfl, by decide, by rfl, by rfl, by decide, after_append (by decide)⟩

/-- `Close` is called in a quiet moment. -/
def quietly : List Action :=
  [.call 0 .start, .thread (.user 0), .thread (.user 0), .thread (.user 0),
   .config 1, .takeConfig (.user 0), .listen (.user 0) true, .thread (.user 0), .thread (.go 0), .thread (.go 0), .call 2 .close]

theorem quietly_pc : (after quietly).pc = fun t => if t = .user 0 then .startLoop else if t = .user 2 then .closeFire else if t = .go 0 then .serveAccept 0 else .idle := by
  funext t
  match t with
  | .user 0 => rfl
  | .user 1 => rfl
  | .user 2 => rfl
  | .user (n + 3) => rfl
  | .go 0 => rfl
  | .go (n + 1) => rfl

-- C53_partial_start
example : Reachable step (init none) (after quietly) ∧ (after quietly).pc (.user 2) = .closeFire ∧ (after quietly).shutdown = false ∧ Quiet (after quietly) ∧
    (after quietly).tried = [(.user 0, 1, some 0)] ∧ (run step (after quietly) [.thread (.user 2), .thread (.user 2)]).isSome = true := by
  refine ⟨after_reachable (by decide), by rfl, by decide, ⟨fun t => ?_, fun _ => by decide⟩, by decide, by decide⟩
  rw [quietly_pc]; simp only; repeat' split
  all_goals rfl

/-- Steps that are calm for a simple reason. -/
def simple (s : State) : Action → Bool
  | .thread t => match s.pc t with | .startDo _ => false | _ => true
  | a => a.harmless

def runCalm : State → List Action → Option State
  | s, [] => some s
  | s, a :: as =>
    if simple s a = true then
      match step s a with
      | some s' => runCalm s' as
      | none => none
    else none

theorem simple_calm {s : State} {a : Action} (h : simple s a = true) : Calm s a := by
  cases a with
  | thread t =>
    intro ln hln
    simp [simple, hln] at h
  | _ => exact undisturbed_of_harmless (by simpa [simple] using h) s

theorem runCalm_reachable {c : Option Addr} {s s' : State} {acts : List Action} (h0 : ReachableBy Calm c s) (h : runCalm s acts = some s') :
    ReachableBy Calm c s' := by
  induction acts generalizing s with
  | nil => simp only [runCalm, Option.some.injEq] at h; exact h ▸ h0
  | cons a as ih =>
    unfold runCalm at h
    by_cases hc : simple s a = true
    · rw [if_pos hc] at h
      split at h
      · exact ih (.step h0 (simple_calm hc) ‹_›) h
      · simp at h
    · rw [if_neg hc] at h; simp at h

-- C52_partial: the state before `Close` is called in the execution above
example : ReachableBy Calm none (after (quietly.take 10)) ∧ Settled (after (quietly.take 10)) ∧
    (after (quietly.take 10)).tried.getLast? = some (.user 0, 1, some 0) := by
  have h7 : ReachableBy Calm none (after (quietly.take 7)) := runCalm_reachable (acts := quietly.take 7) .init (by rfl)
  have h8 : ReachableBy Calm none (after (quietly.take 8)) := by
    refine .step h7 (a := .thread (.user 0)) (fun ln _ t => ?_) (by rfl)
    match t with
    | .user 0 => rfl
    | .user (n + 1) => rfl
    | .go n => rfl
  refine ⟨runCalm_reachable (acts := (quietly.take 10).drop 8) h8 (by rfl), ⟨⟨.user 0, by rfl⟩, by decide, fun t => ?_⟩, by decide⟩
  match t with
  | .user 0 => rfl
  | .user (n + 1) => rfl
  | .go 0 => rfl
  | .go (n + 1) => rfl

theorem served_pc : (after (quietly.take 10)).pc = fun t => if t = .user 0 then .startLoop else if t = .go 0 then .serveAccept 0 else .idle := by
  funext t
  match t with
  | .user 0 => rfl
  | .user (n + 1) => rfl
  | .go 0 => rfl
  | .go (n + 1) => rfl

-- C52_rest: the same state
example : Reachable step (init none) (after (quietly.take 10)) ∧ AtRest (after (quietly.take 10)) ∧
    (after (quietly.take 10)).op (.user 0) = some .start ∧ ∀ r, (after (quietly.take 10)).pc (.user 0) ≠ .returned r := by
  refine ⟨after_reachable (by decide), fun a ha => ?_, by rfl, fun r => by rw [served_pc]; simp⟩
  have hu : (after (quietly.take 10)).updates = [] := by decide
  have hsh : (after (quietly.take 10)).shutdown = false := by decide
  have key : ∀ t, (after (quietly.take 10)).pc t = .idle ∨ (after (quietly.take 10)).pc t = .startLoop ∨ (after (quietly.take 10)).pc t = .serveAccept 0 := by
    intro t
    rw [served_pc]
    simp only
    repeat' split
    all_goals simp
  cases a <;> simp [Action.inner] at ha
  case thread t => unfold step; rcases key t with h | h | h <;> simp [h]
  case takeConfig t => unfold step; rcases key t with h | h | h <;> simp [h, hu]
  case noticeShutdown t => unfold step; rcases key t with h | h | h <;> simp [h, hsh]
  case listen t o => unfold step; rcases key t with h | h | h <;> simp [h]

-- C54_rest: at the end of the execution above nothing more can happen
example : (after closed).pc (.user 2) = .returned .nil ∧ ∀ a, a.winding (after closed) → step (after closed) a = none := by
  have h : (after closed).pc = fun t => if t = .user 0 then .startLoop else if t = .user 1 then .returned .errStarted else if t = .user 2 then .returned .nil
      else if t = .go 0 then .done else if t = .go 1 then .done else if t = .go 2 then .done else if t = .go 3 then .done else .idle := by
    funext t
    match t with
    | .user 0 => rfl
    | .user 1 => rfl
    | .user 2 => rfl
    | .user (n + 3) => rfl
    | .go 0 => rfl
    | .go 1 => rfl
    | .go 2 => rfl
    | .go 3 => rfl
    | .go (n + 4) => rfl
  refine ⟨by rfl, fun a ha => ?_⟩
  have key : ∀ t, (after closed).pc t = .idle ∨ (after closed).pc t = .startLoop ∨ (after closed).pc t = .done ∨ (∃ n r, t = .user n ∧ (after closed).pc t = .returned r) := by
    intro t
    rw [h]
    simp only
    repeat' split
    all_goals simp_all
  cases a <;> simp [Action.winding] at ha
  case thread t => unfold step; rcases key t with h | h | h | ⟨n, r, rfl, h⟩ <;> simp [h]
  case accept t o => unfold step; rcases key t with h | h | h | ⟨n, r, rfl, h⟩ <;> simp [h]
  case sessionEnd t o => unfold step; rcases key t with h | h | h | ⟨n, r, rfl, h⟩ <;> simp [h]

-- C56: a configuration with the same address after `Start` has returned, and one with another
example : Reachable step (init none) (after stopped) ∧ (step (after stopped) (.config 1)).isSome = true ∧ (after stopped).subscribed = true ∧
    (after stopped).starter = some (.user 0) ∧ (after stopped).pc (.user 0) = .returned .errClosed :=
  ⟨after_reachable (by decide), by decide, by decide, by decide, by rfl⟩

end Gevulot.ServerModel
