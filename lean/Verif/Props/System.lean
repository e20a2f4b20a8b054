import Verif.Proofs.System
import Verif.Props.FullSession
import Verif.Props.Server

/-!
# C70–C72: the server and its sessions together

`s` ranges over every state that a process (Model/System.lean) can reach: the server, any number of callers and connections,
the session of each connection with its two peers, interleaved in any way.
-/

namespace Gevulot.System

open ServerModel (Tid PC)

variable {parse : Bytes → Option ConnectionParams} {c : Option ServerModel.Addr}

/-! ## C70 Close ends every session and returns -/

/-- The steps that are gevulot's to make: not the peers', no calls from outside, no new connection or configuration, no timer.
`Accept` on a closed listener returns an error. -/
def Internal (s : State) : Action → Prop
  | .server (.thread _) => True
  | .server (.takeConfig _) => True
  | .server (.noticeShutdown _) => True
  | .server (.listen _ _) => True
  | .server (.sessionEnd _ _) => True
  | .server (.accept t o) => ∃ e ln, o = .err e ∧ e.survived = false ∧ s.server.pc t = .serveAccept ln ∧ s.server.lnOpen ln = false
  | .closeNext _ => True
  | .session _ b => b = .base .callStart ∨ FullSession.Internal b
  | _ => False

/-- Gevulot has nothing to do. -/
def Settled (parse : Bytes → Option ConnectionParams) (s : State) : Prop := ∀ a, Internal s a → step parse s a = none

theorem settled_session {s : State} (hc : s.crashed = false) (h : Settled parse s) (t : Tid) : FullSession.Settled parse (s.sess t) := by
  intro b hb
  have h1 := h (.session t b) (.inr hb)
  have hm : s.sessionMay t b = true := by
    unfold State.sessionMay
    split
    · simp [FullSession.Internal, SessionModel.Action.isSession] at hb
    · simp [FullSession.Internal, SessionModel.Action.isSession] at hb
    · rfl
  simpa [step, hc, hm] using h1

theorem base_rest {x : FullSession.State} (h : FullSession.Settled parse x) :
    ∀ a, a.isSession = true → SessionModel.step x.base a = none := by
  intro a ha
  have := h (.base a) ha
  have hh : FullSession.isHandshake a = false := by cases a <;> simp [SessionModel.Action.isSession] at ha <;> rfl
  simpa [FullSession.step, hh] using this

/-- At rest, a session that was closed has returned, or waits for the database on a connection that `Close` has missed. -/
theorem settled_fired {x : FullSession.State} (h : Reachable (FullSession.step parse) FullSession.init x) (hc : x.base.crashed = false)
    (hrest : FullSession.Settled parse x) (hf : x.base.fired = true) (hn : x.base.start ≠ .notCalled) :
    x.base.start = .returned ∨ SessionModel.Hanging x.base := by
  have inv := SessionModel.inv_of_reachable (FullSession.base_reachable h)
  have hr := base_rest hrest
  have hd := SessionModel.rank_of_fired inv hf hc (hr .closeStep rfl)
  refine SessionModel.rest_hanging inv hf hc ?_ hr hn
  rcases FullSession.settled_hs x h hc hrest with hx | ⟨_, hx⟩
  · have hst := (FullSession.hinv_of_reachable h).stage
    unfold FullSession.Stage at hst
    rw [hx] at hst
    exact hst.1
  · have : (x.base.conn .client).isOpen = false := SessionModel.C39_client x.base (FullSession.base_reachable h) hd
    simp [FullSession.tryRecvStartup, this] at hx

/-- At rest, `Close` does not hold the lock. -/
theorem settled_unlocked {s : State} (h : Reachable (step parse) (init c) s) (hc : s.crashed = false) (hrest : Settled parse s) :
    s.locked = false := by
  have hl := link_of_reachable h
  have hret : s.closeReturned = true := by
    unfold State.closeReturned
    split
    · rfl
    · rename_i t ht
      have inv := SessionModel.inv_of_reachable (FullSession.base_reachable (session_reachable h t))
      have := SessionModel.rank_of_fired inv (hl.closing t ht) ((hl.crashed hc).2.2 t) (base_rest (settled_session hc hrest t) .closeStep rfl)
      simp [this]
  have : s.toClose = [] := by
    cases hx : s.toClose with
    | nil => rfl
    | cons t ts =>
      have := hrest (.closeNext t) trivial
      have hcr := (hl.crashed hc).2.2 t
      by_cases hf : (s.sess t).base.fired = true <;>
        simp [step, hc, hx, hret, FullSession.step, FullSession.isHandshake, SessionModel.step, hcr, hf] at this
  simp [State.locked, this, hret]

/-- Where goroutines can be at rest. -/
theorem settled_go {s : State} (h : Reachable (step parse) (init c) s) (hc : s.crashed = false) (hrest : Settled parse s) {n : Nat}
    (hn : n < s.server.spawned) :
    s.server.pc (.go n) = .done ∨ (∃ ln, s.server.pc (.go n) = .serveAccept ln ∧ s.server.lnOpen ln = true) ∨
    (s.server.pc (.go n) = .connRun ∧ (s.sess (.go n)).base.start ≠ .notCalled ∧ (s.sess (.go n)).base.start ≠ .returned) := by
  have hl := link_of_reachable h
  have hu := settled_unlocked h hc hrest
  have hcr := hl.crashed hc
  have hi := ServerModel.inv_of_reachable (server_reachable h)
  have h1 := ServerModel.jobInv_of_reachable (server_reachable h) n
  have h2 : (s.server.pc (.go n)).fits (s.server.op (.go n)) := hi.fit (.go n)
  have hthr := hrest (.server (.thread (.go n))) trivial
  simp only [step, hc, State.allows, hu, Bool.false_and, Bool.not_false, Bool.false_eq_true, if_false, if_true,
    Option.map_eq_none_iff] at hthr
  simp only [ServerModel.step, hcr, Bool.or_self, Bool.false_eq_true, if_false] at hthr
  cases hpc : s.server.pc (.go n) <;> rw [hpc] at h2 hthr <;> simp only [PC.fits] at h2 <;> simp at hthr
  case idle =>
    have := (hi.go.fresh n).mp hpc
    omega
  case serveAccept ln =>
    right; left
    refine ⟨ln, rfl, ?_⟩
    cases ho : s.server.lnOpen ln with
    | true => rfl
    | false =>
      have := hrest (.server (.accept (.go n) (.err ⟨true, false⟩))) ⟨_, ln, rfl, rfl, hpc, ho⟩
      simp [step, hc, State.allows, ServerModel.step, hcr, hpc, ServerModel.AcceptErr.survived] at this
  case connRun =>
    right; right
    refine ⟨rfl, fun hx => ?_, fun hx => ?_⟩
    · have := hrest (.session (.go n) (.base .callStart)) (.inl rfl)
      simp [step, hc, State.sessionMay, hpc, FullSession.step, FullSession.isHandshake, SessionModel.step, hcr, hx] at this
    · have := hrest (.server (.sessionEnd (.go n) none)) trivial
      simp [step, hc, State.allows, hx, ServerModel.step, hcr, hpc] at this
  case done => exact .inl rfl
  case startLoop => exact absurd h2 h1.1
  case startListen => exact absurd h2 h1.1
  case closeWait => exact absurd h2.1 h1.2
  all_goals simp_all

/-- C70, what `Close` waits for when it waits for ever: in a process in which gevulot has nothing to do (but the watchdog of
`Close` may go off), a waiting `Close` waits for a goroutine that accepts connections from a listener which is still open, or
for a session it has not closed, or for a session that it has closed while it was dialling: its client is gone, the
connection to its database is open, and it waits for the database to say something. -/
theorem C70_wait_partial (s : State) (h : Reachable (step parse) (init c) s) (hc : s.crashed = false) (hrest : Settled parse s)
    (t : Tid) (r : ServerModel.Ret) (ht : s.server.pc t = .closeWait r) :
    ∃ n, n < s.server.spawned ∧
      ((∃ ln, s.server.pc (.go n) = .serveAccept ln ∧ s.server.lnOpen ln = true) ∨
        (s.server.pc (.go n) = .connRun ∧ (s.sess (.go n)).base.fired = false) ∨
        (s.server.pc (.go n) = .connRun ∧ (s.sess (.go n)).base.fired = true ∧ (s.sess (.go n)).base.firedInHandshake = true ∧
          (s.sess (.go n)).base.start = .waiting ∧ ((s.sess (.go n)).base.conn .client).isOpen = false ∧
          ((s.sess (.go n)).base.conn .db).isOpen = true ∧ SessionModel.tryRecv ((s.sess (.go n)).base.conn .db) = none)) := by
  have hl := link_of_reachable h
  have hi := ServerModel.inv_of_reachable (server_reachable h)
  have hu := settled_unlocked h hc hrest
  have hcr := hl.crashed hc
  have hw : s.server.wg ≠ 0 := by
    intro hw
    have := hrest (.server (.thread t)) trivial
    simp [step, hc, State.allows, hu, ServerModel.step, hcr, ht, hw] at this
  rw [hi.go.wg, Ne, ServerModel.live_zero] at hw
  obtain ⟨n, hn, hd⟩ : ∃ n, n < s.server.spawned ∧ s.server.pc (.go n) ≠ .done := by
    refine Decidable.byContradiction fun hx => hw fun n hn => ?_
    exact Decidable.byContradiction fun hd => hx ⟨n, hn, hd⟩
  refine ⟨n, hn, ?_⟩
  rcases settled_go h hc hrest hn with h1 | h1 | ⟨h1, h2, h3⟩
  · exact absurd h1 hd
  · exact .inl h1
  · right
    cases hf : (s.sess (.go n)).base.fired with
    | false => exact .inl ⟨h1, rfl⟩
    | true =>
      right
      have hx := settled_session hc hrest (.go n)
      have inv := SessionModel.inv_of_reachable (FullSession.base_reachable (session_reachable h (.go n)))
      have hcl := SessionModel.rank_of_fired inv hf (hcr.2.2 _) (base_rest hx .closeStep rfl)
      rcases settled_fired (session_reachable h (.go n)) (hcr.2.2 _) hx hf h2 with g | g
      · exact absurd g h3
      · exact ⟨h1, rfl, inv.close.late g.closer g.isOpen, g.start, SessionModel.C39_client _ (FullSession.base_reachable (session_reachable h (.go n))) hcl,
          g.isOpen, g.silent⟩

theorem returned_stays {s s' : ServerModel.State} {a : ServerModel.Action} {n : Nat} {r : ServerModel.Ret}
    (h : s.pc (.user n) = .closeWait r ∨ s.pc (.user n) = .returned r) (hs : ServerModel.step s a = some s') :
    s'.pc (.user n) = .closeWait r ∨ s'.pc (.user n) = .returned r := by
  server_cases hs <;> grind [upd_apply]

/-- C70, what does hold: if `Close` gets the lock in a moment in which no `Serve` or `ServeConn` is between its check that the
server is open and what it does relying on it, and each session is through with its handshake, then, whatever the peers and
others do: when gevulot has nothing left to do, and has not crashed (C71), `Close` has returned, all goroutines have finished, and
each session has returned and both its connections are closed. -/
theorem C70_partial (s s1 s2 : State) (h : Reachable (step parse) (init c) s) (t : Tid) (ht : s.server.pc t = .closeLock)
    (h1 : ∀ u ln, s.server.pc u ≠ .serveLock ln) (h2 : ∀ u, s.server.pc u ≠ .connRegLock)
    (h3 : ∀ u, s.server.pc u = .connRun → (s.sess u).base.start.inHandshake = false ∧ (s.sess u).base.start ≠ .notCalled)
    (hs : step parse s (.server (.thread t)) = some s1) (acts : List Action) (hr : run (step parse) s1 acts = some s2)
    (hc : s2.crashed = false) (hrest : Settled parse s2) :
    (∃ r, s2.server.pc t = .returned r) ∧ (∀ n, n < s2.server.spawned → s2.server.pc (.go n) = .done) ∧
    ∀ u, (s2.sess u).base.start ≠ .notCalled → (s2.sess u).base.start = .returned ∧ ∀ p, ((s2.sess u).base.conn p).isOpen = false := by
  have hi := ServerModel.inv_of_reachable (server_reachable h)
  have hcov : Covered s2 := by
    have := run_invariant (fun x => Reachable (step parse) (init c) x ∧ Covered x)
      ⟨h.next hs, covered_of_close hi (link_of_reachable h) ht h1 h2 h3 hs⟩
      (fun x a x' hx hs => ⟨hx.1.next hs, covered_step (ServerModel.inv_of_reachable (server_reachable hx.1)) (link_of_reachable hx.1) hx.2 hs⟩) hr
    exact this.2
  have hR : Reachable (step parse) (init c) s2 := (h.next hs).trans ⟨acts, hr⟩
  have hi2 := ServerModel.inv_of_reachable (server_reachable hR)
  have hl := link_of_reachable hR
  have hu := settled_unlocked hR hc hrest
  have hcr := hl.crashed hc
  have hto : s2.toClose = [] := by
    cases hx : s2.toClose with
    | nil => rfl
    | cons => simp [State.locked, hx] at hu
  have hret : ∀ u, (s2.sess u).base.start ≠ .notCalled → (s2.sess u).base.start = .returned := by
    intro u hn
    refine Decidable.byContradiction fun hx => ?_
    have hcon := hl.live u hn hx
    have hf : (s2.sess u).base.fired = true := by
      rcases (hcov.run u hcon).2 with g | g
      · rw [hto] at g; simp at g
      · exact g
    have inv := SessionModel.inv_of_reachable (FullSession.base_reachable (session_reachable hR u))
    rcases settled_fired (session_reachable hR u) (hcr.2.2 u) (settled_session hc hrest u) hf hn with g | g
    · exact hx g
    · have := inv.close.late g.closer g.isOpen
      rw [(hcov.past u).2] at this; simp at this
  have hdone : ∀ n, n < s2.server.spawned → s2.server.pc (.go n) = .done := by
    intro n hn
    rcases settled_go hR hc hrest hn with g | ⟨ln, g1, g2⟩ | ⟨_, g1, g2⟩
    · exact g
    · have := hcov.swept.closed.listeners ln (ServerModel.installed_of_reachable (server_reachable hR) (.go n) ln (by rw [g1]; rfl))
      rw [this] at g2; simp at g2
    · exact absurd (hret _ g1) g2
  have htu : ∃ n, t = .user n := by
    cases t with
    | user n => exact ⟨n, rfl⟩
    | go n =>
      have := hi.fit (.go n)
      rw [ht] at this
      exact absurd this (ServerModel.jobInv_of_reachable (server_reachable h) n).2
  obtain ⟨n, rfl⟩ := htu
  have hfirst : ∃ r, s1.server.pc (.user n) = .closeWait r := by
    obtain ⟨_, ⟨b, srv, hb', _, hb, rfl⟩ | ⟨_, _, hb', _⟩ | ⟨_, _, _, hb', _⟩⟩ := step_cases hs
    · simp only [Action.server.injEq] at hb'; subst hb'
      obtain ⟨_, htr⟩ := ServerModel.step_tr hb
      cases htr <;> simp_all
    · simp at hb'
    · simp at hb'
  obtain ⟨r, hfirst⟩ := hfirst
  have hlast : s2.server.pc (.user n) = .closeWait r ∨ s2.server.pc (.user n) = .returned r := by
    refine run_invariant (fun x : State => x.server.pc (.user n) = .closeWait r ∨ x.server.pc (.user n) = .returned r) (.inl hfirst) ?_ hr
    intro x a x' hx hs
    obtain ⟨_, ⟨b, srv, _, _, hb, rfl⟩ | ⟨_, _, _, _, _, _, rfl⟩ | ⟨_, _, _, _, _, _, rfl⟩⟩ := step_cases hs
    · exact returned_stays hx hb
    · exact hx
    · exact hx
  refine ⟨⟨r, ?_⟩, hdone, fun u hn => ⟨hret u hn, fun p => ?_⟩⟩
  · rcases hlast with g | g
    · have hw : s2.server.wg = 0 := by rw [hi2.go.wg, ServerModel.live_zero]; exact hdone
      have := hrest (.server (.thread (.user n))) trivial
      simp [step, hc, State.allows, hu, ServerModel.step, hcr, g, hw] at this
    · exact g
  · have inv := SessionModel.inv_of_reachable (FullSession.base_reachable (session_reachable hR u))
    have hf := inv.exit.returned (.inl (hret u hn))
    have hcl := SessionModel.rank_of_fired inv hf (hcr.2.2 u) (base_rest (settled_session hc hrest u) .closeStep rfl)
    exact (SessionModel.closed_of_done inv (hcov.past u).2 hcl p).1

/-- C70: once `Close` waits, gevulot can go on in such a way that it returns. -/
def C70_claim : Prop :=
  ∀ (parse : Bytes → Option ConnectionParams) (c : Option ServerModel.Addr) (s : State) (t : Tid) (r : ServerModel.Ret),
    Reachable (step parse) (init c) s → s.crashed = false → s.server.pc t = .closeWait r →
    ∃ acts s' r', run (step parse) s acts = some s' ∧ s'.server.pc t = .returned r'

/-- C70, sessions that `Close` has missed: if a session of a goroutine is through its handshake, was not closed and is not among
those that `Close` is about to close, then `Close` does not return, whatever anybody does. -/
theorem C70_missed (s : State) (h : Reachable (step parse) (init c) s) (t : Tid) (r : ServerModel.Ret) (n : Nat)
    (ht : s.server.pc t = .closeWait r) (hu : s.server.pc (.go n) = .connRun) (hto : .go n ∉ s.toClose)
    (hrun : (s.sess (.go n)).base.proc ≠ .notStarted) (hf : (s.sess (.go n)).base.fired = false)
    (acts : List Action) (s' : State) (hr : run (step parse) s acts = some s') : s'.server.pc t = .closeWait r := by
  refine (run_invariant (fun x => Reachable (step parse) (init c) x ∧ x.server.pc t = .closeWait r ∧ x.server.pc (.go n) = .connRun ∧
    .go n ∉ x.toClose ∧ (x.sess (.go n)).base.proc ≠ .notStarted ∧ (x.sess (.go n)).base.fired = false)
    ⟨h, ht, hu, hto, hrun, hf⟩ ?_ hr).2.1
  rintro x a x' ⟨k1, k2, k3, k4, k5, k6⟩ hs
  have hi := ServerModel.inv_of_reachable (server_reachable k1)
  have hl := link_of_reachable k1
  have inv := SessionModel.inv_of_reachable (FullSession.base_reachable (session_reachable k1 (.go n)))
  have hw := inv.exit.waiting k5 k6
  obtain ⟨g1, g2⟩ := wait_step hi hl k2 k3 (by rw [hw]; simp) hs
  refine ⟨k1.next hs, g1, g2, ?_⟩
  obtain ⟨hc, ⟨b, srv, rfl, hal, hb, rfl⟩ | ⟨u, y, rfl, hx, _, hb, rfl⟩ | ⟨u, b, y, rfl, hmay, hb, rfl⟩⟩ := step_cases hs
  · refine ⟨?_, k5, k6⟩
    cases b with
    | thread v =>
      simp only [nextToClose]
      split
      · rename_i hv
        have := hi.sess.one v t (by rw [hv]; rfl) (by rw [k2]; rfl)
        rw [this, k2] at hv; simp at hv
      · exact k4
    | _ => exact k4
  · have hne : .go n ≠ u := by rintro rfl; exact k4 hx
    simp only [upd_other _ _ hne]
    exact ⟨by simp [k4], k5, k6⟩
  · by_cases hne : .go n = u
    · subst hne
      simp only [upd_same]
      have := FullSession.step_invariant (· ≠ .callClose) (fun y => SessionModel.Inv y ∧ y.proc ≠ .notStarted ∧ y.fired = false) ⟨inv, k5, k6⟩
        (fun y hy => hy.elim (by intro h; cases y <;> simp [FullSession.isHandshake] at h ⊢) (by rintro rfl rfl; simp [State.sessionMay] at hmay))
        (fun y z y' hz hy hs => ⟨SessionModel.inv_step hy.1 hs, SessionModel.running_step hz hy.1 hy.2 hs⟩) hb
      exact ⟨k4, this.2⟩
    · simp only [upd_other _ _ hne]
      exact ⟨k4, k5, k6⟩

/-- C70, sessions that `Close` came upon while they were dialling: as long as the database neither sends anything nor hangs up,
`Close` does not return, whatever anybody else does. -/
theorem C70_hanging (s : State) (h : Reachable (step parse) (init c) s) (t : Tid) (r : ServerModel.Ret) (n : Nat)
    (ht : s.server.pc t = .closeWait r) (hu : s.server.pc (.go n) = .connRun) (hh : SessionModel.Hanging (s.sess (.go n)).base)
    (acts : List Action) (hacts : ∀ a ∈ acts, (∀ bs, a ≠ .session (.go n) (.base (.peerSends .db bs))) ∧ ∀ e, a ≠ .session (.go n) (.base (.peerEnds .db e)))
    (s' : State) (hr : run (step parse) s acts = some s') : s'.server.pc t = .closeWait r := by
  refine (run_invariant_of (fun a => (∀ bs, a ≠ .session (.go n) (.base (.peerSends .db bs))) ∧ ∀ e, a ≠ .session (.go n) (.base (.peerEnds .db e)))
    (fun x => Reachable (step parse) (init c) x ∧ x.server.pc t = .closeWait r ∧ x.server.pc (.go n) = .connRun ∧
      SessionModel.Hanging (x.sess (.go n)).base) ⟨h, ht, hu, hh⟩ ?_ hacts hr).2.1
  rintro x a x' ha ⟨k1, k2, k3, k4⟩ hs
  obtain ⟨g1, g2⟩ := wait_step (ServerModel.inv_of_reachable (server_reachable k1)) (link_of_reachable k1) k2 k3 (by rw [k4.start]; simp) hs
  refine ⟨k1.next hs, g1, g2, ?_⟩
  have key : ∀ (y : FullSession.State) (b : FullSession.Action), (∀ bs, b ≠ .base (.peerSends .db bs)) → (∀ e, b ≠ .base (.peerEnds .db e)) →
      FullSession.step parse (x.sess (.go n)) b = some y → SessionModel.Hanging y.base := by
    intro y b h1 h2 hb
    refine FullSession.step_invariant (fun z => (∀ bs, z ≠ .peerSends .db bs) ∧ ∀ e, z ≠ .peerEnds .db e) SessionModel.Hanging k4 ?_
      (fun y z y' hz hy hs => SessionModel.hanging_step hy hz hs) hb
    rintro z (hz | rfl)
    · cases z <;> simp [FullSession.isHandshake] at hz ⊢
    · exact ⟨fun bs hx => h1 bs (by rw [hx]), fun e hx => h2 e (by rw [hx])⟩
  obtain ⟨hc, ⟨b, srv, rfl, hal, hb, rfl⟩ | ⟨u, y, rfl, hx, _, hb, rfl⟩ | ⟨u, b, y, rfl, hmay, hb, rfl⟩⟩ := step_cases hs
  · exact k4
  · by_cases hne : .go n = u
    · subst hne
      simp only [upd_same]
      exact key y _ (by simp) (by simp) hb
    · simp only [upd_other _ _ hne]; exact k4
  · by_cases hne : .go n = u
    · subst hne
      simp only [upd_same]
      exact key y b (fun bs hx => ha.1 bs (by rw [hx])) (fun e hx => ha.2 e (by rw [hx])) hb
    · simp only [upd_other _ _ hne]; exact k4

/-! ### It comes to rest -/

/-- Steps that are gevulot's own whatever the state: those of `Internal`, and permanent errors of any `Accept`. -/
def Own : Action → Prop
  | .server b => b.own = true
  | .closeNext _ => True
  | .session _ b => b = .base .callStart ∨ FullSession.Internal b

theorem own_of_internal {s : State} {a : Action} (h : Internal s a) : Own a := by
  cases a with
  | server b =>
    cases b <;> simp [Internal, Own, ServerModel.Action.own, ServerModel.Action.inner] at h ⊢
    obtain ⟨e, rfl, h, -⟩ := h
    simpa using h
  | closeNext t => trivial
  | session t b => exact h

def isConn : Option ServerModel.Op → Bool
  | some (.serveConn _) => true
  | _ => false

/-- The sessions in which gevulot can do anything are those of `ServeConn`. -/
structure Served (s : State) : Prop where
  toClose : ∀ t, t ∈ s.toClose → isConn (s.server.op t) = true
  fired : ∀ t, (s.sess t).base.fired = true → isConn (s.server.op t) = true
  called : ∀ t, (s.sess t).base.start ≠ .notCalled → isConn (s.server.op t) = true

theorem op_step {s s' : ServerModel.State} {a : ServerModel.Action} (hi : ServerModel.GoInv s) (hs : ServerModel.step s a = some s') (t : Tid) :
    s.op t ≠ none → s'.op t = s.op t := by
  have hx := hi.opIdle
  have hx' := hi.fresh s.spawned
  simp only [Nat.le_refl, iff_true] at hx'
  clear hi
  server_cases hs <;> grind [upd_apply]

theorem served_step {s s' : State} {a : Action} (hi : ServerModel.Inv s.server) (h : Served s) (hs : step parse s a = some s') : Served s' := by
  obtain ⟨k1, k2, k3⟩ := h
  have keep : ∀ (b : ServerModel.Action) srv, ServerModel.step s.server b = some srv → ∀ t, isConn (s.server.op t) = true → isConn (srv.op t) = true := by
    intro b srv hb t ht
    rw [op_step hi.go hb t (by intro h; rw [h] at ht; simp [isConn] at ht)]
    exact ht
  obtain ⟨hc, ⟨b, srv, rfl, hal, hb, rfl⟩ | ⟨t, x, rfl, ht, hret, hb, rfl⟩ | ⟨t, b, x, rfl, hmay, hb, rfl⟩⟩ := step_cases hs
  · refine ⟨fun t ht => keep b srv hb t ?_, fun t ht => keep b srv hb t (k2 t ht), fun t ht => keep b srv hb t (k3 t ht)⟩
    cases b with
    | thread u =>
      simp only [nextToClose] at ht
      split at ht
      · have h1 := hi.sess.serving t ht
        have h2 := hi.fit t
        cases hpc : s.server.pc t <;> rw [hpc] at h1 h2 <;> simp [PC.serving] at h1
        · obtain ⟨k, h2⟩ := h2; rw [h2]; rfl
        · obtain ⟨⟨k, h2⟩, -⟩ := h2; rw [h2]; rfl
      · exact k1 t ht
    | _ => exact k1 t ht
  · have g := callClose_frame hb
    refine ⟨fun u hu => k1 u (by simp at hu; exact hu.1), fun u => ?_, fun u => ?_⟩
    · simp only [upd_apply]; split
      · rename_i he; subst he; exact fun _ => k1 u ht
      · exact k2 u
    · simp only [upd_apply]; split
      · rename_i he; subst he; exact fun _ => k1 u ht
      · exact k3 u
  · have hrun : b = .base .callStart → isConn (s.server.op t) = true := by
      rintro rfl
      have h1 : s.server.pc t = .connRun := by simpa [State.sessionMay] using hmay
      have := hi.fit t
      rw [h1] at this
      obtain ⟨k, this⟩ := this; rw [this]; rfl
    have hcall : x.base.start ≠ .notCalled → isConn (s.server.op t) = true := by
      intro hn
      by_cases hb' : b = .base .callStart
      · exact hrun hb'
      · exact k3 t (by rw [Ne, ← ((session_frame hb).1 hb').1]; exact hn)
    refine ⟨k1, fun u => ?_, fun u => ?_⟩
    · simp only [upd_apply]; split
      · rename_i he; subst he
        intro hf
        by_cases h1 : (s.sess u).base.fired = true
        · exact k2 u h1
        by_cases h2 : (s.sess u).base.start = .notCalled
        · by_cases h3 : x.base.start = .notCalled
          · have hbc : ∀ y, FullSession.isHandshake y = true ∨ b = .base y → y ≠ .callClose := by
              rintro y (hy | rfl)
              · rintro rfl; simp [FullSession.isHandshake] at hy
              · rintro rfl; simp [State.sessionMay] at hmay
            have := FullSession.step_invariant (· ≠ .callClose) (fun y => y.start = .notCalled → y.fired = false) (fun _ => by simpa using h1) hbc
              (fun y z y' hz hy hs => SessionModel.unfired_step hz hy hs) hb h3
            rw [this] at hf; simp at hf
          · exact hcall h3
        · exact k3 u h2
      · exact k2 u
    · simp only [upd_apply]; split
      · rename_i he; subst he; exact hcall
      · exact k3 u

/-- A session that was neither started nor closed has nothing to do. -/
theorem dormant {x : FullSession.State} (h : Reachable (FullSession.step parse) FullSession.init x) (hn : x.base.start = .notCalled)
    (hf : x.base.fired = false) : FullSession.Settled parse x := by
  have hi := SessionModel.inv_of_reachable (FullSession.base_reachable h)
  have hstage := (FullSession.hinv_of_reachable h).stage
  have hp := hi.early.notSpawned (.inl hn)
  have hpumps := fun p => hi.early.pumps p hp
  have hcl : x.base.closer = .none := by
    have := hi.close.fired
    rw [hf] at this
    cases hx : x.base.closer <;> rw [hx] at this <;> simp [SessionModel.CloserPC.rank] at this
  have hhs : x.hs = .idle := by
    unfold FullSession.Stage at hstage
    split at hstage <;> first | assumption | (rw [hn] at hstage; simp at hstage)
  intro b hb
  cases b with
  | base b =>
    simp only [FullSession.step]
    split
    · rfl
    · have : SessionModel.step x.base b = none := by
        unfold SessionModel.step
        split
        · rfl
        cases b <;> simp [FullSession.Internal, SessionModel.Action.isSession] at hb <;> simp [hn, hp, hcl, hpumps]
      simp [this]
  | _ => simp [FullSession.step, hhs]

/-- What a session still can do. -/
def sessWeight (x : FullSession.State) : Nat := FullSession.weight x + if x.base.start = .notCalled then 7 else 0

theorem sess_callStart {x x' : FullSession.State} (hi : x.hs = .idle) (hs : FullSession.step parse x (.base .callStart) = some x') : sessWeight x' < sessWeight x := by
  have g := callStart_frame hs
  simp only [FullSession.step, FullSession.isHandshake, Bool.false_eq_true, if_false] at hs
  obtain ⟨b, hb, rfl⟩ := Option.map_eq_some_iff.mp hs
  have h1 : SessionModel.weight b ≤ SessionModel.weight x.base := by
    clear hs hi
    obtain ⟨g, -⟩ := g
    session_case hb <;> simp [SessionModel.weight, SessionModel.weight1, SessionModel.StartPC.weight, g]
  simp only at g
  simp only [sessWeight, FullSession.weight, g.1, g.2, if_true, if_false, hi]
  split <;> simp only [FullSession.HsPC.weight] <;> omega

theorem sess_callClose {x x' : FullSession.State} (hf : x.base.fired = true ↔ 0 < x.base.closer.rank)
    (hs : FullSession.step parse x (.base .callClose) = some x') : sessWeight x' ≤ sessWeight x := by
  have g := callClose_frame hs
  simp only [FullSession.step, FullSession.isHandshake, Bool.false_eq_true, if_false] at hs
  obtain ⟨b, hb, rfl⟩ := Option.map_eq_some_iff.mp hs
  have : SessionModel.weight b ≤ SessionModel.weight x.base := by
    session_case hb <;> simp_all [SessionModel.weight, SessionModel.weight1]
  simp only at g
  simp [sessWeight, FullSession.weight, g.1, this]

theorem sess_step {x x' : FullSession.State} {b : FullSession.Action} (hb : FullSession.Internal b)
    (hs : FullSession.step parse x b = some x') : sessWeight x' < sessWeight x := by
  have h1 := FullSession.weight_step hb hs
  have h2 := ((session_frame hs).1 (by rintro rfl; simp [FullSession.Internal, SessionModel.Action.isSession] at hb)).1
  unfold sessWeight
  by_cases h : x.base.start = .notCalled
  · simp [h, h2.mpr h, h1]
  · simp [h, mt h2.mp h, h1]

/-- What the process still can do, if it starts no goroutine from number `n` on. -/
def weight (m n : Nat) (s : State) : Nat :=
  ServerModel.weight m s.server + s.toClose.length + ServerModel.total (fun t => sessWeight (s.sess t)) m n

theorem below_of_conn {m : Nat} {s : ServerModel.State} (hi : ServerModel.GoInv s) (hm : ServerModel.Callers m s) {t : Tid}
    (ht : isConn (s.op t) = true) : t.below m s.spawned :=
  ServerModel.below_of_pc hi hm fun h => by rw [(hi.opIdle t).mpr h] at ht; simp [isConn] at ht

theorem sess_change {m n : Nat} {s : State} (hi : ServerModel.GoInv s.server) (hm : ServerModel.Callers m s.server) (hn : s.server.spawned ≤ n) {t : Tid}
    (ht : isConn (s.server.op t) = true) (x : FullSession.State) :
    ServerModel.total (fun u => sessWeight (upd s.sess t x u)) m n + sessWeight (s.sess t) =
    ServerModel.total (fun u => sessWeight (s.sess u)) m n + sessWeight x := by
  have hb : t.below m n := by
    have := below_of_conn hi hm ht
    cases t <;> simp only [Tid.below] at this ⊢ <;> omega
  have := ServerModel.total_change (f := fun u => sessWeight (s.sess u)) (g := fun u => sessWeight (upd s.sess t x u)) hb
    (fun u hu => by rw [upd_other _ _ hu])
  simpa using this

/-- Of the server's own steps, only finitely many can start a goroutine. -/
theorem spawned_step {m : Nat} {s s' : State} {a : Action} (hi : ServerModel.GoInv s.server) (hm : ServerModel.Callers m s.server) (ha : Own a)
    (hs : step parse s a = some s') :
    ServerModel.weight m s'.server ≤ ServerModel.weight m s.server ∧
    s'.server.spawned + ServerModel.weight m s'.server ≤ s.server.spawned + ServerModel.weight m s.server := by
  obtain ⟨hc, ⟨b, srv, rfl, hal, hb, rfl⟩ | ⟨t, x, rfl, ht, hret, hb, rfl⟩ | ⟨t, b, x, rfl, hmay, hb, rfl⟩⟩ := step_cases hs
  · have h1 := ServerModel.weight_step hi hm ha hb
    have h2 := ServerModel.spawned_step hb
    simp only
    omega
  · exact ⟨Nat.le_refl _, Nat.le_refl _⟩
  · exact ⟨Nat.le_refl _, Nat.le_refl _⟩

theorem weight_step {m n : Nat} {s s' : State} {a : Action} (h : Reachable (step parse) (init c) s) (hv : Served s)
    (hm : ServerModel.Callers m s.server) (hn : s.server.spawned ≤ n) (ha : Own a) (hs : step parse s a = some s') : weight m n s' < weight m n s := by
  have hi := ServerModel.inv_of_reachable (server_reachable h)
  have hl := link_of_reachable h
  obtain ⟨hc, ⟨b, srv, rfl, hal, hb, rfl⟩ | ⟨t, x, rfl, ht, hret, hb, rfl⟩ | ⟨t, b, x, rfl, hmay, hb, rfl⟩⟩ := step_cases hs
  · have h1 := ServerModel.weight_step hi.go hm ha hb
    have h3 : (nextToClose s b).length ≤ s.toClose.length + ServerModel.swept s.server b := by
      cases b with
      | thread t =>
        simp only [nextToClose, ServerModel.swept]
        split <;> omega
      | _ => simp [nextToClose]
    simp only [weight]
    omega
  · have h1 := sess_change hi.go hm hn (hv.toClose t ht) x
    have h2 := sess_callClose (SessionModel.inv_of_reachable (FullSession.base_reachable (session_reachable h t))).close.fired hb
    have h3 : (s.toClose.filter (· ≠ t)).length < s.toClose.length := by
      refine List.length_filter_lt_length_iff_exists.mpr ⟨t, ht, by simp⟩
    simp only [weight]
    omega
  · have hx := session_reachable h t
    have ht : isConn (s.server.op t) = true := by
      rcases ha with rfl | ha
      · have h1 : s.server.pc t = .connRun := by simpa [State.sessionMay] using hmay
        have := hi.fit t
        rw [h1] at this
        obtain ⟨k, this⟩ := this; rw [this]; rfl
      · by_cases h1 : (s.sess t).base.start = .notCalled
        · by_cases h2 : (s.sess t).base.fired = true
          · exact hv.fired t h2
          · have := dormant hx h1 (by simpa using h2) b ha
            rw [this] at hb; simp at hb
        · exact hv.called t h1
    have h1 := sess_change hi.go hm hn ht x
    have h2 : sessWeight x < sessWeight (s.sess t) := by
      rcases ha with rfl | ha
      · have h0 := (callStart_frame hb).1
        have hstage := (FullSession.hinv_of_reachable hx).stage
        refine sess_callStart ?_ hb
        unfold FullSession.Stage at hstage
        split at hstage <;> first | assumption | (rw [h0] at hstage; simp at hstage)
      · exact sess_step ha hb
    simp only [weight]
    omega

/-- C70, and it comes to that: from any state, gevulot can make only a bounded number of steps of its own before it has nothing
to do, or a peer does something, somebody calls it, a connection or a configuration comes, or a timer. -/
theorem C70_finite (s : State) (h : Reachable (step parse) (init c) s) :
    ∃ n, ∀ acts s', (∀ a ∈ acts, Own a) → run (step parse) s acts = some s' → acts.length ≤ n := by
  obtain ⟨m, hm⟩ := ServerModel.callers_of_reachable (server_reachable h)
  have hv : Served s := by
    refine (h.invariant (fun s => Reachable (step parse) (init c) s ∧ Served s) ⟨Reachable.refl _, ?_⟩ ?_).2
    · constructor <;> simp [init, FullSession.init, SessionModel.init]
    · rintro s a s' ⟨hR, hv⟩ hs
      exact ⟨hR.next hs, served_step (ServerModel.inv_of_reachable (server_reachable hR)) hv hs⟩
  let n := s.server.spawned + ServerModel.weight m s.server
  refine ⟨weight m n s, fun acts s' ha hr => ?_⟩
  have := run_measure Own (weight m n) (fun x => Reachable (step parse) (init c) x ∧ Served x ∧ ServerModel.Callers m x.server ∧
      x.server.spawned + ServerModel.weight m x.server ≤ n) ⟨h, hv, hm, Nat.le_refl _⟩
    (fun x a x' ha hx hs => ⟨hx.1.next hs, served_step (ServerModel.inv_of_reachable (server_reachable hx.1)) hx.2.1 hs, by
      obtain ⟨hc, ⟨b, srv, rfl, hal, hb, rfl⟩ | ⟨t, x, rfl, ht, hret, hb, rfl⟩ | ⟨t, b, x, rfl, hmay, hb, rfl⟩⟩ := step_cases hs
      · exact ServerModel.callers_step ha hx.2.2.1 hb
      · exact hx.2.2.1
      · exact hx.2.2.1,
      Nat.le_trans (spawned_step (ServerModel.inv_of_reachable (server_reachable hx.1)).go hx.2.2.1 ha hs).2 hx.2.2.2⟩)
    (fun x a x' ha hx hs => weight_step hx.1 hx.2.1 hx.2.2.1 (by have := hx.2.2.2; omega) ha hs) ha hr
  omega

/-! ### Executions -/

/-- The state after some steps. -/
def after (acts : List Action) : State := (run (step FullSession.exampleParse) (init none) acts).getD (init none)

theorem after_reachable (acts : List Action) (h : (run (step FullSession.exampleParse) (init none) acts).isSome) :
    Reachable (step FullSession.exampleParse) (init none) (after acts) := by
  obtain ⟨s, hs⟩ := Option.isSome_iff_exists.mp h
  exact ⟨acts, by rw [after, hs]; rfl⟩

theorem after_append (as bs : List Action) (h1 : (run (step FullSession.exampleParse) (init none) as).isSome)
    (h2 : (run (step FullSession.exampleParse) (init none) (as ++ bs)).isSome) :
    run (step FullSession.exampleParse) (after as) bs = some (after (as ++ bs)) := by
  obtain ⟨s, hs⟩ := Option.isSome_iff_exists.mp h1
  obtain ⟨s', hs'⟩ := Option.isSome_iff_exists.mp h2
  simp only [after, hs']
  rw [run_append, hs] at hs'
  rw [hs]
  exact hs'

/-- `Serve` is called with a listener and accepts a connection; its goroutine is about to register the session. -/
def accepted : List Action :=
  [.server (.userListen 1), .server (.call 0 (.serve 0)), .server (.thread (.user 0)), .server (.thread (.user 0)),
    .server (.accept (.user 0) (.conn 5)), .server (.thread (.user 0)), .server (.thread (.go 0)), .server (.thread (.go 0))]

/-- `Close` is called, and gets the lock. -/
def close : List Action := [.server (.call 1 .close), .server (.thread (.user 1)), .server (.thread (.user 1))]

/-- `Close` is called before the session is registered. -/
def missed : List Action := accepted ++ close ++ [.server (.thread (.go 0))] ++ FullSession.opened.map (.session (.go 0))

/-- `Close` is called while the session is dialling. -/
def dialling : List Action :=
  accepted ++ [.server (.thread (.go 0))] ++ FullSession.opening.map (.session (.go 0)) ++ close ++ [.closeNext (.go 0)] ++
  List.replicate 6 (.session (.go 0) (.base .closeStep)) ++
  [.session (.go 0) (.dial true), .session (.go 0) .assign, .session (.go 0) (.startup none)]

/-- C70 is false: a connection is accepted just before `Close`, its session is registered after `Close` has gone through the
sessions; `Close` never returns. -/
theorem C70_refuted : ¬ C70_claim := by
  intro hc
  have hR := after_reachable missed (by decide +kernel)
  obtain ⟨acts, s', r', hr, h⟩ := hc _ _ (after missed) (.user 1) .nil hR (by decide +kernel) (by decide +kernel)
  have := C70_missed _ hR (.user 1) .nil 0 (by decide +kernel) (by decide +kernel) (by decide +kernel) (by decide +kernel)
    (by decide +kernel) acts s' hr
  rw [this] at h; simp at h

/-- C70 is false also for sessions that are registered: `Close` is called while the session is dialling its database. All of
`Close`'s own work is done, the client is disconnected, and `Close` does not return as long as the database is silent. -/
theorem C70_refuted_dialling : ∃ (parse : Bytes → Option ConnectionParams) (s : State), Reachable (step parse) (init none) s ∧
    s.crashed = false ∧ s.locked = false ∧ s.server.sessions = [] ∧ ((s.sess (.go 0)).base.conn .client).isOpen = false ∧
    ∀ acts s', (∀ bs, .session (.go 0) (.base (.peerSends .db bs)) ∉ acts) → (∀ e, .session (.go 0) (.base (.peerEnds .db e)) ∉ acts) →
      run (step parse) s acts = some s' → s'.server.pc (.user 1) = .closeWait .nil := by
  have hR := after_reachable dialling (by decide +kernel)
  refine ⟨_, after dialling, hR, by decide +kernel, by decide +kernel, by decide +kernel, by decide +kernel, fun acts s' h1 h2 hr => ?_⟩
  refine C70_hanging _ hR (.user 1) .nil 0 (by decide +kernel) (by decide +kernel) ?_ acts ?_ s' hr
  · exact ⟨by decide +kernel, by decide +kernel, by decide +kernel, by decide +kernel, by decide +kernel, by decide +kernel⟩
  · intro a ha
    exact ⟨fun bs hx => h1 bs (hx ▸ ha), fun e hx => h2 e (hx ▸ ha)⟩

/-! ## C71 One session cannot take down the others -/

/-- C71: what happens in one session (its goroutines and its two peers) does not end the process. -/
def C71_claim : Prop :=
  ∀ (parse : Bytes → Option ConnectionParams) (c : Option ServerModel.Addr) (s s' : State) (t : Tid) (acts : List FullSession.Action),
    Reachable (step parse) (init c) s → s.crashed = false → run (step parse) s (acts.map (.session t)) = some s' → s'.crashed = false

/-- Two connections, whose sessions get through their handshakes. -/
def two : List Action :=
  [.server (.call 0 (.serveConn 5)), .server (.call 1 (.serveConn 6)), .server (.thread (.user 0)), .server (.thread (.user 1)),
    .server (.thread (.user 0)), .server (.thread (.user 1)), .server (.thread (.user 0)), .server (.thread (.user 1))] ++
  FullSession.opened.map (.session (.user 0)) ++ FullSession.opened.map (.session (.user 1))

/-- A message of type DataRow, with one column, of length -2. -/
def poison : Bytes := [68, 0, 0, 0, 10, 0, 1, 255, 255, 255, 254]

/-- A client sends it, and its session receives it. -/
def poisoned : List FullSession.Action := [.base (.peerSends .client poison), .base (.inRecv .client)]

/-- C71 is false: two clients are connected. One of them, which needs nothing but the name of the database, sends one malformed
message; the process ends, and the other session with it. -/
theorem C71_refuted : ¬ C71_claim := by
  intro hc
  have hr := after_append two (poisoned.map (.session (.user 0)))
    (by decide +kernel) (by decide +kernel)
  have := hc _ _ _ _ (.user 0) _ (after_reachable two (by decide +kernel)) (by decide +kernel) hr
  revert this
  decide +kernel

/-- The other client's session, before and after. -/
theorem C71_refuted_other : ∃ s s' : State, Reachable (step FullSession.exampleParse) (init none) s ∧
    run (step FullSession.exampleParse) s (poisoned.map (.session (.user 0))) = some s' ∧
    (s.sess (.user 1)).base.start = .waiting ∧ (s.sess (.user 1)).base.fired = false ∧
    ∀ a, step FullSession.exampleParse s' a = none := by
  have h1 := after_reachable two (by decide +kernel)
  have h2 := after_append two (poisoned.map (.session (.user 0))) (by decide +kernel) (by decide +kernel)
  have h3 : ((after two).sess (.user 1)).base.start = .waiting := by decide +kernel
  have h4 : ((after two).sess (.user 1)).base.fired = false := by decide +kernel
  have h5 : (after (two ++ poisoned.map (.session (.user 0)))).crashed = true := by decide +kernel
  generalize after (two ++ poisoned.map (.session (.user 0))) = s' at h2 h5
  generalize after two = s at h1 h2 h3 h4
  exact ⟨s, s', h1, h2, h3, h4, fun a => by simp [step, h5]⟩

/-- A configuration is sent on a closed channel only after `Close`. -/
theorem updates_open {s : ServerModel.State} (h : Reachable ServerModel.step (ServerModel.init c) s) (h1 : s.subscribed = true)
    (h2 : s.updatesClosed = true) : s.shutdown = true := by
  have := h.invariant (fun s => ServerModel.Inv s ∧ (s.subscribed = true → s.updatesClosed = true → s.shutdown = true) ∧
      ∀ t, s.pc t = .startSubscribe → s.subscribed = false) ⟨ServerModel.inv_init c, by simp [ServerModel.init], by simp [ServerModel.init]⟩ ?_
  · exact this.2.1 h1 h2
  · rintro s a s' ⟨hi, k1, k2⟩ hs
    refine ⟨ServerModel.inv_step _ _ _ hi hs, ?_⟩
    have h3 := hi.start.starter
    have h4 := hi.start.start
    have h5 := hi.config.noStart
    have hx := hi.go.fresh s.spawned
    simp only [Nat.le_refl, iff_true] at hx
    have e1 : ∀ op, ServerModel.entry op ≠ .startSubscribe := by intro op; cases op <;> simp [ServerModel.entry]
    have h6 : ∀ t, s.pc t = .startSubscribe → s.starter = some t ∧ s.updatesClosed = false := fun t ht =>
      ⟨h3 t (by rw [ht]; rfl), hi.config.running t (by rw [ht]; rfl)⟩
    have h7 : ∀ t, s.pc t = .startFire → s.start = false → s.subscribed = false := fun t _ hs => (h5 (by
      cases hx : s.starter with
      | none => rfl
      | some t => rw [h4.mpr (by rw [hx]; simp)] at hs; simp at hs)).1
    clear hi h3 h4 h5
    server_cases hs <;> grind [upd_apply]

theorem hs_crashed {x x' : SessionModel.State} {z : SessionModel.Action} (hz : FullSession.isHandshake z = true)
    (hs : SessionModel.step x z = some x') : x'.crashed = x.crashed := by
  session_cases hs <;> simp_all [FullSession.isHandshake]

/-- C71, everything that can end the process: a session receives a malformed message (C19); or, after `Close` of the server was
called: a goroutine of a session that is being closed has a message in hand (C38), the watchdog of `Close` goes off
(C54, C70), or a configuration arrives (C56). So until then, it is only malformed messages. -/
theorem C71_partial (s s' : State) (h : Reachable (step parse) (init c) s) (a : Action) (hs : step parse s a = some s')
    (hc : s'.crashed = true) :
    (∃ t p x rest, a = .session t (.base (.inRecv p)) ∧ SessionModel.tryRecv ((s.sess t).base.conn p) = some (.panic x, rest)) ∨
    (s.server.shutdown = true ∧
      ((∃ t p m, a = .session t (.base (.inSend p)) ∧ (s.sess t).base.inPump p = .send m ∧ (s.sess t).base.fired = true) ∨
       (∃ t p m, a = .session t (.base .procSend) ∧ (s.sess t).base.proc = .send p m ∧ (s.sess t).base.fired = true) ∨
       (∃ t r, a = .server (.watchdog t) ∧ s.server.pc t = .closeWait r) ∨
       (∃ x, a = .server (.config x) ∧ s.server.updatesClosed = true))) := by
  have hi := ServerModel.inv_of_reachable (server_reachable h)
  obtain ⟨hc0, ⟨b, srv, rfl, hal, hb, rfl⟩ | ⟨u, y, rfl, hx, _, hb, rfl⟩ | ⟨u, b, y, rfl, hmay, hb, rfl⟩⟩ := step_cases hs
  · right
    simp only [Bool.or_eq_true] at hc
    have hcr := (link_of_reachable h).crashed hc0
    have hup := fun h1 h2 => updates_open (server_reachable h) h1 h2
    have hcl := hi.sess.closing
    clear hi hal
    server_cases hb
    case watchdog t r hw => exact ⟨hcl t (by rw [hw]; rfl), .inr (.inr (.inl ⟨t, r, rfl, hw⟩))⟩
    case configPanic x _ h1 _ h2 => exact ⟨hup h1 h2, .inr (.inr (.inr ⟨x, rfl, h2⟩))⟩
    all_goals simp_all
  · simp only at hc; rw [hc0] at hc; simp at hc
  · have hR := session_reachable h u
    have inv := SessionModel.inv_of_reachable (FullSession.base_reachable hR)
    have hcr := ((link_of_reachable h).crashed hc0).2.2 u
    simp only at hc
    have hstep : ∃ z, b = .base z ∧ SessionModel.step (s.sess u).base z = some y.base := by
      have fail : ∀ {x y : FullSession.State}, x.fail = some y → y.base.crashed = x.base.crashed := by
        intro x y hf
        unfold FullSession.State.fail at hf
        obtain ⟨b, hb, rfl⟩ := Option.map_eq_some_iff.mp hf
        session_case hb; rfl
      have mapped : ∀ {x : SessionModel.State} {z : SessionModel.Action} {f : SessionModel.State → FullSession.State}, (∀ b, (f b).base = b) →
          FullSession.isHandshake z = true → (SessionModel.step x z).map f = some y → y.base.crashed = x.crashed := by
        intro x z f hf hz hb
        obtain ⟨b, hb', rfl⟩ := Option.map_eq_some_iff.mp hb
        rw [hf]
        exact hs_crashed hz hb'
      have read : ∀ {x b : SessionModel.State} {n : Nat}, SessionModel.step x (.hsRead n) = some b → b.crashed = x.crashed := by
        intro x b n hb
        session_case hb; rfl
      have bad : y.base.crashed ≠ (s.sess u).base.crashed := by rw [hc, hcr]; simp
      cases b with
      | base z =>
        simp only [FullSession.step] at hb
        split at hb
        · simp at hb
        · obtain ⟨w, hw, rfl⟩ := Option.map_eq_some_iff.mp hb
          exact ⟨z, rfl, hw⟩
      | recvStartup =>
        exfalso
        simp only [FullSession.step] at hb
        split at hb
        · split at hb
          · simp at hb
          · obtain ⟨w, hw, hb⟩ := Option.bind_eq_some_iff.mp hb
            have hw' := read hw
            split at hb
            · simp only [Option.some.injEq] at hb; subst hb; exact bad hw'
            · split at hb
              · exact bad ((fail hb).trans hw')
              · simp only [Option.some.injEq] at hb; subst hb; exact bad hw'
          · obtain ⟨w, hw, hb⟩ := Option.bind_eq_some_iff.mp hb
            exact bad ((fail hb).trans (read hw))
          · rename_i hp; exact FullSession.tryRecvStartup_no_panic hp
        · simp at hb
      | reply ok =>
        exfalso
        simp only [FullSession.step] at hb
        split at hb
        · split at hb
          · exact bad (mapped (fun _ => rfl) rfl hb)
          · have hf := fail hb; exact bad hf
        · simp at hb
      | getConfig answer =>
        exfalso
        simp only [FullSession.step] at hb
        split at hb
        · split at hb
          · split at hb
            · have hf := fail hb; exact bad hf
            · split at hb
              · simp at hb
              · simp only [Option.some.injEq] at hb; subst hb; exact bad rfl
          · have hf := fail hb; exact bad hf
        · simp at hb
      | dial ok =>
        exfalso
        simp only [FullSession.step] at hb
        split at hb
        · split at hb
          · exact bad (mapped (fun _ => rfl) rfl hb)
          · have hf := fail hb; exact bad hf
        · simp at hb
      | assign =>
        exfalso
        simp only [FullSession.step] at hb
        split at hb
        · exact bad (mapped (fun _ => rfl) rfl hb)
        · simp at hb
      | startup failure =>
        exfalso
        simp only [FullSession.step] at hb
        split at hb
        · split at hb
          · exact bad (mapped (fun _ => rfl) rfl hb)
          · exact bad (mapped (fun _ => rfl) rfl hb)
        · simp at hb
    obtain ⟨z, rfl, hz⟩ := hstep
    have hfired : ∀ p, ((s.sess u).base.inCh p).closed = true ∨ ((s.sess u).base.outCh p).closed = true → (s.sess u).base.fired = true := by
      intro p hp
      rw [inv.close.fired]
      cases p
      · rw [inv.close.clientIn, inv.close.clientOut] at hp; simp at hp; omega
      · rw [inv.close.dbIn, inv.close.dbOut] at hp; simp at hp; omega
    have hshut : (s.sess u).base.proc ≠ .notStarted → (s.sess u).base.fired = true → s.server.shutdown = true := by
      intro h1 h2
      cases hsd : s.server.shutdown with
      | true => rfl
      | false => exact absurd (own_of_reachable h (.inl hsd) u h2).1 h1
    have hpump : ∀ p m, (s.sess u).base.inPump p = .send m → (s.sess u).base.proc ≠ .notStarted := by
      intro p m hp hn
      have := (inv.early.pumps p hn).1
      rw [hp] at this; simp at this
    rcases SessionModel.crash_cause inv hz hc with ⟨p, x, r, rfl, _, h2⟩ | ⟨p, m, rfl, h1, h2⟩ | ⟨src, m, rfl, h1, h2⟩
    · exact .inl ⟨u, p, x, r, rfl, h2⟩
    · have := hfired p (.inl h2)
      exact .inr ⟨hshut (hpump p m h1) this, .inl ⟨u, p, m, rfl, h1, this⟩⟩
    · have := hfired _ (.inr h2)
      exact .inr ⟨hshut (by rw [h1]; simp) this, .inr (.inl ⟨u, src, m, rfl, h1, this⟩)⟩

/-! ## C72 Sessions do not mix -/

/-- C72: whoever makes a step, only the session concerned changes. -/
theorem C72 (s s' : State) (a : Action) (u : Tid) (ha : a ≠ .closeNext u) (hb : ∀ b, a ≠ .session u b)
    (hs : step parse s a = some s') : s'.sess u = s.sess u := by
  obtain ⟨_, ⟨b, srv, rfl, _, _, rfl⟩ | ⟨t, y, rfl, _, _, _, rfl⟩ | ⟨t, b, y, rfl, _, _, rfl⟩⟩ := step_cases hs
  · rfl
  · exact upd_other _ _ (by rintro rfl; exact ha rfl)
  · exact upd_other _ _ (by rintro rfl; exact hb b rfl)

/-- C72, nor does it matter for what a session can do: after a step of another session that does not end the process (C71), a
session can make the same steps as before, with the same effect on it. -/
theorem C72_independent (s s' : State) (t u : Tid) (hne : u ≠ t) (a b : FullSession.Action) (hs : step parse s (.session t a) = some s')
    (hc : s'.crashed = false) : (step parse s' (.session u b)).map (·.sess u) = (step parse s (.session u b)).map (·.sess u) := by
  obtain ⟨hc0, ⟨_, _, h, _⟩ | ⟨_, _, h, _⟩ | ⟨t', a', y, h, _, _, rfl⟩⟩ := step_cases hs
  · simp at h
  · simp at h
  · simp only [Action.session.injEq] at h
    obtain ⟨rfl, rfl⟩ := h
    have hc1 : y.base.crashed = false := hc
    have hm : State.sessionMay { s with sess := upd s.sess t y, crashed := false } u b = s.sessionMay u b := by
      unfold State.sessionMay; split <;> rfl
    simp only [step, hc0, hc1, hm, Bool.false_eq_true, if_false, upd_other _ _ hne]
    split
    · cases FullSession.step parse (s.sess u) b <;> simp
    · rfl

/-- Only `ServeConn` starts sessions. -/
theorem serveConn_of_called {s : State} (h : Reachable (step parse) (init c) s) (t : Tid) (hn : (s.sess t).base.start ≠ .notCalled) :
    ∃ k, s.server.op t = some (.serveConn k) := by
  refine (h.invariant (fun s => Reachable (step parse) (init c) s ∧ ∀ t, (s.sess t).base.start ≠ .notCalled → ∃ k, s.server.op t = some (.serveConn k))
    ⟨Reachable.refl _, by simp [init, FullSession.init, SessionModel.init]⟩ ?_).2 t hn
  rintro s a s' ⟨hR, hi⟩ hs
  refine ⟨hR.next hs, ?_⟩
  have hinv := ServerModel.inv_of_reachable (server_reachable hR)
  have hl := link_of_reachable hR
  obtain ⟨_, ⟨b, srv, rfl, _, hb, rfl⟩ | ⟨u, y, rfl, _, _, hb, rfl⟩ | ⟨u, b, y, rfl, hmay, hb, rfl⟩⟩ := step_cases hs
  · intro t hn
    obtain ⟨k, hk⟩ := hi t hn
    refine ⟨k, ?_⟩
    have hx := hinv.go.opIdle
    have hx' := hinv.go.fresh s.server.spawned
    simp only [Nat.le_refl, iff_true] at hx'
    clear hs hR hl hinv
    server_cases hb <;> grind [upd_apply]
  · intro t
    have g := callClose_frame hb
    simp only [upd_apply]; split
    · rename_i he; subst he; rw [g.1]; exact hi t
    · exact hi t
  · intro t
    simp only [upd_apply]; split
    · rename_i he; subst he
      intro hn
      by_cases hb' : b = .base .callStart
      · subst hb'
        have h1 : s.server.pc t = .connRun := by simpa [State.sessionMay] using hmay
        have := hinv.fit t
        rw [h1] at this
        exact this
      · exact hi t (by rw [Ne, ← ((session_frame hb).1 hb').1]; exact hn)
    · exact hi t

/-- C72, the database's side: in a process with any number of sessions, a database is dialled only for a connection that was
passed to `ServeConn`, and gets only what that client sent: if the session has dialled, or written to the database, then its
client sent SSL requests, then a startup packet `pkt` decoded as `m`, then `relayed`; one configuration was asked for, it admits
`m`, and its address was the only one dialled; and the database got a prefix of: the encoding of `m`, then the encodings of
the messages in `relayed`, in order. -/
theorem C72_db (s : State) (h : Reachable (step parse) (init c) s) (t : Tid)
    (hd : (s.sess t).dialed ≠ [] ∨ ((s.sess t).base.conn .db).written ≠ []) :
    (∃ k, s.server.op t = some (.serveConn k)) ∧
    ∃ (requests : List Bytes) (pkt relayed rest url : Bytes) (m : StartupMessage) (settings : ConnectionParams) (ms : List Msg),
      (∀ b ∈ requests, Spec.SSLRequest b) ∧ Spec.StartupPacket pkt m ∧
      ((s.sess t).base.conn .client).sent = requests.flatten ++ pkt ++ relayed ∧ Spec.Stream relayed ms rest ∧
      (s.sess t).configs = [some url] ∧ parse url = some settings ∧ Spec.Admitted m settings ∧
      (s.sess t).dialed = [joinHostPort (settings.get (ascii "host")) (settings.get (ascii "port"))] ∧
      ((s.sess t).base.conn .db).written <+: sendMessage (.startup m) ++ ms.flatMap sendMessage := by
  have hcall : (s.sess t).base.start ≠ .notCalled := by
    intro hn
    have hi := FullSession.hinv_of_reachable (session_reachable h t)
    have hst := hi.stage
    have hnot : (s.sess t).base.proc = .notStarted := hi.early.notSpawned (.inl hn)
    have hw := (hi.early.pumps .db hnot).2.2.2.2.2
    unfold FullSession.Stage at hst
    split at hst
    case h_7 =>
      rcases hst.2 with ⟨_, g1, _, g2, _⟩ | ⟨_, _, g, _⟩
      · rcases hd with hd | hd
        · exact hd g1
        · exact hd (hw.trans g2)
      · exact g hn
    all_goals
      have := hst.1
      rw [hn] at this
      simp at this
  refine ⟨?_, FullSession.C67_db (s.sess t) (session_reachable h t) hd⟩
  exact serveConn_of_called h t hcall

/-- C72, the client's side: the client of a session gets an 'N' for each SSL request it made (the last one may be unanswered
yet), and then only what the database dialled for that session sent; and of that nothing unless it was dialled. -/
theorem C72_client (s : State) (h : Reachable (step parse) (init c) s) (t : Tid) :
    ∃ (requests : List Bytes) (tail rest w : Bytes) (ms : List Msg) (k : Nat),
      (∀ b ∈ requests, Spec.SSLRequest b) ∧ ((s.sess t).base.conn .client).sent = requests.flatten ++ tail ∧
      (k = requests.length ∨ k + 1 = requests.length) ∧
      ((s.sess t).base.conn .client).written = List.replicate k Spec.no ++ w ∧
      Spec.Stream ((s.sess t).base.conn .db).sent ms rest ∧ w <+: ms.flatMap sendMessage ∧ ((s.sess t).dialed = [] → w = []) :=
  FullSession.C67_client (s.sess t) (session_reachable h t)

/-! ## Examples -/

/-- A session with nothing to do, as a computation. -/
def sessionIdle (x : FullSession.State) : Bool :=
  (match x.hs with | .idle => true | _ => false) &&
  [SessionModel.Action.inRecv .client, .inRecv .db, .inSend .client, .inSend .db, .procRecv .client, .procRecv .db, .procSend,
    .outRecv .client, .outRecv .db, .closeStep, .join, .startFinish].all (fun a => (SessionModel.step x.base a).isNone) &&
  [SessionModel.Peer.client, .db].all fun p => match x.base.outPump p with | .write _ => false | _ => true

theorem settled_of_idle {x : FullSession.State} (h : sessionIdle x = true) : FullSession.Settled parse x := by
  simp only [sessionIdle, List.all_cons, List.all_nil, Bool.and_true, Bool.and_eq_true, Option.isNone_iff_eq_none] at h
  obtain ⟨⟨h0, h1, h2, h3, h4, h5, h6, h7, h8, h9, h10, h11, h12⟩, h13, h14⟩ := h
  have hhs : x.hs = .idle := by split at h0 <;> simp_all
  intro a ha
  cases a with
  | base a =>
    cases a with
    | inRecv p => cases p <;> simp [FullSession.step, FullSession.isHandshake, *]
    | inSend p => cases p <;> simp [FullSession.step, FullSession.isHandshake, *]
    | procRecv p => cases p <;> simp [FullSession.step, FullSession.isHandshake, *]
    | outRecv p => cases p <;> simp [FullSession.step, FullSession.isHandshake, *]
    | outWrite p f =>
      have : ∀ m, x.base.outPump p ≠ .write m := by
        intro m hm
        cases p
        · rw [hm] at h13; simp at h13
        · rw [hm] at h14; simp at h14
      simp only [FullSession.step, FullSession.isHandshake, Bool.false_eq_true, if_false, Option.map_eq_none_iff]
      unfold SessionModel.step
      split
      · rfl
      · split <;> simp_all
    | procSend => simp [FullSession.step, FullSession.isHandshake, *]
    | closeStep => simp [FullSession.step, FullSession.isHandshake, *]
    | join => simp [FullSession.step, FullSession.isHandshake, *]
    | startFinish => simp [FullSession.step, FullSession.isHandshake, *]
    | _ => simp [FullSession.Internal, SessionModel.Action.isSession] at ha
  | _ => simp [FullSession.step, hhs]

/-- The threads an action brings into being, or whose session it concerns. -/
def touches : Action → List Tid
  | .server (.call n _) => [.user n]
  | .closeNext t => [t]
  | .session t _ => [t]
  | _ => []

theorem untouched {s : State} {acts : List Action} (h : run (step parse) (init c) acts = some s) (t : Tid) (ht : t ∉ acts.flatMap touches) :
    s.sess t = FullSession.init ∧ ∀ n, t = .user n → s.server.pc t = .idle := by
  refine run_invariant_of (fun a => t ∉ touches a) (fun s => s.sess t = FullSession.init ∧ ∀ n, t = .user n → s.server.pc t = .idle)
    ⟨rfl, fun _ _ => rfl⟩ ?_ (fun a ha hx => ht (List.mem_flatMap.mpr ⟨a, ha, hx⟩)) h
  intro s a s' ha hi hs
  obtain ⟨_, ⟨b, srv, rfl, _, hb, rfl⟩ | ⟨u, y, rfl, _, _, hb, rfl⟩ | ⟨u, b, y, rfl, hmay, hb, rfl⟩⟩ := step_cases hs
  · refine ⟨hi.1, ?_⟩
    rintro n rfl
    have h1 := hi.2 n rfl
    clear hi hs
    have hx : ∀ op, b ≠ .call n op := by rintro op rfl; simp [touches] at ha
    show srv.pc _ = _
    clear ha
    server_cases hb <;> grind [upd_apply]
  · simp only [touches, List.mem_singleton] at ha
    exact ⟨(upd_other _ _ ha).trans hi.1, hi.2⟩
  · simp only [touches, List.mem_singleton] at ha
    exact ⟨(upd_other _ _ ha).trans hi.1, hi.2⟩

/-- A thread of the server with nothing to do. -/
def threadIdle (s : State) (t : Tid) : Bool :=
  match s.server.pc t with
  | .idle => true
  | .done => true
  | .returned _ => match t with | .user _ => true | _ => false
  | .closeWait _ => s.server.wg ≠ 0
  | .connRun => (s.sess t).base.start ≠ .notCalled && (s.sess t).base.start ≠ .returned
  | .serveAccept ln => s.server.lnOpen ln
  | .startLoop => s.server.updates = [] && !s.server.shutdown
  | _ => false

/-- The process has nothing to do, as a computation. -/
def allIdle (s : State) (ts : List Tid) : Bool :=
  s.toClose.isEmpty && ts.all fun t => threadIdle s t && sessionIdle (s.sess t)

theorem settled_of_allIdle {s : State} {acts : List Action} (h : run (step parse) (init c) acts = some s) (ts : List Tid)
    (h1 : (acts.flatMap touches).all (· ∈ ts) = true) (h2 : (List.range s.server.spawned).all (fun n => .go n ∈ ts) = true)
    (h3 : allIdle s ts = true) : Settled parse s := by
  simp only [List.all_eq_true, decide_eq_true_eq, List.mem_range] at h1 h2
  simp only [allIdle, List.isEmpty_iff, List.all_eq_true, Bool.and_eq_true] at h3
  have hall : ∀ t, threadIdle s t = true ∧ sessionIdle (s.sess t) = true := by
    intro t
    by_cases ht : t ∈ ts
    · exact h3.2 t ht
    · obtain ⟨g1, g2⟩ := untouched h t (fun hx => ht (h1 t hx))
      have : s.server.pc t = .idle := by
        cases t with
        | user n => exact g2 n rfl
        | go n =>
          refine ((ServerModel.inv_of_reachable (server_reachable ⟨acts, h⟩)).go.fresh n).mpr (Nat.le_of_not_lt fun hx => ht (h2 n hx))
      exact ⟨by simp [threadIdle, this], by rw [g1]; decide⟩
  intro a ha
  cases hx : step parse s a with
  | none => rfl
  | some s' =>
    exfalso
    obtain ⟨_, ⟨b, srv, rfl, hal, hb, rfl⟩ | ⟨u, y, rfl, ht, _, hb, rfl⟩ | ⟨u, b, y, rfl, hmay, hb, rfl⟩⟩ := step_cases hx
    · have hid := fun t => (hall t).1
      unfold threadIdle at hid
      clear hx hall
      server_cases hb
      case sessionEnd t e hp =>
        have := hid t
        simp [State.allows] at hal
        simp [hp, hal] at this
      case noticeShutdown t hp hc => have := hid t; simp [hp, hc] at this
      case takeConfig t x rest hp hc => have := hid t; simp [hp, hc] at this
      case closeDone t r hp hw => have := hid t; simp [hp, hw] at this
      case goDone n r hp => have := hid (.go n); simp [hp] at this
      case accept t ln k hp ho => simp [Internal] at ha
      case acceptTemp t ln e hp he => obtain ⟨_, _, he', h', _⟩ := ha; cases he'; rw [he] at h'; simp at h'
      case acceptPerm t ln e hp he =>
        obtain ⟨_, ln', _, _, h', ho⟩ := ha
        rw [hp] at h'; cases h'
        have := hid t; simp [hp, ho] at this
      case call => simp [Internal] at ha
      case watchdog => simp [Internal] at ha
      case configPanic => simp [Internal] at ha
      case configSend => simp [Internal] at ha
      case configSame => simp [Internal] at ha
      case closeConfig => simp [Internal] at ha
      case userListen => simp [Internal] at ha
      case userCloseListener => simp [Internal] at ha
      all_goals
        have := hid ‹Tid›
        simp_all
    · rw [h3.1] at ht; simp at ht
    · have hse := settled_of_idle (parse := parse) (hall u).2
      rcases ha with rfl | ha
      · have hp : s.server.pc u = .connRun := by simpa [State.sessionMay] using hmay
        have := (hall u).1
        simp [threadIdle, hp, (callStart_frame hb).1] at this
      · rw [hse b ha] at hb; simp at hb

/-- C70_wait_partial: the missed session, `Serve` has noticed that its listener is closed. -/
def missedRest : List Action := missed ++ [.server (.accept (.user 0) (.err ⟨false, false⟩))]

theorem after_run (acts : List Action) (h : (run (step FullSession.exampleParse) (init none) acts).isSome) :
    run (step FullSession.exampleParse) (init none) acts = some (after acts) := by
  obtain ⟨s, hs⟩ := Option.isSome_iff_exists.mp h
  rw [after, hs]; rfl

example : Reachable (step FullSession.exampleParse) (init none) (after missedRest) ∧ (after missedRest).crashed = false ∧
    Settled FullSession.exampleParse (after missedRest) ∧ (after missedRest).server.pc (.user 1) = .closeWait .nil :=
  ⟨after_reachable _ (by decide +kernel), by decide +kernel,
    settled_of_allIdle (after_run _ (by decide +kernel)) [.user 0, .user 1, .go 0] (by decide +kernel) (by decide +kernel) (by decide +kernel),
    by decide +kernel⟩

/-- C70_partial: `Close` is called when the session is through its handshake. -/
def beforeClose : List Action :=
  accepted ++ [.server (.thread (.go 0))] ++ FullSession.opened.map (.session (.go 0)) ++ [.server (.call 1 .close), .server (.thread (.user 1))]

def afterClose : List Action :=
  [.server (.thread (.user 1)), .closeNext (.go 0)] ++ List.replicate 6 (.session (.go 0) (.base .closeStep)) ++
  ([.inRecv .client, .inRecv .db, .procRecv .client, .outRecv .client, .outRecv .db, .join, .startFinish].map fun a => .session (.go 0) (.base a)) ++
  [.server (.sessionEnd (.go 0) none), .server (.thread (.go 0)), .server (.thread (.go 0)),
    .server (.accept (.user 0) (.err ⟨false, false⟩)), .server (.thread (.user 1))]

example : let s := after beforeClose; let s1 := after (beforeClose ++ afterClose.take 1); let s2 := after (beforeClose ++ afterClose)
    Reachable (step FullSession.exampleParse) (init none) s ∧ s.server.pc (.user 1) = .closeLock ∧
    (∀ u ln, s.server.pc u ≠ .serveLock ln) ∧ (∀ u, s.server.pc u ≠ .connRegLock) ∧
    (∀ u, s.server.pc u = .connRun → (s.sess u).base.start.inHandshake = false ∧ (s.sess u).base.start ≠ .notCalled) ∧
    run (step FullSession.exampleParse) s (afterClose.take 1) = some s1 ∧ s2.crashed = false ∧ Settled FullSession.exampleParse s2 ∧
    s2.server.pc (.user 1) = .returned .nil := by
  have hrun := after_run beforeClose (by decide +kernel)
  have hpc : ∀ u, u ∉ [Tid.user 0, .user 1, .go 0] → (after beforeClose).server.pc u = .idle := by
    intro u hu
    cases u with
    | user n =>
      refine (untouched hrun (.user n) ?_).2 n rfl
      intro hx
      have : (beforeClose.flatMap touches).all (· ∈ [Tid.user 0, .user 1, .go 0]) = true := by decide +kernel
      rw [List.all_eq_true] at this
      exact hu (by simpa using this _ hx)
    | go n =>
      have hs : (after beforeClose).server.spawned = 1 := by decide +kernel
      refine ((ServerModel.inv_of_reachable (server_reachable ⟨_, hrun⟩)).go.fresh n).mpr ?_
      rw [hs]
      cases n with
      | zero => simp at hu
      | succ n => omega
  have h0 : (after beforeClose).server.pc (.user 0) = .serveAccept 0 := by decide +kernel
  have h1 : (after beforeClose).server.pc (.user 1) = .closeLock := by decide +kernel
  have h2 : (after beforeClose).server.pc (.go 0) = .connRun := by decide +kernel
  have key : ∀ u, (after beforeClose).server.pc u = .idle ∨ u = .user 0 ∨ u = .user 1 ∨ u = .go 0 := by
    intro u
    by_cases hu : u ∈ [Tid.user 0, .user 1, .go 0]
    · right; simpa using hu
    · exact .inl (hpc u hu)
  refine ⟨⟨_, hrun⟩, h1, fun u ln => ?_, fun u => ?_, fun u => ?_, after_append _ _ (by decide +kernel) (by decide +kernel), by decide +kernel, ?_, by decide +kernel⟩
  · rcases key u with h | rfl | rfl | rfl
    · rw [h]; simp
    · rw [h0]; simp
    · rw [h1]; simp
    · rw [h2]; simp
  · rcases key u with h | rfl | rfl | rfl
    · rw [h]; simp
    · rw [h0]; simp
    · rw [h1]; simp
    · rw [h2]; simp
  · rcases key u with h | rfl | rfl | rfl
    · rw [h]; simp
    · rw [h0]; simp
    · rw [h1]; simp
    · intro _; exact ⟨by decide +kernel, by decide +kernel⟩
  · exact settled_of_allIdle (after_run _ (by decide +kernel)) [.user 0, .user 1, .go 0] (by decide +kernel) (by decide +kernel) (by decide +kernel)

/-- C72: two sessions, one of which has a query passed on. -/
def twoBusy : List Action :=
  two ++ ([.peerSends .client SessionModel.queryBytes, .inRecv .client, .inSend .client, .procRecv .client, .procSend, .outRecv .db,
    .outWrite .db none].map fun a => .session (.user 1) (.base a))

example : Reachable (step FullSession.exampleParse) (init none) (after twoBusy) ∧ (after twoBusy).crashed = false ∧
    (((after twoBusy).sess (.user 0)).base.conn .db).written = Spec.wire (.startup FullSession.exampleStartup) ∧
    (((after twoBusy).sess (.user 1)).base.conn .db).written = Spec.wire (.startup FullSession.exampleStartup) ++ SessionModel.queryBytes :=
  ⟨after_reachable _ (by decide +kernel), by decide +kernel, by decide +kernel, by decide +kernel⟩

end Gevulot.System
