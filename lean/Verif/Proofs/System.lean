import Verif.Model.System
import Verif.Proofs.ServerClose
import Verif.Proofs.FullSession

/-!
The server with its sessions: how the two models are tied together.
-/

namespace Gevulot

/-! ### Sessions -/

namespace SessionModel

theorem past_step {s s' : State} {a : Action} (ha : a ≠ .callStart) (h : s.start.inHandshake = false ∧ s.firedInHandshake = false)
    (hs : step s a = some s') : s'.start.inHandshake = false ∧ s'.firedInHandshake = false := by
  obtain ⟨h1, h3⟩ := h
  session_cases hs <;> grind [StartPC.inHandshake]

/-- If nobody else calls `Close`, then only a session without goroutines is closed. -/
def Own (s : State) : Prop := s.fired = true → s.proc = .notStarted ∧ s.start.inHandshake = false ∧ s.start ≠ .notCalled

theorem own_step {s s' : State} {a : Action} (ha : a ≠ .callClose) (hi : Inv s) (h : Own s) (hs : step s a = some s') : Own s' := by
  have h1 := hi.exit.waiting
  have h2 := hi.early.notSpawned
  clear hi
  unfold Own at *
  session_cases hs <;> grind [StartPC.inHandshake]

/-- `Close` happened in the handshake only if somebody else than `Start` called it. -/
theorem fih_step {s s' : State} {a : Action} (ha : a ≠ .callClose) (h : s.firedInHandshake = false) (hs : step s a = some s') :
    s'.firedInHandshake = false := by
  session_cases hs <;> grind [StartPC.inHandshake]

theorem fired_step {s s' : State} {a : Action} (h : s.fired = true) (hs : step s a = some s') : s'.fired = true := by
  session_cases hs <;> grind

theorem unfired_step {s s' : State} {a : Action} (ha : a ≠ .callClose) (h : s.start = .notCalled → s.fired = false)
    (hs : step s a = some s') : s'.start = .notCalled → s'.fired = false := by
  session_cases hs <;> grind

theorem notCalled_step {s s' : State} {a : Action} (ha : a ≠ .callStart) (hs : step s a = some s') :
    (s'.start = .notCalled ↔ s.start = .notCalled) ∧ (s.start = .returned → s'.start = .returned) := by
  session_cases hs <;> grind

/-- `Close` has come, and the connection to the database was left open and silent: its pump waits for ever. -/
structure Hanging (s : State) : Prop where
  start : s.start = .waiting
  fired : s.fired = true
  closer : 2 < s.closer.rank
  isOpen : (s.conn .db).isOpen = true
  pump : s.inPump .db = .recv
  silent : tryRecv (s.conn .db) = none

theorem hanging_step {s s' : State} {a : Action} (h : Hanging s) (ha : (∀ bs, a ≠ .peerSends .db bs) ∧ ∀ e, a ≠ .peerEnds .db e)
    (hs : step s a = some s') : Hanging s' := by
  obtain ⟨h1, h2, h3, h4, h5, h6⟩ := h
  have he : s.allExited = false := by simp [State.allExited, h5]
  have key : ∀ c : PeerConn, c.isOpen = (s.conn .db).isOpen → c.ended = (s.conn .db).ended → c.unread = (s.conn .db).unread → tryRecv c = none := by
    intro c c1 c2 c3
    rw [← h6]; unfold tryRecv; rw [c1, c2, c3]
  have key2 : ∀ w, tryRecv { s.conn .db with written := w } = none := fun w => key _ rfl rfl rfl
  have hpc : ∀ p : Peer, p ≠ .db → p = .client := by intro p; cases p <;> simp
  cases a with
  | peerSends p bs =>
    cases p with
    | db => exact absurd rfl (ha.1 bs)
    | client => session_case hs; constructor <;> grind [upd_apply, CloserPC.rank]
  | peerEnds p e =>
    cases p with
    | db => exact absurd rfl (ha.2 e)
    | client => session_case hs; constructor <;> grind [upd_apply, CloserPC.rank]
  | _ =>
    clear ha
    session_case hs
    all_goals constructor <;> grind [upd_apply, CloserPC.rank]

/-- At rest, after `Close`, `Start` has returned, or `Hanging`. -/
theorem rest_hanging {s : State} (h : Inv s) (hf : s.fired = true) (hc : s.crashed = false) (hh : s.start.inHandshake = false)
    (hrest : ∀ a, a.isSession = true → step s a = none) (hn : s.start ≠ .notCalled) :
    s.start = .returned ∨ Hanging s := by
  have hd := rank_of_fired h hf hc (hrest .closeStep rfl)
  have hi : ∀ p, (s.inCh p).closed = true ∧ (s.outCh p).closed = true := by
    intro p
    cases p with
    | client => exact ⟨by rw [h.close.clientIn, hd]; rfl, by rw [h.close.clientOut, hd]; rfl⟩
    | db => exact ⟨by rw [h.close.dbIn, hd]; rfl, by rw [h.close.dbOut, hd]; rfl⟩
  have hcc : (s.conn .client).isOpen = false := by rw [h.close.client.2.2, hd]; rfl
  cases hst : s.start with
  | notCalled => exact absurd hst hn
  | returned => exact .inl rfl
  | negotiating => rw [hst] at hh; simp [StartPC.inHandshake] at hh
  | dialled => rw [hst] at hh; simp [StartPC.inHandshake] at hh
  | assigned => rw [hst] at hh; simp [StartPC.inHandshake] at hh
  | deferred b => have := hrest .startFinish rfl; simp [step, hc, hst, hf] at this
  | closing => have := hrest .startFinish rfl; simp [step, hc, hst, hd] at this
  | waiting =>
    right
    have hrun := h.early.spawned (.inl hst)
    have hnp := fun p => h.early.pumps' p hrun
    have hin : ∀ p, (∃ e, s.inPump p = .exited e) ∨ (s.inPump p = .recv ∧ tryRecv (s.conn p) = none) := by
      intro p
      cases hp : s.inPump p with
      | notStarted => exact absurd hp (hnp p).1
      | exited e => exact .inl ⟨e, rfl⟩
      | recv =>
        right
        refine ⟨rfl, ?_⟩
        have := hrest (.inRecv p) rfl
        simp only [step, hc, hp, Bool.false_eq_true, if_false, if_true] at this
        split at this
        · assumption
        all_goals simp at this
      | send m => have := hrest (.inSend p) rfl; simp [step, hc, hp, hi] at this
    have hout : ∀ p, ∃ e, s.outPump p = .exited e := by
      intro p
      cases hp : s.outPump p with
      | notStarted => exact absurd hp (hnp p).2
      | exited e => exact ⟨e, rfl⟩
      | recv =>
        have := hrest (.outRecv p) rfl
        cases hb : (s.outCh p).buf <;> simp [step, hc, hp, hi, hb] at this
      | write m => have := hrest (.outWrite p (some (0, .io 0))) rfl; simp [step, hc, hp] at this
    have hproc : s.proc = .exited := by
      cases hp : s.proc with
      | notStarted => exact absurd hp hrun
      | exited => rfl
      | select =>
        have := hrest (.procRecv .client) rfl
        cases hb : (s.inCh .client).buf <;> simp [step, hc, hp, hi, hb] at this
      | send src m => have := hrest .procSend rfl; simp [step, hc, hp, hi] at this
    obtain ⟨e1, h1⟩ : ∃ e, s.inPump .client = .exited e := by
      rcases hin .client with hx | ⟨_, hx⟩
      · exact hx
      · simp [tryRecv, hcc] at hx
    obtain ⟨e3, h3⟩ := hout .client
    obtain ⟨e4, h4⟩ := hout .db
    rcases hin .db with ⟨e2, h2⟩ | ⟨h2, h2'⟩
    · have := hrest .join rfl
      simp [step, hc, hst, State.allExited, h1, h2, h3, h4, hproc] at this
    · refine ⟨hst, hf, by rw [hd]; decide, ?_, h2, h2'⟩
      cases ho : (s.conn .db).isOpen with
      | true => rfl
      | false => simp [tryRecv, ho] at h2'

end SessionModel

namespace FullSession

variable {parse : Bytes → Option ConnectionParams}

/-- What every step of Model/Session.lean but some preserves is preserved here. -/
theorem step_invariant {s s' : State} {a : Action} (kind : SessionModel.Action → Prop) (inv : SessionModel.State → Prop) (h : inv s.base)
    (hk : ∀ x, isHandshake x = true ∨ a = .base x → kind x)
    (hi : ∀ s x s', kind x → inv s → SessionModel.step s x = some s' → inv s') (hs : step parse s a = some s') : inv s'.base := by
  obtain ⟨acts, h1, h2⟩ := step_base hs
  exact run_invariant_of kind inv h hi (fun x hx => hk x (h2 x hx)) h1

end FullSession

/-! ### The server with its sessions -/

namespace System

open ServerModel (Tid PC)

variable {parse : Bytes → Option ConnectionParams} {c : Option ServerModel.Addr}

/-- The sessions `Close` has to get to after this step of the server. -/
def nextToClose (s : State) : ServerModel.Action → List Tid
  | .thread t => if s.server.pc t = .closeLock then s.server.sessions else s.toClose
  | _ => s.toClose

theorem step_cases {s s' : State} {a : Action} (h : step parse s a = some s') : s.crashed = false ∧
    ((∃ b srv, a = .server b ∧ s.allows b = true ∧ ServerModel.step s.server b = some srv ∧
        s' = { s with server := srv, toClose := nextToClose s b, crashed := srv.watchdogPanic || srv.sendPanic }) ∨
      (∃ t x, a = .closeNext t ∧ t ∈ s.toClose ∧ s.closeReturned = true ∧
        FullSession.step parse (s.sess t) (.base .callClose) = some x ∧
        s' = { s with sess := upd s.sess t x, toClose := s.toClose.filter (· ≠ t),
                      closing := if (s.sess t).base.fired then none else some t }) ∨
      ∃ t b x, a = .session t b ∧ s.sessionMay t b = true ∧ FullSession.step parse (s.sess t) b = some x ∧
        s' = { s with sess := upd s.sess t x, crashed := x.base.crashed }) := by
  unfold step at h
  split at h
  · simp at h
  rename_i hc
  refine ⟨by simpa using hc, ?_⟩
  cases a with
  | server b =>
    simp only at h
    split at h
    · obtain ⟨srv, h1, rfl⟩ := Option.map_eq_some_iff.mp h
      exact .inl ⟨b, srv, rfl, ‹_›, h1, by cases b <;> rfl⟩
    · simp at h
  | closeNext t =>
    simp only at h
    split at h
    · rename_i hx
      obtain ⟨x, h1, rfl⟩ := Option.map_eq_some_iff.mp h
      exact .inr (.inl ⟨t, x, rfl, hx.1, hx.2, h1, rfl⟩)
    · simp at h
  | session t b =>
    simp only at h
    split at h
    · obtain ⟨x, h1, rfl⟩ := Option.map_eq_some_iff.mp h
      exact .inr (.inr ⟨t, b, x, rfl, ‹_›, h1, rfl⟩)
    · simp at h

theorem server_step {s : State} {b : ServerModel.Action} {srv : ServerModel.State} (hc : s.crashed = false) (ha : s.allows b = true)
    (h : ServerModel.step s.server b = some srv) : step parse s (.server b) ≠ none := by
  simp [step, hc, ha, h]

/-- The server seen without its sessions. -/
theorem server_reachable {s : State} (h : Reachable (step parse) (init c) s) :
    Reachable ServerModel.step (ServerModel.init c) s.server :=
  h.invariant (fun s => Reachable ServerModel.step (ServerModel.init c) s.server) (Reachable.refl _) fun s a s' hi hs => by
    obtain ⟨_, ⟨b, srv, _, _, h1, rfl⟩ | ⟨t, x, _, _, _, _, rfl⟩ | ⟨t, b, x, _, _, _, rfl⟩⟩ := step_cases hs
    · exact hi.next h1
    · exact hi
    · exact hi

/-- A session seen without the server and the other sessions. -/
theorem session_reachable {s : State} (h : Reachable (step parse) (init c) s) (t : Tid) :
    Reachable (FullSession.step parse) FullSession.init (s.sess t) :=
  h.invariant (fun s => ∀ t, Reachable (FullSession.step parse) FullSession.init (s.sess t)) (fun _ => Reachable.refl _)
    (fun s a s' hi hs => by
      obtain ⟨_, ⟨b, srv, _, _, h1, rfl⟩ | ⟨t, x, _, _, _, h1, rfl⟩ | ⟨t, b, x, _, _, h1, rfl⟩⟩ := step_cases hs
      · exact hi
      all_goals
        intro u
        simp only [upd_apply]
        split
        · exact (hi t).next h1
        · exact hi u) t

/-- `ServeConn` of this thread has called `Session.Start`, or will do so next. -/
def ran : PC → Bool
  | .connRun => true
  | .connRemove _ => true
  | .returned r => r.isSession
  | .done => true
  | _ => false

/-- `Session.Start` of this thread returns. -/
def ends (t : Tid) : ServerModel.Action → Bool
  | .sessionEnd u _ => u = t
  | _ => false

/-- How a step of the server moves its threads. -/
structure Frame (s s' : ServerModel.State) (a : ServerModel.Action) : Prop where
  ran : ∀ t, ran (s.pc t) = true → ran (s'.pc t) = true
  remove : ∀ t r, s'.pc t = .connRemove r → r.isSession = true
  ended : ∀ t, (s'.pc t).ended = true → (s.pc t).ended = true ∨ ends t a = true
  connRun : ∀ t, s.pc t = .connRun → s'.pc t = .connRun ∨ ends t a = true
  register : ∀ t, s'.pc t = .connRun → s.pc t = .connRun ∨ s.pc t = .connRegLock
  shutdown : s.shutdown = true → s'.shutdown = true
  closeLock : ∀ t, s'.pc t = .closeLock → s.pc t = .closeLock ∨ s.shutdown = false
  waits : ∀ t r, s.pc t = .closeWait r → s'.pc t = .closeWait r ∨ (a = .thread t ∧ s.wg = 0 ∧ s'.pc t = .returned r)

theorem frame {s s' : ServerModel.State} {a : ServerModel.Action} (hi : ServerModel.Inv s)
    (hr : ∀ t r, s.pc t = .connRemove r → r.isSession = true) (hs : ServerModel.step s a = some s') : Frame s s' a := by
  have hx := hi.go.fresh s.spawned
  simp only [Nat.le_refl, iff_true] at hx
  have e1 : ∀ op, ran (ServerModel.entry op) = false := by intro op; cases op <;> rfl
  have e2 : ∀ op, ServerModel.entry op ≠ .connRun := by intro op; cases op <;> simp [ServerModel.entry]
  have e3 : ∀ op r, ServerModel.entry op ≠ .connRemove r := by intro op; cases op <;> simp [ServerModel.entry]
  have e4 : ∀ op, (ServerModel.entry op).ended = false := by intro op; cases op <;> rfl
  have e5 : ∀ op, ServerModel.entry op ≠ .closeLock := by intro op; cases op <;> simp [ServerModel.entry]
  have hw : ∀ t r, s.pc t = .closeWait r → r.isSession = false := by
    intro t r h
    have := hi.fit t
    rw [h] at this
    obtain ⟨h1, h2⟩ := this
    rw [h1] at h2
    cases r <;> simp [ServerModel.Ret.isSession, ServerModel.Ret.fits] at h2 ⊢
  clear hi
  server_cases hs
  all_goals constructor <;> grind [upd_apply, ran, PC.ended, ServerModel.Ret.isSession, ends]

/-- How server and sessions belong together. -/
structure Link (s : State) : Prop where
  /-- `Start` is called by `ServeConn` -/
  called : ∀ t, (s.sess t).base.start ≠ .notCalled → ran (s.server.pc t) = true
  /-- and `ServeConn` goes on when it has returned -/
  ended : ∀ t, (s.server.pc t).ended = true → (s.sess t).base.start = .returned
  live : ∀ t, (s.sess t).base.start ≠ .notCalled → (s.sess t).base.start ≠ .returned → s.server.pc t = .connRun
  remove : ∀ t r, s.server.pc t = .connRemove r → r.isSession = true
  crashed : s.crashed = false → s.server.watchdogPanic = false ∧ s.server.sendPanic = false ∧ ∀ t, (s.sess t).base.crashed = false
  closing : ∀ t, s.closing = some t → (s.sess t).base.fired = true
  /-- before `Close` has the lock, it has not closed any session -/
  before : (s.server.shutdown = false ∨ ∃ t, s.server.pc t = .closeLock) →
    s.toClose = [] ∧ s.closing = none ∧ ∀ t, (s.sess t).base.firedInHandshake = false ∧
      ((s.sess t).base.start = .notCalled → (s.sess t).base.fired = false)

theorem link_init : Link (init c) := by
  constructor <;> simp [init, ServerModel.init, FullSession.init, SessionModel.init, PC.ended]

theorem session_frame {x x' : FullSession.State} {b : FullSession.Action} (hs : FullSession.step parse x b = some x') :
    (b ≠ .base .callStart → (x'.base.start = .notCalled ↔ x.base.start = .notCalled) ∧ (x.base.start = .returned → x'.base.start = .returned)) ∧
    (x.base.fired = true → x'.base.fired = true) ∧
    (b ≠ .base .callClose → x.base.firedInHandshake = false ∧ (x.base.start = .notCalled → x.base.fired = false) →
      x'.base.firedInHandshake = false ∧ (x'.base.start = .notCalled → x'.base.fired = false)) := by
  have h1 : ∀ y : SessionModel.Action, FullSession.isHandshake y = true → y ≠ .callStart ∧ y ≠ .callClose := by
    intro y h; cases y <;> simp [FullSession.isHandshake] at h ⊢
  refine ⟨fun hb => ?_, ?_, fun hb hx => ?_⟩
  · exact FullSession.step_invariant (· ≠ .callStart)
      (fun y => (y.start = .notCalled ↔ x.base.start = .notCalled) ∧ (x.base.start = .returned → y.start = .returned)) ⟨Iff.rfl, id⟩
      (fun y hy => hy.elim (fun h => (h1 y h).1) (by rintro rfl rfl; exact hb rfl))
      (fun y z y' hz hy hs => ⟨(SessionModel.notCalled_step hz hs).1.trans hy.1, fun h => (SessionModel.notCalled_step hz hs).2 (hy.2 h)⟩) hs
  · intro hx
    exact FullSession.step_invariant (fun _ => True) (fun y => y.fired = true) hx (fun _ _ => trivial)
      (fun y z y' _ hy hs => SessionModel.fired_step hy hs) hs
  · exact FullSession.step_invariant (· ≠ .callClose) (fun y => y.firedInHandshake = false ∧ (y.start = .notCalled → y.fired = false)) hx
      (fun y hy => hy.elim (fun h => (h1 y h).2) (by rintro rfl rfl; exact hb rfl))
      (fun y z y' hz hy hs => ⟨SessionModel.fih_step hz hy.1 hs, SessionModel.unfired_step hz hy.2 hs⟩) hs

theorem callClose_frame {x x' : FullSession.State} (hs : FullSession.step parse x (.base .callClose) = some x') :
    x'.base.start = x.base.start ∧ x'.base.fired = true ∧ x'.base.crashed = x.base.crashed := by
  simp only [FullSession.step, FullSession.isHandshake, Bool.false_eq_true, if_false] at hs
  obtain ⟨b, hb, rfl⟩ := Option.map_eq_some_iff.mp hs
  session_case hb <;> grind

theorem callStart_frame {x x' : FullSession.State} (hs : FullSession.step parse x (.base .callStart) = some x') :
    x.base.start = .notCalled ∧ x'.base.start ≠ .notCalled := by
  simp only [FullSession.step, FullSession.isHandshake, Bool.false_eq_true, if_false] at hs
  obtain ⟨b, hb, rfl⟩ := Option.map_eq_some_iff.mp hs
  session_case hb <;> grind

theorem link_step {s s' : State} {a : Action} (hi : ServerModel.Inv s.server) (h : Link s) (hs : step parse s a = some s') : Link s' := by
  obtain ⟨k1, k2, k3, k4, k5, k6, k7⟩ := h
  obtain ⟨hc, ⟨b, srv, rfl, hal, hb, rfl⟩ | ⟨t, x, rfl, ht, hret, hb, rfl⟩ | ⟨t, b, x, rfl, hmay, hb, rfl⟩⟩ := step_cases hs
  · obtain ⟨f1, f2, f3, f4, f5, f6, f7, f8⟩ := frame hi k4 hb
    have hend : ∀ t, ends t b = true → (s.sess t).base.start = .returned := by
      intro t ht
      cases b <;> simp [ends] at ht
      subst ht
      simpa [State.allows] using hal
    have hthr : (∀ t, b = .thread t → s.server.pc t ≠ .closeLock) → nextToClose s b = s.toClose := by
      intro h
      cases b <;> simp_all [nextToClose]
    refine ⟨fun t h => f1 t (k1 t h), fun t h => (f3 t h).elim (k2 t) (hend t), fun t h h' => (f4 t (k3 t h h')).elim id (fun h2 => absurd (hend t h2) h'),
      f2, fun h => ?_, k6, fun h => ?_⟩
    · have := k5 hc
      simp only [Bool.or_eq_false_iff] at h
      exact ⟨h.1, h.2, this.2.2⟩
    · have hbef : s.server.shutdown = false ∨ ∃ t, s.server.pc t = .closeLock := by
        rcases h with h | ⟨t, h⟩
        · left
          cases hx : s.server.shutdown with
          | false => rfl
          | true => rw [f6 hx] at h; simp at h
        · exact (f7 t h).elim (fun h => .inr ⟨t, h⟩) .inl
      obtain ⟨g1, g2, g3⟩ := k7 hbef
      refine ⟨?_, g2, g3⟩
      rw [hthr ?_]
      · exact g1
      · rintro t rfl hpc
        -- that step leaves no thread at the lock
        have hsh := hi.sess.closing t (by rw [hpc]; rfl)
        rcases h with h | ⟨u, h⟩
        · rw [f6 hsh] at h; simp at h
        · rcases f7 u h with h' | h'
          · have := hi.sess.one u t (by rw [h']; rfl) (by rw [hpc]; rfl)
            subst this
            clear f1 f2 f3 f4 f5 f6 f7 f8
            obtain ⟨hnp, htr⟩ := ServerModel.step_tr hb
            cases htr <;> simp_all
          · rw [hsh] at h'; simp at h'
  · obtain ⟨g1, g2, g3⟩ := callClose_frame hb
    have hsess : ∀ u, (upd s.sess t x u).base.start = (s.sess u).base.start := by
      intro u; simp only [upd_apply]; split
      · rename_i h; rw [g1, h]
      · rfl
    refine ⟨fun u => ?_, fun u => ?_, fun u => ?_, k4, fun h => ⟨(k5 hc).1, (k5 hc).2.1, fun u => ?_⟩, fun u => ?_, fun h => ?_⟩
    · simp only [hsess]; exact k1 u
    · simp only [hsess]; exact k2 u
    · simp only [hsess]; exact k3 u
    · simp only [upd_apply]; split
      · rw [g3]; exact (k5 hc).2.2 t
      · exact (k5 hc).2.2 u
    · simp only [upd_apply]
      intro hu
      split
      · exact g2
      · split at hu
        · simp at hu
        · rename_i hne _; simp only [Option.some.injEq] at hu; exact absurd hu.symm hne
    · have := (k7 h).1
      rw [this] at ht; simp at ht
  · obtain ⟨g1, g2, g3⟩ := session_frame hb
    have hnc : b ≠ .base .callClose := by rintro rfl; simp [State.sessionMay] at hmay
    refine ⟨fun u => ?_, fun u hu => ?_, fun u => ?_, k4, fun h => ⟨(k5 hc).1, (k5 hc).2.1, fun u => ?_⟩, fun u hu => ?_, fun h => ?_⟩
    · simp only [upd_apply]; split
      · rename_i hut; subst hut
        by_cases hb' : b = .base .callStart
        · subst hb'
          intro _
          have : s.server.pc u = .connRun := by simpa [State.sessionMay] using hmay
          simp [this, ran]
        · rw [Ne, (g1 hb').1]; exact k1 u
      · exact k1 u
    · have := k2 u hu
      simp only [upd_apply]; split
      · rename_i hut; subst hut
        by_cases hb' : b = .base .callStart
        · subst hb'
          rw [(callStart_frame hb).1] at this; simp at this
        · exact (g1 hb').2 this
      · exact this
    · simp only [upd_apply]; split
      · rename_i hut; subst hut
        by_cases hb' : b = .base .callStart
        · subst hb'
          intro _ _
          simpa [State.sessionMay] using hmay
        · rw [Ne, (g1 hb').1]
          intro h1 h2
          exact k3 u h1 (fun h => h2 ((g1 hb').2 h))
      · exact k3 u
    · simp only [upd_apply]; split
      · exact h
      · exact (k5 hc).2.2 u
    · simp only [upd_apply]; split
      · rename_i hut; subst hut; exact g2 (k6 u hu)
      · exact k6 u hu
    · obtain ⟨h1, h2, h3⟩ := k7 h
      refine ⟨h1, h2, fun u => ?_⟩
      simp only [upd_apply]; split
      · exact g3 hnc (h3 t)
      · exact h3 u

theorem link_of_reachable {s : State} (h : Reachable (step parse) (init c) s) : Link s :=
  (h.invariant (fun s => Reachable ServerModel.step (ServerModel.init c) s.server ∧ Link s) ⟨Reachable.refl _, link_init⟩
    fun s a s' hi hs => ⟨by
      obtain ⟨_, ⟨b, srv, _, _, h1, rfl⟩ | ⟨t, x, _, _, _, _, rfl⟩ | ⟨t, b, x, _, _, _, rfl⟩⟩ := step_cases hs
      · exact hi.1.next h1
      · exact hi.1
      · exact hi.1, link_step (ServerModel.inv_of_reachable hi.1) hi.2 hs⟩).2

/-- Before `Close` has the lock. -/
def Before (s : State) : Prop := s.server.shutdown = false ∨ ∃ t, s.server.pc t = .closeLock

theorem before_back {s s' : State} {a : Action} (hi : ServerModel.Inv s.server) (hl : Link s) (hs : step parse s a = some s') (h : Before s') :
    Before s := by
  obtain ⟨hc, ⟨b, srv, rfl, hal, hb, rfl⟩ | ⟨t, x, rfl, ht, hret, hb, rfl⟩ | ⟨t, b, x, rfl, hmay, hb, rfl⟩⟩ := step_cases hs
  · have f := frame hi hl.remove hb
    rcases h with h | ⟨t, h⟩
    · left
      cases hx : s.server.shutdown with
      | false => rfl
      | true => simp only [f.shutdown hx] at h; simp at h
    · exact (f.closeLock t h).elim (fun h => .inr ⟨t, h⟩) .inl
  · exact h
  · exact h

theorem own_of_reachable {s : State} (h : Reachable (step parse) (init c) s) (hb : Before s) (t : Tid) : SessionModel.Own (s.sess t).base :=
  (h.invariant (fun s => Reachable (step parse) (init c) s ∧ (Before s → ∀ t, SessionModel.Own (s.sess t).base))
    ⟨Reachable.refl _, by intro _ t h; simp [init, FullSession.init, SessionModel.init] at h⟩
    fun s a s' hi hs => by
      refine ⟨hi.1.next hs, fun hb => ?_⟩
      have hl := link_of_reachable hi.1
      have hb' := before_back (ServerModel.inv_of_reachable (server_reachable hi.1)) hl hs hb
      have ho := hi.2 hb'
      obtain ⟨hc, ⟨b, srv, rfl, hal, hx, rfl⟩ | ⟨t, x, rfl, ht, hret, hx, rfl⟩ | ⟨t, b, x, rfl, hmay, hx, rfl⟩⟩ := step_cases hs
      · exact ho
      · rw [(hl.before hb').1] at ht; simp at ht
      · intro u
        simp only [upd_apply]; split
        · have hinv := SessionModel.inv_of_reachable (FullSession.base_reachable (session_reachable hi.1 t))
          exact (FullSession.step_invariant (· ≠ .callClose) (fun y => SessionModel.Inv y ∧ SessionModel.Own y) ⟨hinv, ho t⟩
            (fun y hy => hy.elim (by intro h; cases y <;> simp [FullSession.isHandshake] at h ⊢)
              (by rintro rfl rfl; simp [State.sessionMay] at hmay))
            (fun y z y' hz hy hs => ⟨SessionModel.inv_step hy.1 hs, SessionModel.own_step hz hy.1 hy.2 hs⟩) hx).2
        · exact ho u).2 hb t

/-- After `Close` has got the lock in a moment in which nobody was past a check and no session in its handshake. -/
structure Covered (s : State) : Prop where
  swept : ServerModel.Swept s.server
  past : ∀ u, (s.sess u).base.start.inHandshake = false ∧ (s.sess u).base.firedInHandshake = false
  run : ∀ u, s.server.pc u = .connRun → (s.sess u).base.start ≠ .notCalled ∧ (u ∈ s.toClose ∨ (s.sess u).base.fired = true)

theorem covered_step {s s' : State} {a : Action} (hi : ServerModel.Inv s.server) (hl : Link s) (h : Covered s) (hs : step parse s a = some s') :
    Covered s' := by
  have hh : ∀ y : SessionModel.Action, FullSession.isHandshake y = true → y ≠ .callStart := by
    intro y h; cases y <;> simp [FullSession.isHandshake] at h ⊢
  obtain ⟨k1, k2, k3⟩ := h
  obtain ⟨hc, ⟨b, srv, rfl, hal, hb, rfl⟩ | ⟨t, x, rfl, ht, hret, hb, rfl⟩ | ⟨t, b, x, rfl, hmay, hb, rfl⟩⟩ := step_cases hs
  · have f := frame hi hl.remove hb
    have hthr : nextToClose s b = s.toClose := by
      cases b with
      | thread t =>
        have := k1.past t
        simp only [nextToClose]
        split
        · rename_i h; rw [h] at this; simp [PC.past] at this
        · rfl
      | _ => rfl
    refine ⟨(ServerModel.swept_step hi k1 hb).1, k2, fun u hu => ?_⟩
    rw [hthr]
    rcases f.register u hu with h | h
    · exact k3 u h
    · have := k1.past u
      rw [h] at this; simp [PC.past] at this
  · obtain ⟨g1, g2, g3⟩ := callClose_frame hb
    refine ⟨k1, fun u => ?_, fun u hu => ?_⟩
    · simp only [upd_apply]; split
      · exact FullSession.step_invariant (· ≠ .callStart) (fun y => y.start.inHandshake = false ∧ y.firedInHandshake = false) (k2 t)
          (fun y hy => hy.elim (hh y) (by intro h; cases h; simp))
          (fun y z y' hz hy hs => SessionModel.past_step hz hy hs) hb
      · exact k2 u
    · have := k3 u hu
      simp only [upd_apply]; split
      · rename_i hut; subst hut
        exact ⟨by rw [g1]; exact this.1, .inr g2⟩
      · rename_i hut
        exact ⟨this.1, this.2.imp (fun h => by simp [h, hut]) id⟩
  · have hns : b ≠ .base .callStart := by
      rintro rfl
      have h1 : s.server.pc t = .connRun := by simpa [State.sessionMay] using hmay
      exact (k3 t h1).1 (callStart_frame hb).1
    obtain ⟨g1, g2, g3⟩ := session_frame hb
    refine ⟨k1, fun u => ?_, fun u hu => ?_⟩
    · simp only [upd_apply]; split
      · exact FullSession.step_invariant (· ≠ .callStart) (fun y => y.start.inHandshake = false ∧ y.firedInHandshake = false) (k2 t)
          (fun y hy => hy.elim (hh y) (by rintro rfl rfl; exact hns rfl))
          (fun y z y' hz hy hs => SessionModel.past_step hz hy hs) hb
      · exact k2 u
    · have := k3 u hu
      simp only [upd_apply]; split
      · rename_i hut; subst hut
        exact ⟨by rw [Ne, (g1 hns).1]; exact this.1, this.2.imp id g2⟩
      · exact this

theorem covered_of_close {s s' : State} {t : Tid} (hi : ServerModel.Inv s.server) (hl : Link s) (ht : s.server.pc t = .closeLock)
    (h1 : ∀ u ln, s.server.pc u ≠ .serveLock ln) (h2 : ∀ u, s.server.pc u ≠ .connRegLock)
    (h3 : ∀ u, s.server.pc u = .connRun → (s.sess u).base.start.inHandshake = false ∧ (s.sess u).base.start ≠ .notCalled)
    (hs : step parse s (.server (.thread t)) = some s') : Covered s' := by
  obtain ⟨hc, ⟨b, srv, hb', hal, hb, rfl⟩ | ⟨_, _, hb', _⟩ | ⟨_, _, _, hb', _⟩⟩ := step_cases hs
  · simp only [Action.server.injEq] at hb'; subst hb'
    have f := frame hi hl.remove hb
    have hbef := hl.before (.inr ⟨t, ht⟩)
    refine ⟨ServerModel.swept_of_close hi ht h1 h2 hb, fun u => ⟨?_, (hbef.2.2 u).1⟩, fun u hu => ?_⟩
    · cases hx : (s.sess u).base.start.inHandshake with
      | false => rfl
      | true =>
        have := hl.live u (by intro h; rw [h] at hx; simp [SessionModel.StartPC.inHandshake] at hx)
          (by intro h; rw [h] at hx; simp [SessionModel.StartPC.inHandshake] at hx)
        rw [(h3 u this).1] at hx; simp at hx
    · rcases f.register u hu with h | h
      · refine ⟨(h3 u h).2, .inl ?_⟩
        simp only [nextToClose, ht, if_true]
        exact hi.sess.sweep t ht u (by rw [h]; rfl)
      · exact absurd h (h2 u)
  · simp at hb'
  · simp at hb'

/-! ### `Close` waiting for a session -/

/-- As long as `Start` of the session of a goroutine has not returned, `Close` waits. -/
theorem wait_step {s s' : State} {a : Action} {t : Tid} {r : ServerModel.Ret} {n : Nat} (hi : ServerModel.Inv s.server) (hl : Link s)
    (ht : s.server.pc t = .closeWait r) (hu : s.server.pc (.go n) = .connRun) (hstart : (s.sess (.go n)).base.start ≠ .returned)
    (hs : step parse s a = some s') : s'.server.pc t = .closeWait r ∧ s'.server.pc (.go n) = .connRun := by
  obtain ⟨hc, ⟨b, srv, rfl, hal, hb, rfl⟩ | ⟨_, x, rfl, _, _, hb, rfl⟩ | ⟨_, b, x, rfl, hmay, hb, rfl⟩⟩ := step_cases hs
  · have f := frame hi hl.remove hb
    have hn : n < s.server.spawned := by
      have := hi.go.fresh n
      rw [hu] at this
      simpa using this
    constructor
    · rcases f.waits t r ht with h | ⟨_, h, _⟩
      · exact h
      · rw [hi.go.wg, ServerModel.live_zero] at h
        rw [h n hn] at hu; simp at hu
    · rcases f.connRun _ hu with h | h
      · exact h
      · cases b <;> simp [ends] at h
        subst h
        simp [State.allows, hstart] at hal
  · exact ⟨ht, hu⟩
  · exact ⟨ht, hu⟩

end System
end Gevulot
