import Verif.Proofs.Pieces

namespace Gevulot.Pieces

open SessionModel (Peer PeerConn)

/-! ### The session in which messages are read and written in one step -/

/-- The connection was closed in the middle of a `Write`. -/
def cut (conn : Peer → PeerConn) (w : Peer → Nat) (p : Peer) : Bool := (conn p).isOpen = false && 0 < w p

/-- The present message of an out pump that was cut off counts as failed. -/
def absPump (conn : Peer → PeerConn) (pump : Peer → SessionModel.OutPump) (w : Peer → Nat) (p : Peer) : SessionModel.OutPump :=
  match pump p with
  | .write m => if cut conn w p then .exited (some (m, .io 0)) else .write m
  | x => x

/-- What was read for the next message counts as unread, and what was written of the present message as not written, unless it was cut off. -/
def absConn (conn : Peer → PeerConn) (r : Peer → Bytes) (w : Peer → Nat) (p : Peer) : PeerConn :=
  { conn p with
    unread := r p ++ (conn p).unread
    written := if (conn p).isOpen then (conn p).written.take ((conn p).written.length - w p) else (conn p).written }

theorem absPump_congr {conn conn' : Peer → PeerConn} {pump : Peer → SessionModel.OutPump} {w : Peer → Nat} {p : Peer}
    (h : (conn' p).isOpen = (conn p).isOpen ∨ w p = 0) : absPump conn' pump w p = absPump conn pump w p := by
  have : cut conn' w p = cut conn w p := by
    unfold cut
    rcases h with h | h <;> simp [h]
  unfold absPump
  rw [this]

theorem absConn_zero {conn : Peer → PeerConn} {r : Peer → Bytes} {w : Peer → Nat} {p : Peer} (h : w p = 0) :
    absConn conn r w p = { conn p with unread := r p ++ (conn p).unread } := by
  simp [absConn, h]

theorem absConn_congr {conn conn' : Peer → PeerConn} {r r' : Peer → Bytes} {w w' : Peer → Nat} {p : Peer} (h : conn' p = conn p) (hr : r' p = r p) (hw : w' p = w p) :
    absConn conn' r' w' p = absConn conn r w p := by
  simp [absConn, h, hr, hw]

def absBase (b : SessionModel.State) (r : Peer → Bytes) (w : Peer → Nat) : SessionModel.State :=
  { b with conn := absConn b.conn r w, outPump := absPump b.conn b.outPump w }

/-- The startup message that is being written, if it was cut off. -/
def cutStartup (s : State) : Option StartupMessage :=
  match s.sess.hs with
  | .startup m => if cut s.sess.base.conn s.wrote .db then some m else none
  | _ => none

def abs (s : State) : FullSession.State :=
  let b := absBase s.sess.base s.rbuf s.wrote
  match cutStartup s with
  | some m =>
    { s.sess with
      hs := .idle
      base := { b with start := .deferred true, hsWritten := upd b.hsWritten .db (b.hsWritten .db ++ (sendMessage (.startup m)).take (s.wrote .db)) } }
  | none => { s.sess with base := b }

/-- The steps of the session that read and write no messages, and close no connection. -/
def plain : SessionModel.Action → Bool
  | .inRecv _ | .outWrite _ _ | .hsRead _ | .hsStartup _ _ | .hsReply _ | .hsDial | .closeStep => false
  | _ => true

theorem absBase_step {b b' : SessionModel.State} {a : SessionModel.Action} {r : Peer → Bytes} {w : Peer → Nat}
    (hw : ∀ p, b.outPump p = .recv → w p = 0) (ha : plain a = true) (hs : SessionModel.step b a = some b') :
    SessionModel.step (absBase b r w) a = some (absBase b' r w) := by
  unfold SessionModel.step at hs
  split at hs
  · simp at hs
  rename_i hcr
  cases a <;> simp only [plain, reduceCtorEq] at ha <;> simp only [SessionModel.State.fire] at hs <;> (repeat' split at hs) <;>
    simp only [Option.some.injEq, reduceCtorEq] at hs <;> subst hs <;> simp_all [SessionModel.step, absBase, SessionModel.State.fire]
  · exact ⟨by assumption, by funext q; simp only [upd_apply, absConn]; grind, by funext q; simp only [upd_apply, absPump, cut]; grind⟩
  · exact ⟨by assumption, by funext q; simp only [upd_apply, absConn]; grind, by funext q; simp only [upd_apply, absPump, cut]; grind⟩
  · exact ⟨by funext q; simp only [upd_apply, absConn]; grind, by funext q; simp only [upd_apply, absPump, cut]; grind⟩
  · exact ⟨by simp [absPump, *], by funext q; simp only [upd_apply, absPump, cut]; grind⟩
  · exact ⟨by simp [absPump, *], by funext q; simp only [upd_apply, absPump, cut]; grind⟩
  · rename_i h
    have h2 := h.2
    simp only [SessionModel.State.allExited, absPump] at h2 ⊢
    grind

/-- Closing a connection is the same if no message is being written to it. -/
theorem absBase_close {b b' : SessionModel.State} {r : Peer → Bytes} {w : Peer → Nat}
    (h1 : b.closer = .closeClient → w .client = 0 ∨ (b.conn .client).isOpen = false ∨ (b.conn .client).assigned = false)
    (h2 : b.closer = .closeDB → w .db = 0 ∨ (b.conn .db).isOpen = false ∨ (b.conn .db).assigned = false) (hs : SessionModel.step b .closeStep = some b') :
    SessionModel.step (absBase b r w) .closeStep = some (absBase b' r w) := by
  have key : ∀ p c, w p = 0 ∨ (b.conn p).isOpen = false ∨ (b.conn p).assigned = false →
      { (absBase b r w).closeConn p with closer := c } = absBase { b.closeConn p with closer := c } r w := by
    intro p c h
    have e : ((absBase b r w).conn p).assigned = (b.conn p).assigned := rfl
    simp only [SessionModel.State.closeConn, e]
    split
    · simp only [absBase, SessionModel.State.mk.injEq, and_true, true_and]
      constructor
      · funext q; by_cases hq : q = p
        · subst hq; simp only [upd_same, absConn]; rcases h with h | h | h <;> simp_all
        · simp only [upd_other _ _ hq, absConn]
      · funext q; by_cases hq : q = p
        · subst hq; simp only [absPump, cut, upd_same]; rcases h with h | h | h <;> simp_all
        · exact absPump_congr (.inl (by rw [upd_other _ _ hq])) |>.symm
    · rfl
  unfold SessionModel.step at hs ⊢
  split at hs
  · simp at hs
  rename_i hcr
  rw [if_neg (by simpa [absBase] using hcr)]
  simp only at hs ⊢
  have ec : (absBase b r w).closer = b.closer := rfl
  rw [ec]
  split at hs
  · simp at hs
  · rename_i hc
    simp only [Option.some.injEq] at hs ⊢; subst hs
    exact key _ _ (h1 hc)
  · rename_i hc
    simp only [Option.some.injEq] at hs ⊢; subst hs
    exact key _ _ (h2 hc)
  all_goals first
    | (split at hs <;> simp only [Option.some.injEq] at hs <;> subst hs <;> rename_i hc <;> simp_all [absBase])
    | simp at hs

theorem absBase_reply {b b' : SessionModel.State} {bs : Bytes} {r : Peer → Bytes} {w : Peer → Nat} (h : w .client = 0)
    (hs : SessionModel.step b (.hsReply bs) = some b') : SessionModel.step (absBase b r w) (.hsReply bs) = some (absBase b' r w) := by
  unfold SessionModel.step at hs
  split at hs
  · simp at hs
  rename_i hcr
  simp only at hs
  split at hs
  · rename_i h2
    simp only [Option.some.injEq] at hs; subst hs
    simp only [SessionModel.step, absBase, hcr, if_false]
    rw [if_neg (by simp), if_pos (by simpa [absConn] using h2)]
    simp only [Option.some.injEq, SessionModel.State.mk.injEq, and_true, true_and]
    constructor
    · funext q; by_cases hq : q = .client
      · subst hq; rw [upd_same, absConn_zero h, absConn_zero h]; simp
      · rw [upd_other _ _ hq]; exact absConn_congr (upd_other _ _ hq).symm rfl rfl
    · funext q; refine (absPump_congr ?_).symm; by_cases hq : q = .client
      · subst hq; exact .inr h
      · exact .inl (by rw [upd_other _ _ hq])
  · simp at hs

theorem absBase_dial {b b' : SessionModel.State} {r : Peer → Bytes} {w : Peer → Nat} (h : w .db = 0)
    (hs : SessionModel.step b .hsDial = some b') : SessionModel.step (absBase b r w) .hsDial = some (absBase b' r w) := by
  unfold SessionModel.step at hs
  split at hs
  · simp at hs
  rename_i hcr
  simp only at hs
  split at hs
  · rename_i h2
    simp only [Option.some.injEq] at hs; subst hs
    simp only [SessionModel.step, absBase, hcr, if_false]
    rw [if_neg (by simp), if_pos (by simpa [absConn] using h2)]
    simp only [Option.some.injEq, SessionModel.State.mk.injEq, and_true, true_and]
    constructor
    · funext q; by_cases hq : q = .db
      · subst hq; rw [upd_same, absConn_zero h, absConn_zero h]; simp
      · rw [upd_other _ _ hq]; exact absConn_congr (upd_other _ _ hq).symm rfl rfl
    · funext q; refine (absPump_congr ?_).symm; by_cases hq : q = .db
      · subst hq; exact .inr h
      · exact .inl (by rw [upd_other _ _ hq])
  · simp at hs

/-! ### What holds of all reachable states -/

/-- How the handshake and `Start` go together. -/
def hsOk : FullSession.HsPC → SessionModel.StartPC → Bool
  | .idle, x => !x.inHandshake
  | .recv, .negotiating | .reply, .negotiating | .config _, .negotiating | .dial _ _, .negotiating => true
  | .assign _, .dialled | .startup _, .assigned => true
  | _, _ => false

/-- The message that is being written to `p`. -/
def Present (s : State) (p : Peer) (m : Msg) : Prop :=
  s.sess.base.outPump p = .write m ∨ p = .db ∧ ∃ x, s.sess.hs = .startup x ∧ m = .startup x

structure Inv (s : State) : Prop where
  hs : hsOk s.sess.hs s.sess.base.start = true
  pumps : s.sess.base.start = .notCalled ∨ s.sess.base.start.inHandshake = true →
    (∀ p, s.sess.base.inPump p = .notStarted ∧ s.sess.base.outPump p = .notStarted) ∧ s.sess.base.proc = .notStarted
  recv : s.sess.base.crashed = false → ∀ p, s.sess.base.inPump p = .recv → (s.rbuf p).length < standardTarget (s.rbuf p)
  send : ∀ p m, s.sess.base.inPump p = .send m → s.rbuf p = []
  hsRecv : s.sess.base.crashed = false → s.sess.hs = .recv → (s.rbuf .client).length < startupTarget (s.rbuf .client)
  fresh : s.sess.base.start = .notCalled → s.rbuf .client = []
  hsRest : s.sess.hs ≠ .idle → s.sess.hs ≠ .recv → s.rbuf .client = []
  db : s.sess.base.inPump .db = .notStarted → s.rbuf .db = []
  wrote : ∀ p, 0 < s.wrote p → ∃ m, Present s p m ∧ s.wrote p < (sendMessage m).length ∧
    ∃ pre, (s.sess.base.conn p).written = pre ++ (sendMessage m).take (s.wrote p)
  fired : s.sess.base.closer ≠ .none → s.sess.base.fired = true
  opened : s.sess.base.start = .dialled ∨ s.sess.base.start = .assigned → s.sess.base.fired = false → (s.sess.base.conn .db).isOpen = true

theorem inv_init : Inv init := by
  constructor <;> simp [init, FullSession.init, SessionModel.init, hsOk, SessionModel.StartPC.inHandshake]

theorem base_frame {b b' : SessionModel.State} {a : SessionModel.Action} (hr : replaced (.base a) = false) (hh : FullSession.isHandshake a = false)
    (hs : SessionModel.step b a = some b') :
    (∀ p, b'.inPump p = b.inPump p ∨ (∃ m, b.inPump p = .send m) ∧ b'.inPump p = .recv) ∧
    (∀ p, b'.outPump p = b.outPump p ∨ b.outPump p = .recv ∧ b'.outPump p ≠ .recv ∧ b'.outPump p ≠ .notStarted) ∧
    (∀ p, (b'.conn p).written = (b.conn p).written) ∧
    (b.proc = .notStarted → b'.proc = .notStarted) ∧
    (b'.start = b.start ∧ a ≠ .callStart ∨ b.start = .notCalled ∧ a = .callStart ∧ (b'.start = .returned ∨ b'.start = .negotiating) ∨
      a ≠ .callStart ∧ b.start.inHandshake = false ∧ b'.start.inHandshake = false ∧ b'.start ≠ .notCalled) ∧
    (b.fired = true → b'.fired = true) ∧ (b'.closer ≠ .none → b.closer ≠ .none ∨ b'.fired = true) ∧
    (∀ p, (b'.conn p).isOpen = (b.conn p).isOpen ∨ b.closer ≠ .none) := by
  unfold SessionModel.step at hs
  split at hs
  · simp at hs
  rename_i hcr
  cases a <;> simp only [replaced, FullSession.isHandshake, reduceCtorEq] at hr hh <;> simp only [SessionModel.State.fire, SessionModel.State.closeConn] at hs <;> (repeat' split at hs) <;>
    simp only [Option.some.injEq, reduceCtorEq] at hs <;> subst hs <;> grind [upd_apply, SessionModel.StartPC.inHandshake]

variable {parse : Bytes → Option ConnectionParams}

theorem target_nil : (([] : Bytes).length < standardTarget []) ∧ ([] : Bytes).length < startupTarget [] := by decide

theorem fail_some {s s' : FullSession.State} (h : s.fail = some s') :
    s.base.crashed = false ∧ s.base.start = .negotiating ∧ s' = { s with base := { s.base with start := .deferred true }, hs := .idle } := by
  simp only [FullSession.State.fail, SessionModel.step] at h
  split at h
  · simp at h
  · split at h
    · simp only [Option.map_some, Option.some.injEq] at h
      exact ⟨by simp_all, by assumption, h.symm⟩
    · simp at h

theorem not_crashed {b b' : SessionModel.State} {a : SessionModel.Action} (hs : SessionModel.step b a = some b') : b.crashed = false := by
  unfold SessionModel.step at hs
  split at hs
  · simp at hs
  · simp_all

theorem inv_base {s : State} {b' : SessionModel.State} {a : SessionModel.Action} (hi : Inv s) (hr : replaced (.base a) = false)
    (hh : FullSession.isHandshake a = false) (hs : SessionModel.step s.sess.base a = some b') :
    Inv { s with sess := { s.sess with base := b', hs := if a = .callStart ∧ b'.start = .negotiating then .recv else s.sess.hs } } := by
  obtain ⟨f1, f2, f3, f4, f5, f6, f7, f8⟩ := base_frame hr hh hs
  obtain ⟨h1, h2, h3, h4, h5, h6, h7, h8, h9, h10, h11⟩ := hi
  have hstart : a = .callStart ∧ b'.start = .negotiating → s.sess.base.start = .notCalled := by
    rintro ⟨ha, _⟩
    rcases f5 with f5 | f5 | f5
    · exact absurd ha f5.2
    · exact f5.1
    · exact absurd ha f5.1
  constructor
  · dsimp only
    rcases f5 with f5 | f5 | f5
    · rw [if_neg (by simp [f5.2]), f5.1]; exact h1
    · have hx : s.sess.hs = .idle := by
        revert h1; rw [f5.1]; cases s.sess.hs <;> simp [hsOk]
      rcases f5.2.2 with hy | hy
      · rw [if_neg (by simp [hy]), hx, hy]; rfl
      · rw [if_pos ⟨f5.2.1, hy⟩, hy]; rfl
    · rw [if_neg (by simp [f5.1])]
      revert h1
      cases s.sess.hs <;> simp [hsOk, f5] <;> grind [hsOk, SessionModel.StartPC.inHandshake]
  · dsimp only
    intro h
    have := h2 (by grind [SessionModel.StartPC.inHandshake])
    grind
  · dsimp only
    intro _ p h
    rcases f1 p with f | ⟨⟨m, f⟩, f'⟩
    · exact h3 (not_crashed hs) p (f ▸ h)
    · rw [h4 p m f]; exact target_nil.1
  · dsimp only
    intro p m h
    rcases f1 p with f | ⟨⟨m', f⟩, f'⟩
    · exact h4 p m (f ▸ h)
    · rw [f'] at h; simp at h
  · dsimp only
    intro _ h
    split at h
    · rw [h6 (hstart (by assumption))]; exact target_nil.2
    · exact h5 (not_crashed hs) h
  · dsimp only
    intro h
    grind
  · dsimp only
    intro h h'
    split at h
    · exact absurd (by rw [if_pos (by assumption)]) h'
    · rw [if_neg (by assumption)] at h'; exact h7 h h'
  · dsimp only
    intro h
    grind
  · dsimp only
    intro p h
    obtain ⟨m, g1, g2, g3⟩ := h9 p h
    refine ⟨m, ?_, g2, by rw [f3]; exact g3⟩
    rcases g1 with g | ⟨rfl, x, g, rfl⟩
    · left; dsimp only; rw [← g]; rcases f2 p with f | f
      · exact f
      · simp_all
    · right; refine ⟨rfl, x, ?_, rfl⟩
      dsimp only
      rw [if_neg, g]
      intro hx
      have := hstart hx
      rw [g, this] at h1
      simp [hsOk] at h1
  · dsimp only
    intro h
    grind
  · dsimp only
    intro h h'
    grind [SessionModel.StartPC.inHandshake]

theorem hs_wrote {s : State} (hi : Inv s) (h0 : s.sess.hs ≠ .idle) (h2 : ∀ m, s.sess.hs ≠ .startup m) (p : Peer) : s.wrote p = 0 := by
  refine Nat.eq_zero_of_not_pos fun h => ?_
  obtain ⟨m, g | ⟨_, x, g, _⟩, _⟩ := hi.wrote p h
  · have := (hi.pumps (by have := hi.hs; revert this; cases hh : s.sess.hs <;> cases hst : s.sess.base.start <;> simp_all [hsOk, SessionModel.StartPC.inHandshake])).1 p
    simp [this] at g
  · exact h2 x g

theorem inv_hs {s : State} {x : FullSession.State} (hi : Inv s) (h0 : s.sess.hs ≠ .idle) (h1 : s.sess.hs ≠ .recv) (h2 : ∀ m, s.sess.hs ≠ .startup m)
    (hp : x.base.inPump = s.sess.base.inPump) (hq : x.base.outPump = s.sess.base.outPump) (hproc : x.base.proc = s.sess.base.proc)
    (hc : x.base.closer = s.sess.base.closer) (hf : x.base.fired = s.sess.base.fired) (hok : hsOk x.hs x.base.start = true)
    (hn : x.base.start ≠ .notCalled)
    (ho : x.base.start = .dialled ∨ x.base.start = .assigned → x.base.fired = false → (x.base.conn .db).isOpen = true) : Inv { s with sess := x } := by
  have hw := hs_wrote hi h0 h2
  have hr := hi.hsRest h0 h1
  have hpr := hi.pumps (by have := hi.hs; revert this; cases hh : s.sess.hs <;> cases hst : s.sess.base.start <;> simp_all [hsOk, SessionModel.StartPC.inHandshake])
  constructor
  · exact hok
  · dsimp only; rw [hp, hq, hproc]; exact fun _ => hpr
  · dsimp only; rw [hp]; intro _ p h; simp [hpr.1 p] at h
  · dsimp only; rw [hp]; exact hi.send
  · dsimp only; rw [hr]; exact fun _ _ => target_nil.2
  · exact fun _ => hr
  · exact fun _ _ => hr
  · dsimp only; rw [hp]; exact hi.db
  · intro p h; simp [hw p] at h
  · dsimp only; rw [hc, hf]; exact hi.fired
  · exact ho

theorem inv_other {s : State} {x : FullSession.State} {a : FullSession.Action} (hi : Inv s) (hr : replaced a = false)
    (hs : FullSession.step parse s.sess a = some x) : Inv { s with sess := x } := by
  cases a with
  | base a =>
    simp only [FullSession.step] at hs
    split at hs
    · simp at hs
    · obtain ⟨b, hb, rfl⟩ := Option.map_eq_some_iff.mp hs
      exact inv_base hi hr (by simp_all) hb
  | recvStartup => simp [replaced] at hr
  | startup f => simp [replaced] at hr
  | reply ok =>
    simp only [FullSession.step] at hs
    split at hs
    · rename_i hh
      split at hs
      · simp only [SessionModel.step] at hs
        split at hs
        · simp at hs
        split at hs
        · rename_i hst
          simp only [Option.map_some, Option.some.injEq] at hs; subst hs
          exact inv_hs hi (by simp [hh]) (by simp [hh]) (by simp [hh]) rfl rfl rfl rfl rfl (by simp [hst.1, hsOk]) (by simp [hst.1]) (by simp [hst.1])
        · simp at hs
      · obtain ⟨hc, hst, rfl⟩ := fail_some hs
        exact inv_hs hi (by simp [hh]) (by simp [hh]) (by simp [hh]) rfl rfl rfl rfl rfl (by simp [hsOk, SessionModel.StartPC.inHandshake]) (by simp) (by simp)
    · simp at hs
  | getConfig answer =>
    simp only [FullSession.step] at hs
    split at hs
    · rename_i m hh
      have hst : s.sess.base.start = .negotiating := by
        have := hi.hs; rw [hh] at this; revert this; cases s.sess.base.start <;> simp [hsOk]
      split at hs
      · split at hs
        · obtain ⟨hc, hst, rfl⟩ := fail_some hs
          exact inv_hs hi (by simp [hh]) (by simp [hh]) (by simp [hh]) rfl rfl rfl rfl rfl (by simp [hsOk, SessionModel.StartPC.inHandshake]) (by simp) (by simp)
        · split at hs
          · simp at hs
          · simp only [Option.some.injEq] at hs; subst hs
            exact inv_hs hi (by simp [hh]) (by simp [hh]) (by simp [hh]) rfl rfl rfl rfl rfl (by simp [hst, hsOk]) (by simp [hst]) (by simp [hst])
      · obtain ⟨hc, hst, rfl⟩ := fail_some hs
        exact inv_hs hi (by simp [hh]) (by simp [hh]) (by simp [hh]) rfl rfl rfl rfl rfl (by simp [hsOk, SessionModel.StartPC.inHandshake]) (by simp) (by simp)
    · simp at hs
  | dial ok =>
    simp only [FullSession.step] at hs
    split at hs
    · rename_i hh
      split at hs
      · simp only [SessionModel.step] at hs
        split at hs
        · simp at hs
        split at hs
        · rename_i hst
          simp only [Option.map_some, Option.some.injEq] at hs; subst hs
          exact inv_hs hi (by simp [hh]) (by simp [hh]) (by simp [hh]) rfl rfl rfl rfl rfl (by simp [hsOk]) (by simp) (by simp)
        · simp at hs
      · obtain ⟨hc, hst, rfl⟩ := fail_some hs
        exact inv_hs hi (by simp [hh]) (by simp [hh]) (by simp [hh]) rfl rfl rfl rfl rfl (by simp [hsOk, SessionModel.StartPC.inHandshake]) (by simp) (by simp)
    · simp at hs
  | assign =>
    simp only [FullSession.step] at hs
    split at hs
    · rename_i hh
      simp only [SessionModel.step] at hs
      split at hs
      · simp at hs
      split at hs
      · rename_i hst
        simp only [Option.map_some, Option.some.injEq] at hs; subst hs
        exact inv_hs hi (by simp [hh]) (by simp [hh]) (by simp [hh]) rfl rfl rfl rfl rfl (by simp [hsOk]) (by simp) (by intro _ hf; simpa using hi.opened (.inl hst) hf)
      · simp at hs
    · simp at hs

theorem take_grow (bytes written pre : Bytes) (w n : Nat) (h : written = pre ++ bytes.take w) :
    written ++ (bytes.drop w).take n = pre ++ bytes.take (w + n) := by
  rw [h, List.append_assoc, List.take_add]

theorem present_pre {s : State} {p : Peer} {m : Msg} (hi : Inv s) (hp : Present s p m) :
    ∃ pre, (s.sess.base.conn p).written = pre ++ (sendMessage m).take (s.wrote p) := by
  rcases Nat.eq_zero_or_pos (s.wrote p) with h | h
  · exact ⟨(s.sess.base.conn p).written, by rw [h]; simp⟩
  · obtain ⟨m', g1, _, g2⟩ := hi.wrote p h
    have : m' = m := by
      have hx : ∀ x, s.sess.hs = .startup x → s.sess.base.outPump p = .notStarted := by
        intro x hx
        refine ((hi.pumps ?_).1 p).2
        have := hi.hs; rw [hx] at this; revert this; cases s.sess.base.start <;> simp [hsOk, SessionModel.StartPC.inHandshake]
      rcases hp with hp | ⟨_, x, hp, rfl⟩ <;> rcases g1 with g1 | ⟨_, y, g1, rfl⟩
      · rw [hp] at g1; simpa using g1.symm
      · have := hx y g1; rw [hp] at this; simp at this
      · have := hx x hp; rw [g1] at this; simp at this
      · rw [hp] at g1; simp at g1; simp [g1]
    exact this ▸ g2

theorem inv_step {s s' : State} {a : Action} (hi : Inv s) (hs : step parse s a = some s') : Inv s' := by
  unfold step at hs
  dsimp only at hs
  split at hs
  · simp at hs
  rename_i hcr
  have hcr : s.sess.base.crashed = false := by simpa using hcr
  have hpump : ∀ p, s.sess.base.inPump p ≠ .notStarted ∨ s.sess.base.outPump p ≠ .notStarted →
      s.sess.base.start ≠ .notCalled ∧ s.sess.base.start.inHandshake = false ∧ s.sess.hs = .idle := by
    intro p h
    have h2 := hi.pumps
    have h1 := hi.hs
    have h3 : ¬ (s.sess.base.start = .notCalled ∨ s.sess.base.start.inHandshake = true) := by
      intro hx; have := (h2 hx).1 p; simp [this] at h
    refine ⟨by simp_all, by simp_all, ?_⟩
    revert h1 h3
    cases s.sess.hs <;> cases s.sess.base.start <;> simp [hsOk, SessionModel.StartPC.inHandshake]
  cases a with
  | other a =>
    simp only at hs
    split at hs
    · simp at hs
    · obtain ⟨x, hx, rfl⟩ := Option.map_eq_some_iff.mp hs
      exact inv_other hi (by simp_all) hx
  | read p n =>
    simp only at hs
    split at hs
    · rename_i hg
      obtain ⟨hp1, hp2, hp3⟩ := hpump p (by simp [hg])
      obtain ⟨h1, h2, h3, h4, h5, h6, h7, h8, h9, h10, h11⟩ := hi
      have hpres : ∀ (y : State) q m, y.sess.base.outPump = s.sess.base.outPump → y.sess.hs = s.sess.hs → (Present y q m ↔ Present s q m) := by
        intro y q m e1 e2; simp [Present, e1, e2]
      (repeat' split at hs) <;> simp only [State.with, Option.some.injEq] at hs <;> subst hs <;> constructor <;> dsimp only <;>
        first
        | assumption
        | grind [upd_apply]
    · simp at hs
  | readFails p =>
    simp only at hs
    split at hs
    · rename_i hg
      obtain ⟨hp1, hp2, hp3⟩ := hpump p (by simp [hg])
      obtain ⟨h1, h2, h3, h4, h5, h6, h7, h8, h9, h10, h11⟩ := hi
      have hpres : ∀ (y : State) q m, y.sess.base.outPump = s.sess.base.outPump → y.sess.hs = s.sess.hs → (Present y q m ↔ Present s q m) := by
        intro y q m e1 e2; simp [Present, e1, e2]
      (repeat' split at hs) <;> simp only [State.with, Option.some.injEq, reduceCtorEq] at hs <;> subst hs <;> constructor <;> dsimp only <;>
        first
        | assumption
        | grind [upd_apply, hsOk, SessionModel.StartPC.inHandshake]
    · simp at hs
  | readStartup n =>
    simp only at hs
    split at hs
    · rename_i hh
      have hw := hs_wrote hi (by simp [hh]) (by simp [hh])
      obtain ⟨h1, h2, h3, h4, h5, h6, h7, h8, h9, h10, h11⟩ := hi
      have hst : s.sess.base.start = .negotiating := by revert h1; rw [hh]; cases s.sess.base.start <;> simp [hsOk]
      have h2 := h2 (by simp [hst, SessionModel.StartPC.inHandshake])
      split at hs
      · (repeat' split at hs) <;> simp only [State.with, Option.some.injEq, reduceCtorEq] at hs <;> subst hs <;> constructor <;> dsimp only <;>
        first
        | assumption
        | grind [upd_apply, hsOk, SessionModel.StartPC.inHandshake]
      · simp at hs
    · simp at hs
  | readStartupFails =>
    simp only at hs
    split at hs
    · rename_i hh
      have hw := hs_wrote hi (by simp [hh]) (by simp [hh])
      obtain ⟨h1, h2, h3, h4, h5, h6, h7, h8, h9, h10, h11⟩ := hi
      have hst : s.sess.base.start = .negotiating := by revert h1; rw [hh]; cases s.sess.base.start <;> simp [hsOk]
      have h2 := h2 (by simp [hst, SessionModel.StartPC.inHandshake])
      (repeat' split at hs) <;> simp only [State.with, Option.some.injEq, reduceCtorEq] at hs <;> subst hs <;> constructor <;> dsimp only <;>
        first
        | assumption
        | grind [upd_apply, hsOk, SessionModel.StartPC.inHandshake]
    · simp at hs
  | write p n =>
    simp only at hs
    split at hs
    · rename_i m hm
      obtain ⟨hp1, hp2, hp3⟩ := hpump p (by simp [hm])
      obtain ⟨pre, hpre⟩ := present_pre hi (.inl hm)
      obtain ⟨h1, h2, h3, h4, h5, h6, h7, h8, h9, h10, h11⟩ := hi
      have hne : ∀ (y : State) q x, q ≠ p → Present s q x → y.sess.base.outPump q = s.sess.base.outPump q → Present y q x := by
        intro y q x _ hx e; rcases hx with hx | ⟨_, _, hx, _⟩
        · exact .inl (e ▸ hx)
        · simp [hp3] at hx
      (repeat' split at hs) <;> simp only [State.with, Option.some.injEq, reduceCtorEq] at hs <;> subst hs
      all_goals
        refine ⟨?_, ?_, ?_, ?_, ?_, ?_, ?_, ?_, ?_, ?_, ?_⟩ <;> dsimp only <;>
        first
        | assumption
        | grind [upd_apply, hsOk, SessionModel.StartPC.inHandshake, target_nil]
        | skip
      · intro q hq
        by_cases hqp : q = p
        · subst hqp
          rw [upd_same] at hq ⊢
          refine ⟨m, .inl hm, by assumption, pre, ?_⟩
          rw [upd_same]
          exact take_grow _ _ _ _ _ hpre
        · rw [upd_other _ _ hqp] at hq ⊢
          obtain ⟨m', g1, g2, g3⟩ := h9 q hq
          exact ⟨m', hne _ q m' hqp g1 rfl, g2, by rw [upd_other _ _ hqp]; exact g3⟩
    · simp at hs
  | writeFails p e =>
    simp only at hs
    split at hs
    · rename_i m hm
      obtain ⟨hp1, hp2, hp3⟩ := hpump p (by simp [hm])
      obtain ⟨pre, hpre⟩ := present_pre hi (.inl hm)
      obtain ⟨h1, h2, h3, h4, h5, h6, h7, h8, h9, h10, h11⟩ := hi
      have hne : ∀ (y : State) q x, q ≠ p → Present s q x → y.sess.base.outPump q = s.sess.base.outPump q → Present y q x := by
        intro y q x _ hx e; rcases hx with hx | ⟨_, _, hx, _⟩
        · exact .inl (e ▸ hx)
        · simp [hp3] at hx
      (repeat' split at hs) <;> simp only [State.with, Option.some.injEq, reduceCtorEq] at hs <;> subst hs
      all_goals
        refine ⟨?_, ?_, ?_, ?_, ?_, ?_, ?_, ?_, ?_, ?_, ?_⟩ <;> dsimp only <;>
        first
        | assumption
        | grind [upd_apply, hsOk, SessionModel.StartPC.inHandshake, target_nil]
        | skip
    · simp at hs
  | writeStartup n =>
    simp only at hs
    split at hs
    · rename_i m hm
      have hst : s.sess.base.start = .assigned := by have := hi.hs; rw [hm] at this; revert this; cases s.sess.base.start <;> simp [hsOk]
      obtain ⟨pre, hpre⟩ := present_pre hi (.inr ⟨rfl, _, hm, rfl⟩)
      have hcl : s.wrote .client = 0 := by
        refine Nat.eq_zero_of_not_pos fun h => ?_
        obtain ⟨m', g | ⟨g, _⟩, _⟩ := hi.wrote .client h
        · simp [(hi.pumps (.inr (by simp [hst, SessionModel.StartPC.inHandshake]))).1] at g
        · simp at g
      obtain ⟨h1, h2, h3, h4, h5, h6, h7, h8, h9, h10, h11⟩ := hi
      have h2 := h2 (by simp [hst, SessionModel.StartPC.inHandshake])
      (repeat' split at hs) <;> simp only [State.with, Option.some.injEq, reduceCtorEq] at hs <;> subst hs
      all_goals
        refine ⟨?_, ?_, ?_, ?_, ?_, ?_, ?_, ?_, ?_, ?_, ?_⟩ <;> dsimp only <;>
        first
        | assumption
        | grind [upd_apply, hsOk, SessionModel.StartPC.inHandshake, target_nil]
        | skip
      · intro q hq
        cases q with
        | client => rw [upd_other _ _ (by simp), hcl] at hq; simp at hq
        | db =>
          rw [upd_same] at hq ⊢
          refine ⟨.startup m, .inr ⟨rfl, m, hm, rfl⟩, by assumption, pre, ?_⟩
          rw [upd_same]
          exact take_grow _ _ _ _ _ hpre
      · intro _ q _
        cases q with
        | client => rw [h7 (by simp [hm]) (by simp [hm])]; exact target_nil.1
        | db => rw [h8 (h2.1 .db).1]; exact target_nil.1
      · intro q hq
        cases q with
        | client => rw [upd_other _ _ (by simp), hcl] at hq; simp at hq
        | db => rw [upd_same] at hq; simp at hq
    · simp at hs
  | writeStartupFails =>
    simp only at hs
    split at hs
    · rename_i m hm
      have hst : s.sess.base.start = .assigned := by have := hi.hs; rw [hm] at this; revert this; cases s.sess.base.start <;> simp [hsOk]
      obtain ⟨pre, hpre⟩ := present_pre hi (.inr ⟨rfl, _, hm, rfl⟩)
      have hcl : s.wrote .client = 0 := by
        refine Nat.eq_zero_of_not_pos fun h => ?_
        obtain ⟨m', g | ⟨g, _⟩, _⟩ := hi.wrote .client h
        · simp [(hi.pumps (.inr (by simp [hst, SessionModel.StartPC.inHandshake]))).1] at g
        · simp at g
      obtain ⟨h1, h2, h3, h4, h5, h6, h7, h8, h9, h10, h11⟩ := hi
      have h2 := h2 (by simp [hst, SessionModel.StartPC.inHandshake])
      (repeat' split at hs) <;> simp only [State.with, Option.some.injEq, reduceCtorEq] at hs <;> subst hs
      all_goals
        refine ⟨?_, ?_, ?_, ?_, ?_, ?_, ?_, ?_, ?_, ?_, ?_⟩ <;> dsimp only <;>
        first
        | assumption
        | grind [upd_apply, hsOk, SessionModel.StartPC.inHandshake, target_nil]
        | skip
      intro q hq
      cases q with
      | client => rw [upd_other _ _ (by simp), hcl] at hq; simp at hq
      | db => rw [upd_same] at hq; simp at hq
    · simp at hs

theorem inv_of_reachable {s : State} (h : Reachable (step parse) init s) : Inv s :=
  h.invariant Inv inv_init fun _ _ _ hi hs => inv_step hi hs

end Gevulot.Pieces
