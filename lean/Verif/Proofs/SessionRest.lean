import Verif.Proofs.SessionLive

namespace Gevulot
namespace SessionModel

/-! ### When the session is at rest -/

theorem isOpen_of_not_fired {s : State} (h : Inv s) (hopen : s.fired = false) (hrun : s.proc ≠ .notStarted) (p : Peer) :
    (s.conn p).isOpen = true ∧ (s.inCh p).closed = false ∧ (s.outCh p).closed = false := by
  have hr : s.closer.rank = 0 := by
    have := h.close.fired
    rw [hopen] at this
    simp at this; exact this
  cases p with
  | client =>
    have := h.close.client
    rw [hr] at this
    exact ⟨by simpa using this.2.2, by rw [h.close.clientIn, hr]; rfl, by rw [h.close.clientOut, hr]; rfl⟩
  | db =>
    refine ⟨?_, by rw [h.close.dbIn, hr]; rfl, by rw [h.close.dbOut, hr]; rfl⟩
    refine h.close.dbOpen (h.close.dbAssigned (.inr hrun)) ?_
    have := h.close.dbClosed
    rw [hr] at this
    grind

/-- No goroutine of the session can make a step if writes succeed. -/
def AtRest (s : State) : Prop :=
  (∀ p, step s (.inRecv p) = none ∧ step s (.inSend p) = none ∧ step s (.procRecv p) = none ∧ step s (.outRecv p) = none ∧
    step s (.outWrite p none) = none) ∧ step s .procSend = none

theorem atRest_empty {s : State} (h : Inv s) (hc : s.crashed = false) (hopen : s.fired = false)
    (hrun : s.proc ≠ .notStarted) (hw : ∀ p m e, s.outPump p ≠ .exited (some (m, e))) (hrest : AtRest s) (p : Peer) :
    transit s p = [] ∧ ((∀ e, s.inPump p ≠ .exited e) → tryRecv (s.conn p) = none) := by
  have hio := isOpen_of_not_fired h hopen hrun
  have hnp := fun p => h.early.pumps' p hrun
  -- the out pumps are waiting and their queues are empty
  have hout : ∀ p, s.outPump p = .recv ∧ (s.outCh p).buf = [] := by
    intro p
    have h1 := (hrest.1 p).2.2.2.1
    have h2 := (hrest.1 p).2.2.2.2
    have h3 := hw p
    have h4 := (hnp p).2
    have h5 := hio p
    simp only [step, hc] at h1 h2
    cases hp : s.outPump p with
    | notStarted => exact absurd hp h4
    | exited x =>
      cases x with
      | none => exact absurd (h.exit.outPump p hp) (by simp [hopen])
      | some x => exact absurd hp (h3 x.1 x.2)
    | write m => rw [hp] at h2; simp [h5] at h2
    | recv =>
      cases hb : (s.outCh p).buf with
      | nil => simp
      | cons m ms => rw [hp, hb] at h1; simp at h1
  have hproc : s.proc = .select := by
    have h1 := hrest.2
    have h2 := h.exit.proc
    simp only [step, hc] at h1
    cases hp : s.proc with
    | notStarted => exact absurd hp hrun
    | select => rfl
    | exited => exact absurd (h2 hp) (by simp [hopen])
    | send src m =>
      have := hio src.other
      have := hout src.other
      rw [hp] at h1
      simp_all [chanCap]
  have hin : ∀ p, (s.inCh p).buf = [] := by
    intro p
    have h1 := (hrest.1 p).2.2.1
    simp only [step, hc, hproc] at h1
    cases hb : (s.inCh p).buf with
    | nil => rfl
    | cons m ms => rw [hb] at h1; simp at h1
  have hpump : (s.inPump p).hand = [] ∧ (s.inPump p = .recv ∨ ∃ e, s.inPump p = .exited e) := by
    have h1 := (hrest.1 p).2.1
    simp only [step, hc] at h1
    cases hp : s.inPump p with
    | notStarted => exact absurd hp (hnp p).1
    | recv => simp [InPump.hand]
    | exited e => simp [InPump.hand]
    | send m =>
      have := hio p
      rw [hp] at h1
      simp_all [chanCap]
  refine ⟨by simp [transit, hpump, hin, hproc, hout, OutPump.hand, Proc.hand], fun ha => ?_⟩
  rcases hpump.2 with hp | ⟨e, hp⟩
  · have h1 := (hrest.1 p).1
    simp only [step, hc, hp] at h1
    cases ht : tryRecv (s.conn p) with
    | none => rfl
    | some x =>
      obtain ⟨o, u⟩ := x
      rw [ht] at h1
      cases o <;> simp at h1
  · exact absurd hp (ha e)

/-- The bytes do not contain a complete frame. -/
def NoFrame (b : Bytes) : Prop := ∀ e f r, readStandardFrame ⟨[b], e⟩ ≠ (.ok f, r)

theorem tryRecv_noFrame {c : PeerConn} (h : NoFrame c.unread) {o : Res Msg} {u : Bytes} (ht : tryRecv c = some (o, u)) :
    ∃ e, o = .err e := by
  have np : ∀ e p r, readStandardFrame ⟨[c.unread], e⟩ ≠ (.panic p, r) := by
    intro e p r hx
    have := (readStandardFrame_flat ⟨[c.unread], e⟩).1
    rw [hx] at this
    exact flatStandard_no_panic _ _ _ this.symm
  unfold tryRecv at ht
  split at ht
  · simp at ht; exact ⟨_, ht.1.symm⟩
  · split at ht
    · rename_i e _
      rcases hr : readStandardFrame ⟨[c.unread], e⟩ with ⟨f, r⟩
      cases f with
      | ok f => exact absurd hr (h e f r)
      | panic p => exact absurd hr (np e p r)
      | err x =>
        simp only [recvMessage, hr, Option.some.injEq, Prod.mk.injEq] at ht
        exact ⟨_, ht.1.symm⟩
    · split at ht
      · rename_i hr; exact absurd hr (h _ _ _)
      · simp at ht
      · rename_i hr; exact absurd hr (np _ _ _)

/-! ### After Close -/

theorem rank_of_fired {s : State} (h : Inv s) (hf : s.fired = true) (hc : s.crashed = false)
    (hrest : step s .closeStep = none) : s.closer = .done := by
  have hr := h.close.fired.mp hf
  have c1 := h.close.clientIn
  have c2 := h.close.clientOut
  have c3 := h.close.dbIn
  have c4 := h.close.dbOut
  simp only [step, hc] at hrest
  cases hx : s.closer <;> rw [hx] at hrest hr c1 c2 c3 c4 <;> simp [CloserPC.rank] at hrest hr c1 c2 c3 c4 <;> simp_all

theorem closed_of_done {s : State} (h : Inv s) (hh : s.firedInHandshake = false) (hd : s.closer = .done) (p : Peer) :
    (s.conn p).isOpen = false ∧ (s.inCh p).closed = true ∧ (s.outCh p).closed = true := by
  cases p with
  | client =>
    refine ⟨?_, by rw [h.close.clientIn, hd]; rfl, by rw [h.close.clientOut, hd]; rfl⟩
    rw [h.close.client.2.2, hd]; rfl
  | db =>
    refine ⟨?_, by rw [h.close.dbIn, hd]; rfl, by rw [h.close.dbOut, hd]; rfl⟩
    have := h.close.late (by rw [hd]; decide)
    cases ho : (s.conn .db).isOpen with
    | false => rfl
    | true => exact absurd (this ho) (by simp [hh])

theorem rest_after_close {s : State} (h : Inv s) (hf : s.fired = true) (hh : s.firedInHandshake = false)
    (hc : s.crashed = false) (hrest : ∀ a, a.isSession = true → step s a = none) :
    s.start = .notCalled ∨ s.start = .returned := by
  have hd := rank_of_fired h hf hc (hrest .closeStep rfl)
  have hcl := closed_of_done h hh hd
  have hnh := h.close.inHandshake hf hh
  cases hst : s.start with
  | notCalled => simp
  | returned => simp
  | negotiating => rw [hst] at hnh; simp [StartPC.inHandshake] at hnh
  | dialled => rw [hst] at hnh; simp [StartPC.inHandshake] at hnh
  | assigned => rw [hst] at hnh; simp [StartPC.inHandshake] at hnh
  | deferred b => have := hrest .startFinish rfl; simp [step, hc, hst, hf] at this
  | closing => have := hrest .startFinish rfl; simp [step, hc, hst, hd] at this
  | waiting =>
    have hrun := h.early.spawned (.inl hst)
    have hnp := fun p => h.early.pumps' p hrun
    have hin : ∀ p, ∃ e, s.inPump p = .exited e := by
      intro p
      cases hp : s.inPump p with
      | notStarted => exact absurd hp (hnp p).1
      | exited e => exact ⟨e, rfl⟩
      | recv => have := hrest (.inRecv p) rfl; simp [step, hc, hp, tryRecv, hcl] at this
      | send m => have := hrest (.inSend p) rfl; simp [step, hc, hp, hcl] at this
    have hout : ∀ p, ∃ e, s.outPump p = .exited e := by
      intro p
      cases hp : s.outPump p with
      | notStarted => exact absurd hp (hnp p).2
      | exited e => exact ⟨e, rfl⟩
      | recv =>
        have := hrest (.outRecv p) rfl
        cases hb : (s.outCh p).buf <;> simp [step, hc, hp, hcl, hb] at this
      | write m => have := hrest (.outWrite p (some (0, .io 0))) rfl; simp [step, hc, hp] at this
    have hproc : s.proc = .exited := by
      cases hp : s.proc with
      | notStarted => exact absurd hp hrun
      | exited => rfl
      | select =>
        have := hrest (.procRecv .client) rfl
        cases hb : (s.inCh .client).buf <;> simp [step, hc, hp, hcl, hb] at this
      | send src m => have := hrest .procSend rfl; simp [step, hc, hp, hcl] at this
    obtain ⟨e1, h1⟩ := hin .client
    obtain ⟨e2, h2⟩ := hin .db
    obtain ⟨e3, h3⟩ := hout .client
    obtain ⟨e4, h4⟩ := hout .db
    have := hrest .join rfl
    simp [step, hc, hst, State.allExited, h1, h2, h3, h4, hproc] at this

/-- As long as nobody calls `Close`, a running session keeps running. -/
theorem running_step {s s' : State} {a : Action} (ha : a ≠ .callClose) (h : Inv s)
    (hr : s.proc ≠ .notStarted ∧ s.fired = false) (hs : step s a = some s') : s'.proc ≠ .notStarted ∧ s'.fired = false := by
  have hst := h.exit.waiting hr.1 hr.2
  obtain ⟨hr1, hr2⟩ := hr
  clear h
  session_cases hs <;> grind

/-- Every way a step can crash the process. -/
theorem crash_cause {s s' : State} {a : Action} (h : Inv s) (hs : step s a = some s') (hc : s'.crashed = true) :
    (∃ p x r, a = .inRecv p ∧ s.inPump p = .recv ∧ tryRecv (s.conn p) = some (.panic x, r)) ∨
    (∃ p m, a = .inSend p ∧ s.inPump p = .send m ∧ (s.inCh p).closed = true) ∨
    (∃ src m, a = .procSend ∧ s.proc = .send src m ∧ (s.outCh src.other).closed = true) := by
  have c1 := h.close.clientIn
  have c2 := h.close.clientOut
  have c3 := h.close.dbIn
  have c4 := h.close.dbOut
  clear h
  cases a with
  | closeStep =>
    session_case hs <;> grind [CloserPC.rank]
  | inRecv p => session_case hs <;> grind
  | inSend p => session_case hs <;> grind
  | procSend => session_case hs <;> grind
  | _ => session_case hs <;> grind

/-- The database connection is known to the session, and closed if `Close` has passed it. -/
def Known (s : State) : Prop := (s.conn .db).assigned = true ∧ (2 < s.closer.rank → (s.conn .db).isOpen = false)

theorem known_step {s s' : State} {a : Action} (hi : Inv s) (h : Known s) (hs : step s a = some s') : Known s' := by
  have h1 := hi.close.dbBefore
  have h2 := hi.close.dbDialled
  have h3 := hi.close.fired
  clear hi
  unfold Known at *
  obtain ⟨k1, k2⟩ := h
  session_cases hs <;> grind [CloserPC.rank, upd_apply, StartPC.beforeDial]

/-- The database connection was not assigned when `Close` passed it. -/
def Leaked (s : State) : Prop :=
  (s.conn .db).isOpen = true ∧ 2 < s.closer.rank ∧ s.start.beforeDial = false ∧ s.start ≠ .closing ∧ (∀ b, s.start = .deferred b → s.fired = true)

theorem leaked_step {s s' : State} {a : Action} (hi : Inv s) (h : Leaked s) (hs : step s a = some s') : Leaked s' := by
  have h3 := hi.close.fired
  clear hi
  unfold Leaked at *
  obtain ⟨k1, k2, k3, k4, k5⟩ := h
  session_cases hs <;> grind [CloserPC.rank, upd_apply, StartPC.beforeDial]

/-- Nothing is on its way, and no complete frame is waiting. -/
structure Quiet (s : State) : Prop where
  crashed : s.crashed = false
  run : s.proc ≠ .notStarted
  start : s.start.inHandshake = false ∧ s.start ≠ .notCalled
  inPump : ∀ p m, s.inPump p ≠ .send m
  proc : ∀ p m, s.proc ≠ .send p m
  bufs : ∀ p, (s.inCh p).buf = []
  frames : ∀ p, s.inPump p = .recv → NoFrame (s.conn p).unread

theorem quiet_step {s s' : State} {a : Action} (hi : Inv s) (ha : ∀ p bs, a ≠ .peerSends p bs) (h : Quiet s)
    (hs : step s a = some s') : Quiet s' := by
  have ht : ∀ p, s.inPump p = .recv → ∀ o u, tryRecv (s.conn p) = some (o, u) → ∃ e, o = .err e :=
    fun p hp o u ht => tryRecv_noFrame (h.frames p hp) ht
  have hn : s'.crashed = false := by
    cases hcr : s'.crashed with
    | false => rfl
    | true =>
      rcases crash_cause hi hs hcr with ⟨p, x, r, _, hp, hx⟩ | ⟨p, m, _, hp, _⟩ | ⟨p, m, _, hp, _⟩
      · obtain ⟨e, he⟩ := ht p hp _ _ hx
        simp at he
      · exact absurd hp (h.inPump p m)
      · exact absurd hp (h.proc p m)
  clear hi
  obtain ⟨h1, h2, h3, h4, h5, h6, h7⟩ := h
  session_cases hs <;> constructor <;> grind [StartPC.inHandshake, upd_apply]

end SessionModel
end Gevulot
