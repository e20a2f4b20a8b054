import Verif.Spec.Pieces
import Verif.Proofs.PiecesRefine
import Verif.Props.FullSession

namespace Gevulot.Pieces

open SessionModel (Peer PeerConn)

variable {parse : Bytes → Option ConnectionParams}

/-! ### What `abs` shows -/

theorem abs_looksLike {s : State} (hi : Inv s) : Spec.LooksLike s (abs s) := by
  have hw : ∀ p, ∃ part, (s.sess.base.conn p).written = (absConn s.sess.base.conn s.rbuf s.wrote p).written ++ part ∧
      (part ≠ [] → Spec.BeingWritten s p part) := by
    intro p
    by_cases ho : (s.sess.base.conn p).isOpen = true
    · by_cases h0 : 0 < s.wrote p
      · obtain ⟨m, hm, hl, pre, hp⟩ := hi.wrote p h0
        refine ⟨(sendMessage m).take (s.wrote p), ?_, fun _ => ⟨ho, m, hm, (sendMessage m).drop (s.wrote p), ?_, by simp⟩⟩
        · have e : ((sendMessage m).take (s.wrote p)).length = s.wrote p := by simp; omega
          simp only [absConn, ho, if_true]
          rw [hp, List.length_append, e, Nat.add_sub_cancel, List.take_left]
        · simp; omega
      · exact ⟨[], by simp [absConn, ho, show s.wrote p = 0 by omega], by simp⟩
    · exact ⟨[], by simp [absConn, ho], by simp⟩
  have hp : ∀ p, absPump s.sess.base.conn s.sess.base.outPump s.wrote p = s.sess.base.outPump p ∨
      ∃ m, s.sess.base.outPump p = .write m ∧ (s.sess.base.conn p).isOpen = false ∧
        absPump s.sess.base.conn s.sess.base.outPump s.wrote p = .exited (some (m, .io 0)) := by
    intro p
    unfold absPump
    split
    · rename_i m hm
      split
      · rename_i hc
        simp only [cut, Bool.and_eq_true, decide_eq_true_eq] at hc
        exact .inr ⟨m, hm, hc.1, rfl⟩
      · exact .inl hm.symm
    · exact .inl rfl
  unfold abs
  split
  · rename_i m hc
    have hc' : s.sess.hs = .startup m ∧ (s.sess.base.conn .db).isOpen = false := by
      unfold cutStartup at hc
      split at hc
      · rename_i m' hm
        split at hc
        · rename_i hx
          simp only [Option.some.injEq] at hc; subst hc
          simp only [cut, Bool.and_eq_true, decide_eq_true_eq] at hx
          exact ⟨hm, hx.1⟩
        · simp at hc
      · simp at hc
    exact ⟨rfl, rfl, rfl, rfl, rfl, rfl, rfl, rfl, rfl, rfl, rfl, fun _ => rfl, fun _ => rfl, fun _ => rfl, fun _ => rfl, fun _ => rfl, fun _ => rfl,
      hw, hp, .inr ⟨m, hc'.1, hc'.2, rfl, rfl⟩⟩
  · exact ⟨rfl, rfl, rfl, rfl, rfl, rfl, rfl, rfl, rfl, rfl, rfl, fun _ => rfl, fun _ => rfl, fun _ => rfl, fun _ => rfl, fun _ => rfl, fun _ => rfl,
      hw, hp, .inl ⟨rfl, rfl⟩⟩

/-! ### What each peer got, to the last byte -/

/-- `t` shows what `p` got in `s`, and what was sent. -/
structure Shows (s : State) (p : Peer) (t : FullSession.State) : Prop where
  configs : t.configs = s.sess.configs
  dialed : t.dialed = s.sess.dialed
  sent : ∀ q, (t.base.conn q).sent = (s.sess.base.conn q).sent
  written : (t.base.conn p).written = (s.sess.base.conn p).written

theorem base_crash {b b' : SessionModel.State} {a : SessionModel.Action} (hs : SessionModel.step b a = some b') (hc : b'.crashed = true) :
    b' = { b with crashed := true } := by
  unfold SessionModel.step at hs
  split at hs
  · simp at hs
  rename_i hcr
  cases a <;> simp only [SessionModel.State.fire, SessionModel.State.closeConn] at hs <;> (repeat' split at hs) <;>
    simp only [Option.some.injEq, reduceCtorEq] at hs <;> subst hs <;> simp_all

theorem full_crash {t t' : FullSession.State} {a : FullSession.Action} (hr : replaced a = false) (hs : FullSession.step parse t a = some t')
    (hc : t'.base.crashed = true) : t'.configs = t.configs ∧ t'.dialed = t.dialed ∧ t'.base = { t.base with crashed := true } := by
  have hf : ∀ x : FullSession.State, x.fail ≠ some t' := by
    intro x hx
    obtain ⟨h1, _, rfl⟩ := fail_some hx
    simp [h1] at hc
  cases a with
  | base a =>
    simp only [FullSession.step] at hs
    split at hs
    · simp at hs
    obtain ⟨b, hb, rfl⟩ := Option.map_eq_some_iff.mp hs
    exact ⟨rfl, rfl, base_crash hb hc⟩
  | recvStartup => simp [replaced] at hr
  | startup f => simp [replaced] at hr
  | reply ok =>
    simp only [FullSession.step] at hs
    split at hs
    · split at hs
      · obtain ⟨b, hb, rfl⟩ := Option.map_eq_some_iff.mp hs
        exact ⟨rfl, rfl, base_crash hb hc⟩
      · exact absurd hs (hf _)
    · simp at hs
  | getConfig x =>
    simp only [FullSession.step] at hs
    split at hs
    · split at hs
      · split at hs
        · exact absurd hs (hf _)
        · split at hs
          · simp at hs
          · simp only [Option.some.injEq] at hs; subst hs; simp_all
      · exact absurd hs (hf _)
    · simp at hs
  | dial ok =>
    simp only [FullSession.step] at hs
    split at hs
    · split at hs
      · obtain ⟨b, hb, rfl⟩ := Option.map_eq_some_iff.mp hs
        have hx := base_crash hb hc
        have hn := not_crashed hb
        simp only [SessionModel.step] at hb
        split at hb
        · simp at hb
        · split at hb
          · simp only [Option.some.injEq] at hb; subst hb; simp_all
          · simp at hb
      · exact absurd hs (hf _)
    · simp at hs
  | assign =>
    simp only [FullSession.step] at hs
    split at hs
    · obtain ⟨b, hb, rfl⟩ := Option.map_eq_some_iff.mp hs
      exact ⟨rfl, rfl, base_crash hb hc⟩
    · simp at hs

theorem step_crash {s s' : State} {a : Action} (hs : step parse s a = some s') (hc : s'.sess.base.crashed = true) :
    s'.sess.configs = s.sess.configs ∧ s'.sess.dialed = s.sess.dialed ∧
    ∀ q, (s'.sess.base.conn q).sent = (s.sess.base.conn q).sent ∧ (s'.sess.base.conn q).written = (s.sess.base.conn q).written := by
  unfold step at hs
  dsimp only at hs
  split at hs
  · simp at hs
  rename_i hcr
  cases a with
  | other a =>
    simp only at hs
    split at hs
    · simp at hs
    · rename_i hr
      obtain ⟨x, hx, rfl⟩ := Option.map_eq_some_iff.mp hs
      obtain ⟨h1, h2, h3⟩ := full_crash (by simpa using hr) hx hc
      exact ⟨h1, h2, fun q => by simp only; rw [h3]; exact ⟨rfl, rfl⟩⟩
  | read p n =>
    simp only at hs
    (repeat' split at hs) <;> simp only [Option.some.injEq, reduceCtorEq] at hs <;> subst hs <;> simp_all [State.with]
    intro q; by_cases hq : q = p
    · subst hq; simp
    · simp [upd_other _ _ hq]
  | readStartup n =>
    simp only at hs
    (repeat' split at hs) <;> simp only [Option.some.injEq, reduceCtorEq] at hs <;> subst hs <;> simp_all [State.with]
    intro q; by_cases hq : q = .client
    · subst hq; simp
    · simp [upd_other _ _ hq]
  | readFails p => simp only at hs; (repeat' split at hs) <;> simp only [Option.some.injEq, reduceCtorEq] at hs <;> subst hs <;> simp_all [State.with]
  | readStartupFails => simp only at hs; (repeat' split at hs) <;> simp only [Option.some.injEq, reduceCtorEq] at hs <;> subst hs <;> simp_all [State.with]
  | write p n => simp only at hs; (repeat' split at hs) <;> simp only [Option.some.injEq, reduceCtorEq] at hs <;> subst hs <;> simp_all [State.with]
  | writeFails p e => simp only at hs; (repeat' split at hs) <;> simp only [Option.some.injEq, reduceCtorEq] at hs <;> subst hs <;> simp_all [State.with]
  | writeStartup n => simp only at hs; (repeat' split at hs) <;> simp only [Option.some.injEq, reduceCtorEq] at hs <;> subst hs <;> simp_all [State.with]
  | writeStartupFails => simp only at hs; (repeat' split at hs) <;> simp only [Option.some.injEq, reduceCtorEq] at hs <;> subst hs <;> simp_all [State.with]

/-- As long as the process lives: the present message, if it was not cut off, is cut off now. -/
theorem shows_live {s : State} (hi : Inv s) (hr : Reachable (FullSession.step parse) FullSession.init (abs s)) (hc : s.sess.base.crashed = false) (p : Peer) :
    ∃ t, Reachable (FullSession.step parse) FullSession.init t ∧ Shows s p t := by
  have hl := abs_looksLike hi
  by_cases h : (s.sess.base.conn p).isOpen = false ∨ s.wrote p = 0
  · refine ⟨abs s, hr, hl.configs, hl.dialed, hl.sent, ?_⟩
    have : (absConn s.sess.base.conn s.rbuf s.wrote p).written = (s.sess.base.conn p).written := by
      rcases h with h | h <;> simp [absConn, h]
    rw [← this]
    unfold abs
    split <;> rfl
  · have ho : (s.sess.base.conn p).isOpen = true := by cases hx : (s.sess.base.conn p).isOpen <;> simp_all
    have h0 : 0 < s.wrote p := Nat.pos_of_ne_zero fun hx => h (.inr hx)
    obtain ⟨m, hm, hlt, pre, hpre⟩ := hi.wrote p h0
    rcases hm with hm | ⟨rfl, x, hx, rfl⟩
    · have hidle := write_idle hi hm
      have hstep := absBase_writeFails (r := s.rbuf) (e := .io 0) hc hm (.inl ho) hpre (by omega)
      refine ⟨{ abs s with base := absBase { s.sess.base with outPump := upd s.sess.base.outPump p (.exited (some (m, .io 0))) } s.rbuf (upd s.wrote p 0) },
        hr.next (a := .base (.outWrite p (some (s.wrote p, .io 0)))) ?_, hl.configs, hl.dialed, fun _ => rfl, ?_⟩
      · rw [abs_idle hidle]
        simp [FullSession.step, FullSession.isHandshake, hstep]
      · simp [absBase, absConn]
    · have hst : s.sess.base.start = .assigned := by
        have := hi.hs; rw [hx] at this; cases h : s.sess.base.start <;> simp_all [hsOk]
      have hn := (hi.pumps (.inr (by rw [hst]; rfl))).1
      have hstep := absBase_startupFails (r := s.rbuf) hc hst (fun p => (hn p).2) (.inl ho) hpre (by omega)
      have he := abs_eq (cutStartup_of_open ho)
      refine ⟨{ abs s with hs := .idle, base := absBase { s.sess.base with hsWritten := upd s.sess.base.hsWritten .db (s.sess.base.hsWritten .db ++ (sendMessage (.startup x)).take (s.wrote .db)), start := .deferred true } s.rbuf (upd s.wrote .db 0) },
        hr.next (a := .startup (some (s.wrote .db))) ?_, hl.configs, hl.dialed, fun _ => rfl, ?_⟩
      · rw [he]
        simp only [FullSession.step, hx, hstep, Option.map_some]
      · simp [absBase, absConn]

theorem shows {s : State} (h : Reachable (step parse) init s) (p : Peer) :
    ∃ t, Reachable (FullSession.step parse) FullSession.init t ∧ Shows s p t := by
  have := h.invariant (fun s => (Inv s ∧ Reachable (FullSession.step parse) FullSession.init (abs s)) ∧
      ∃ t, Reachable (FullSession.step parse) FullSession.init t ∧ Shows s p t)
    ⟨⟨inv_init, by rw [abs_init]; exact .refl _⟩, FullSession.init, .refl _, rfl, rfl, fun _ => rfl, rfl⟩ ?_
  · exact this.2
  · intro s a s' hi hs
    have hi' := inv_step hi.1.1 hs
    have hr' : Reachable (FullSession.step parse) FullSession.init (abs s') := by
      obtain ⟨acts, h⟩ := sim_step hi.1.1 hs
      exact hi.1.2.trans ⟨acts, h⟩
    refine ⟨⟨hi', hr'⟩, ?_⟩
    cases hc : s'.sess.base.crashed with
    | false => exact shows_live hi' hr' hc p
    | true =>
      obtain ⟨t, ht, h1, h2, h3, h4⟩ := hi.2
      obtain ⟨g1, g2, g3⟩ := step_crash hs hc
      exact ⟨t, ht, by rw [g1]; exact h1, by rw [g2]; exact h2, fun q => by rw [(g3 q).1]; exact h3 q, by rw [(g3 p).2]; exact h4⟩

/-! ### At rest -/

/-- No goroutine of the session can make a step if writes succeed. -/
def AtRest (parse : Bytes → Option ConnectionParams) (s : State) : Prop :=
  (∀ p, (∀ n, step parse s (.read p n) = none) ∧ step parse s (.readFails p) = none ∧ (∀ n, step parse s (.write p n) = none) ∧
    step parse s (.other (.base (.inSend p))) = none ∧ step parse s (.other (.base (.procRecv p))) = none ∧
    step parse s (.other (.base (.outRecv p))) = none) ∧ step parse s (.other (.base .procSend)) = none

theorem other_none {s : State} {a : SessionModel.Action} (hc : s.sess.base.crashed = false) (hr : replaced (.base a) = false)
    (hh : FullSession.isHandshake a = false) (h : step parse s (.other (.base a)) = none) : SessionModel.step s.sess.base a = none := by
  simp only [step, hc, hr, FullSession.step, hh] at h
  simpa using h

/-- Without half written messages. -/
theorem absBase_same {b : SessionModel.State} {r : Peer → Bytes} {w : Peer → Nat} (hw : ∀ p, w p = 0) :
    absBase b r w = { b with conn := fun p => { b.conn p with unread := r p ++ (b.conn p).unread } } := by
  simp only [absBase, SessionModel.State.mk.injEq, and_true, true_and]
  constructor
  · funext p; exact absConn_zero (hw p)
  · funext p; unfold absPump cut
    split
    · simp [*]
    · rfl

/-- Most steps do not look at what is unread. -/
theorem step_unread {b : SessionModel.State} {a : SessionModel.Action} {r : Peer → Bytes} (ha : ∀ p, a ≠ .inRecv p) (ha' : ∀ n, a ≠ .hsRead n)
    (ha'' : ∀ p f, a ≠ .outWrite p f) (h : SessionModel.step b a = none) :
    SessionModel.step { b with conn := fun p => { b.conn p with unread := r p ++ (b.conn p).unread } } a = none := by
  unfold SessionModel.step at h ⊢
  dsimp only
  split at h
  · simp_all
  · rename_i hcr
    rw [if_neg hcr]
    cases a <;> simp only [ne_eq, SessionModel.Action.inRecv.injEq, SessionModel.Action.hsRead.injEq, SessionModel.Action.outWrite.injEq, not_and, reduceCtorEq, not_false_eq_true, implies_true, forall_eq'] at ha ha' ha'' <;>
      simp only [SessionModel.State.allExited] at h ⊢ <;> grind

theorem inRecv_rest {s : State} {p : Peer} (hi : Inv s) (hc : s.sess.base.crashed = false) (h1 : ∀ n, step parse s (.read p n) = none)
    (h2 : step parse s (.readFails p) = none) :
    s.sess.base.inPump p = .recv → SessionModel.tryRecv { s.sess.base.conn p with unread := s.rbuf p ++ (s.sess.base.conn p).unread } = none := by
  intro hp
  have hlt := hi.recv hc p hp
  simp only [step, hc, hp, readError] at h2
  cases ho : (s.sess.base.conn p).isOpen with
  | false => simp [ho] at h2
  | true =>
    have hu : (s.sess.base.conn p).unread = [] := by
      cases hx : (s.sess.base.conn p).unread with
      | nil => rfl
      | cons b bs =>
        exfalso
        have := h1 1
        simp only [step, hc] at this
        simp only [Bool.false_eq_true, if_false] at this
        rw [if_pos ⟨hp, ho, by omega, by rw [hx]; simp, by omega⟩] at this
        (repeat' split at this) <;> simp at this
    have he : (s.sess.base.conn p).ended = none := by
      cases hx : (s.sess.base.conn p).ended with
      | none => rfl
      | some e => simp [ho, hu, hx] at h2
    rw [tryRecv_waiting (by exact ho) (by simpa [hu] using hlt)]
    simp [he]

theorem rest_idle {s : State} (hi : Inv s) (hc : s.sess.base.crashed = false) (hopen : ∀ p, (s.sess.base.conn p).isOpen = true)
    (hrun : s.sess.base.proc ≠ .notStarted) (hrest : AtRest parse s) : ∀ p, s.wrote p = 0 := by
  intro p
  refine Decidable.byContradiction fun h => ?_
  obtain ⟨m, hm, hlt, _⟩ := hi.wrote p (Nat.pos_of_ne_zero h)
  rcases hm with hm | ⟨rfl, x, hx, rfl⟩
  · have := (hrest.1 p).2.2.1 ((sendMessage m).length - s.wrote p)
    simp only [step, hc, hm, Bool.false_eq_true, if_false] at this
    rw [if_pos ⟨hopen p, .inl (by omega), by omega⟩, if_neg (by simp only [State.with]; omega)] at this
    simp at this
  · have hst : s.sess.base.start = .assigned := by
      have := hi.hs; rw [hx] at this; cases h : s.sess.base.start <;> simp_all [hsOk]
    exact hrun (hi.pumps (.inr (by rw [hst]; rfl))).2

theorem rest_abs {s : State} (hi : Inv s) (hc : s.sess.base.crashed = false) (hopen : ∀ p, (s.sess.base.conn p).isOpen = true)
    (hrun : s.sess.base.proc ≠ .notStarted) (hrest : AtRest parse s) : SessionModel.AtRest (abs s).base ∧ ∀ p, s.wrote p = 0 := by
  have hw := rest_idle hi hc hopen hrun hrest
  refine ⟨?_, hw⟩
  rw [abs_eq (cutStartup_of_wrote (hw .db)), absBase_same hw]
  have hbase : ∀ a, replaced (.base a) = false → FullSession.isHandshake a = false → step parse s (.other (.base a)) = none →
      SessionModel.step { s.sess.base with conn := fun p => { s.sess.base.conn p with unread := s.rbuf p ++ (s.sess.base.conn p).unread } } a = none := by
    intro a h1 h2 h3
    exact step_unread (by rintro p rfl; simp [replaced] at h1) (by rintro p rfl; simp [FullSession.isHandshake] at h2)
      (by rintro p f rfl; simp [replaced] at h1) (other_none hc h1 h2 h3)
  refine ⟨fun p => ?_, hbase _ rfl rfl hrest.2⟩
  obtain ⟨h1, h2, h3, h4, h5, h6⟩ := hrest.1 p
  refine ⟨?_, hbase _ rfl rfl h4, hbase _ rfl rfl h5, hbase _ rfl rfl h6, ?_⟩
  · simp only [SessionModel.step, hc, Bool.false_eq_true, if_false]
    split
    · rename_i hp
      rw [inRecv_rest hi hc h1 h2 hp]
    · rfl
  · simp only [SessionModel.step, hc, Bool.false_eq_true, if_false]
    cases hm : s.sess.base.outPump p with
    | write m =>
      exfalso
      have := h3 (sendMessage m).length
      simp only [step, hc, hm, Bool.false_eq_true, if_false] at this
      have hx : 0 < (sendMessage m).length ∨ sendMessage m = [] := by cases sendMessage m <;> simp
      rw [if_pos ⟨hopen p, hx, by rw [hw p]; omega⟩, if_neg (by simp only [State.with]; omega)] at this
      simp at this
    | _ => rfl

end Gevulot.Pieces
