import Verif.Proofs.Whole
import Verif.Spec.Whole

/-!
# The whole program, with messages read and written piece by piece, at rest
-/

namespace Gevulot

namespace Pieces

open SessionModel (Peer)

variable {parse : Bytes → Option ConnectionParams}

theorem abs_same {s : State} (hw : ∀ p, s.wrote p = 0) :
    abs s = { s.sess with base := { s.sess.base with conn := fun p => { s.sess.base.conn p with unread := s.rbuf p ++ (s.sess.base.conn p).unread } } } := by
  rw [abs_eq (cutStartup_of_wrote (hw .db)), absBase_same hw]

/-- What a session can do but for reading and writing does not depend on how much it has read. -/
theorem enabled_unread {s : State} (hw : ∀ p, s.wrote p = 0) {a : FullSession.Action} (hr : replaced a = false)
    (h : FullSession.step parse s.sess a = none) : FullSession.step parse (abs s) a = none := by
  rw [abs_same hw]
  cases a with
  | base a =>
    simp only [FullSession.step] at h ⊢
    split
    · rfl
    · rename_i hs
      rw [if_neg hs, Option.map_eq_none_iff] at h
      rw [Option.map_eq_none_iff]
      exact step_unread (by rintro p rfl; simp [replaced] at hr) (by rintro p rfl; simp [FullSession.isHandshake] at hs)
          (by rintro p f rfl; simp [replaced] at hr) h
  | recvStartup => simp [replaced] at hr
  | startup f => simp [replaced] at hr
  | _ =>
    simp only [FullSession.step, FullSession.State.fail, SessionModel.step] at h ⊢
    (repeat' split at h) <;> simp_all

end Pieces

namespace Whole

open ServerModel (Tid PC)
open SessionModel (Peer)

variable {parse : Bytes → Option ConnectionParams} {bytes : Nat → Bytes} {path : Option Nat} {text : Nat → CliModel.Text}

theorem abs_looksLike {s : State} (hi : Inv s) : Spec.ProgramLooksLike s (abs s) :=
  ⟨rfl, rfl, rfl, rfl, rfl, rfl, rfl, fun u => Pieces.abs_looksLike (hi u)⟩

theorem sess_alive {s : State} (h : Reachable (step parse bytes) (init path text) s) (ho : s.proc.over = false) (t : Tid) :
    (s.sess t).sess.base.crashed = false := by
  obtain ⟨hi, ha⟩ := abs_reachable h
  have h1 := (System.link_of_reachable (Process.parts_reachable ha).2.2).crashed
    (by simp only [Process.State.over, Bool.or_eq_false_iff] at ho; exact ho.2)
  rw [← (Pieces.abs_looksLike (hi t)).crashed]
  exact h1.2.2 t

theorem piece_none {s : State} (ho : s.proc.over = false) {t : Tid} {a : Pieces.Action} (ha : ∀ b, a ≠ .other b)
    (h : step parse bytes s (.piece t a) = none) : Pieces.step parse (s.sess t) a = none := by
  cases a with
  | other b => exact absurd rfl (ha b)
  | _ => simpa [step, ho] using h

theorem rest_wrote {s : State} (h : Reachable (step parse bytes) (init path text) s) (ho : s.proc.over = false) (hr : AtRest parse bytes s)
    (t : Tid) (p : Peer) : s.wrote t p = 0 := by
  have hi := (abs_reachable h).1 t
  have hc := sess_alive h ho t
  refine Decidable.byContradiction fun h0 => ?_
  obtain ⟨m, hm, _⟩ := hi.wrote p (Nat.pos_of_ne_zero h0)
  rcases hm with hm | ⟨_, x, hx, _⟩
  · have := piece_none ho (by simp) (hr (.piece t (.writeFails p (.io 0))) trivial)
    simp [Pieces.step, hc, hm] at this
  · have := piece_none ho (by simp) (hr (.piece t .writeStartupFails) trivial)
    simp [Pieces.step, hc, hx] at this

/-- What the server and its sessions can do but for reading and writing does not depend on how much the sessions have read. -/
theorem sys_enabled {s : State} (hi : Inv s) (hw : ∀ t p, s.wrote t p = 0) {b : System.Action} (hr : ∀ t a, b = .session t a → Pieces.replaced a = false)
    (h : System.step parse s.proc.sys b = none) : System.step parse (absSys s) b = none := by
  have hs : ∀ t a, Pieces.replaced a = false → FullSession.step parse (s.proc.sys.sess t) a = none → FullSession.step parse ((absSys s).sess t) a = none :=
    fun t a h1 h2 => Pieces.enabled_unread (s := s.sess t) (hw t) h1 h2
  have hcr : (absSys s).crashed = s.proc.sys.crashed := rfl
  unfold System.step at h ⊢
  rw [hcr]
  split at h
  · simp_all
  rename_i hc
  rw [if_neg hc]
  cases b with
  | server b =>
    simp only at h ⊢
    have hal : (absSys s).allows b = s.proc.sys.allows b := by
      cases b with
      | sessionEnd t r =>
        have : ((absSys s).sess t).base.start = (s.proc.sys.sess t).base.start := by
          show (Pieces.abs (s.sess t)).base.start = _
          rw [Pieces.abs_same (hw t)]
          rfl
        simp only [System.State.allows, this]
      | thread t => simp only [System.State.allows, absSys_locked hi]; rfl
      | watchdog t => simp only [System.State.allows, absSys_locked hi]; rfl
      | _ => rfl
    rw [hal]
    split at h
    · rename_i h1
      rw [if_pos h1]
      rw [Option.map_eq_none_iff] at h ⊢
      exact h
    · rename_i h1
      rw [if_neg h1]
  | closeNext t =>
    simp only [absSys_closeReturned hi] at h ⊢
    rw [show (absSys s).toClose = s.proc.sys.toClose from rfl]
    split at h
    · rename_i h1
      rw [if_pos h1]
      rw [Option.map_eq_none_iff] at h ⊢
      exact hs t _ rfl h
    · rename_i h1
      rw [if_neg h1]
  | session t a =>
    simp only at h ⊢
    have hmay : (absSys s).sessionMay t a = s.proc.sys.sessionMay t a := rfl
    rw [hmay]
    split at h
    · rename_i h1
      rw [if_pos h1]
      rw [Option.map_eq_none_iff] at h ⊢
      exact hs t _ (hr t a rfl) h
    · rename_i h1
      rw [if_neg h1]

theorem proc_enabled {s : State} (hi : Inv s) (hw : ∀ t p, s.wrote t p = 0) {a : Process.Action} (hr : replaced a = false)
    (h : Process.step parse bytes s.proc a = none) : Process.step parse bytes (abs s) a = none := by
  unfold Process.step at h ⊢
  rw [over_abs, plan_abs hi]
  split at h
  · simp_all
  rename_i ho
  rw [if_neg ho]
  cases hq : Process.plan bytes s.proc a with
  | none => rfl
  | some q =>
    rw [hq] at h
    simp only at h ⊢
    cases hb : q.sys with
    | none =>
      rw [hb] at h
      simp only [Process.also] at h ⊢
      rw [show (abs s).cli = s.proc.cli from rfl, show (abs s).dist = s.proc.dist from rfl]
      split at h
      · simp at h
      · rename_i h1
        split
        · rename_i h2 h3 h4; exact absurd rfl (h1 _ _ _ h2 h3)
        · rfl
    | some b =>
      rw [hb] at h
      simp only [Process.also] at h ⊢
      rw [show (abs s).cli = s.proc.cli from rfl, show (abs s).dist = s.proc.dist from rfl, show (abs s).sys = absSys s from rfl]
      split at h
      · simp at h
      · rename_i h1
        split
        · rename_i c d e h2 h3 h4
          exfalso
          cases h5 : System.step parse s.proc.sys b with
          | some x => exact h1 _ _ _ h2 h3 h5
          | none =>
            have := sys_enabled hi hw (b := b) (fun t x hx => by
              subst hx
              rcases plan_session hq hb with rfl | ⟨_, r, rfl⟩
              · exact hr
              · rfl) h5
            rw [this] at h4; simp at h4
        · rfl

theorem rest_abs {s : State} (h : Reachable (step parse bytes) (init path text) s) (ho : s.proc.over = false) (hr : AtRest parse bytes s) :
    Process.AtRest parse bytes (abs s) := by
  obtain ⟨hi, _⟩ := abs_reachable h
  have hw := rest_wrote h ho hr
  intro a ha
  by_cases hrep : replaced a = true
  · cases a with
    | sys b =>
      cases b with
      | session t x =>
        have hc := sess_alive h ho t
        have hstep : FullSession.step parse ((absSys s).sess t) x = none := by
          show FullSession.step parse (Pieces.abs (s.sess t)) x = none
          rw [Pieces.abs_same (s := s.sess t) (hw t)]
          cases x with
          | base x =>
            cases x <;> simp [replaced, Pieces.replaced] at hrep
            · rename_i p
              simp only [FullSession.step, FullSession.isHandshake, SessionModel.step, hc, Bool.false_eq_true, if_false]
              split
              · rename_i hq
                rw [Pieces.inRecv_rest (hi t) hc (fun n => piece_none ho (by simp) (hr (.piece t (.read p n)) trivial))
                    (piece_none ho (by simp) (hr (.piece t (.readFails p)) trivial)) hq]
                rfl
              · rfl
            · rename_i p f
              have hn : ∀ m, (s.sess t).sess.base.outPump p ≠ .write m := by
                intro m hm
                have := piece_none ho (by simp) (hr (.piece t (.writeFails p (.io 0))) trivial)
                simp [Pieces.step, hc, hm] at this
              simp only [FullSession.step, FullSession.isHandshake, SessionModel.step, hc, Bool.false_eq_true, if_false]
              simp
          | recvStartup =>
            simp only [FullSession.step]
            split
            · rename_i hp
              rw [Pieces.recvStartup_rest (hi t) hc (fun n => piece_none ho (by simp) (hr (.piece t (.readStartup n)) trivial))
                (piece_none ho (by simp) (hr (.piece t .readStartupFails) trivial)) hp]
            · rfl
          | startup f =>
            simp only [FullSession.step]
            split
            · rename_i m hm
              have := piece_none ho (by simp) (hr (.piece t .writeStartupFails) trivial)
              simp [Pieces.step, hc, hm] at this
            · rfl
          | _ => simp [replaced, Pieces.replaced] at hrep
        have hplan : Process.plan bytes (abs s) (.sys (.session t x)) = some { sys := some (.session t x), main := s.proc.main } := by
          simp only [Process.plan]
          cases x <;> simp [replaced, Pieces.replaced, Process.planSys] at hrep ⊢
          · rfl
          · rfl
          · rfl
        have hsys : System.step parse (abs s).sys (.session t x) = none := by
          simp only [System.step]
          split
          · rfl
          · split
            · rw [show (abs s).sys.sess t = (absSys s).sess t from rfl, hstep]; rfl
            · rfl
        simp only [Process.step, hplan, Process.also, hsys]
        simp
      | _ => simp [replaced] at hrep
    | _ => simp [replaced] at hrep
  · have hrep : replaced a = false := by simpa using hrep
    refine proc_enabled hi hw hrep ?_
    have hint : Process.Internal s.proc a := by
      cases a with
      | sys b => cases b <;> exact ha
      | _ => exact ha
    have := hr (.other a) hint
    simpa [step, hrep] using this

end Whole
end Gevulot
