import Verif.Model.SystemLog
import Verif.Proofs.System
import Verif.Proofs.ServerLog
import Verif.Props.ServerLog
import Verif.Props.SessionLog

namespace Gevulot.SystemLog

open ServerModel (Tid PC)

variable {parse : Bytes → Option ConnectionParams} {c : Option ServerModel.Addr}

theorem step_cases {s s' : State} {a : Action} (h : step parse s a = some s') :
    (∃ b n y srv info, a = .sys b n ∧ s.returnsAs b = true ∧ System.step parse s.sys b = some y ∧ s.moved parse n b = some (srv, info) ∧ s' = ⟨y, srv, info⟩) ∨
    ∃ t g x, a = .report t g ∧ s.sys.crashed = false ∧ SessionLog.step parse (s.info t) (.report g) = some x ∧ s' = { s with info := upd s.info t x } := by
  cases a with
  | sys b n =>
    simp only [step] at h
    split at h
    · rename_i hr
      split at h
      · rename_i y x h1 h2
        simp only [Option.some.injEq] at h
        exact .inl ⟨b, n, y, x.1, x.2, rfl, hr, h1, h2, h.symm⟩
      · simp at h
    · simp at h
  | report t g =>
    simp only [step] at h
    split at h
    · simp at h
    · rename_i hc
      obtain ⟨x, h1, h2⟩ := Option.map_eq_some_iff.mp h
      exact .inr ⟨t, g, x, rfl, by simpa using hc, h1, h2.symm⟩

structure Inv (parse : Bytes → Option ConnectionParams) (c : Option ServerModel.Addr) (s : State) : Prop where
  sys : Reachable (System.step parse) (System.init c) s.sys
  srv : Reachable ServerLog.step (ServerLog.init c) s.srv
  info : ∀ t, Reachable (SessionLog.step parse) SessionLog.init (s.info t)
  server : s.srv.server = s.sys.server
  sess : ∀ t, (s.info t).sess = s.sys.sess t
  result : ∀ t e, s.sys.server.pc t = .connRemove (.session e) ∨ s.sys.server.pc t = .returned (.session e) → e ≠ none

theorem inv_init : Inv parse c (init c) :=
  ⟨Reachable.refl _, Reachable.refl _, fun _ => Reachable.refl _, rfl, fun _ => rfl, by simp [init, System.init, ServerModel.init]⟩

set_option maxHeartbeats 1000000 in
theorem result_step {s s' : ServerModel.State} {a : ServerModel.Action} (hf : ServerModel.FitInv s) (hs : ServerModel.step s a = some s') (ha : ∀ t, a ≠ .sessionEnd t none)
    (h : ∀ t e, s.pc t = .connRemove (.session e) ∨ s.pc t = .returned (.session e) → e ≠ none) :
    ∀ t e, s'.pc t = .connRemove (.session e) ∨ s'.pc t = .returned (.session e) → e ≠ none := by
  intro t e
  have h1 := h t e
  have hft := hf t
  have he : ∀ op r, ServerModel.entry op ≠ .connRemove r ∧ ServerModel.entry op ≠ .returned r := by intro op r; cases op <;> simp [ServerModel.entry]
  server_cases hs <;> grind [upd_apply, PC.fits, ServerModel.Ret.fits]

theorem sess_step {s s' : SessionLog.State} {b : FullSession.Action} (h : SessionLog.step parse s (.sess b) = some s') :
    FullSession.step parse s.sess b = some s'.sess := by
  obtain ⟨b', x, h1, -, h2, rfl⟩ | ⟨g, r, h1, -⟩ := SessionLog.step_cases h
  · cases h1
    exact h2
  · cases h1

/-- A session that has returned has not returned nil. -/
theorem ret_ne {s : SessionLog.State} (h : Reachable (SessionLog.step parse) SessionLog.init s) (hr : s.sess.base.start = .returned) :
    s.ret ≠ some (.group none) := by
  rcases SessionLog.C108 s h hr with h | h | ⟨e, h, -⟩ <;> rw [h] <;> simp

theorem inv_step {s s' : State} {a : Action} (h : Inv parse c s) (hs : step parse s a = some s') : Inv parse c s' := by
  obtain ⟨b, n, y, srv, info, rfl, hr, hy, hm, rfl⟩ | ⟨t, g, x, rfl, hc, hx, rfl⟩ := step_cases hs
  · have hy' := h.sys.next hy
    obtain ⟨hc, ⟨b', w, rfl, ha, h1, rfl⟩ | ⟨t, x, rfl, -, -, h1, rfl⟩ | ⟨t, b', x, rfl, -, h1, rfl⟩⟩ := System.step_cases hy
    · obtain ⟨x, h2, h3⟩ := Option.map_eq_some_iff.mp hm
      cases h3
      have h4 := (ServerLog.step_spec h2).1
      rw [h.server] at h4
      refine ⟨hy', h.srv.next h2, h.info, (Option.some.inj (h4.symm.trans h1)), h.sess, result_step (h.server ▸ (ServerLog.inv_of_reachable h.srv).fit) h1 ?_ h.result⟩
      rintro t rfl
      have h5 : (s.info t).sess.base.start = .returned := by rw [h.sess t]; simpa [System.State.allows] using ha
      have h6 := ret_ne (h.info t) h5
      simp [State.returnsAs, h6] at hr
    all_goals
      obtain ⟨z, h2, h3⟩ := Option.map_eq_some_iff.mp hm
      cases h3
      have h4 := sess_step h2
      rw [h.sess t, h1] at h4
      refine ⟨hy', h.srv, ?_, h.server, ?_, h.result⟩
      · intro u
        simp only [upd_apply]
        split
        · exact (h.info t).next h2
        · exact h.info u
      · intro u
        simp only [upd_apply]
        split
        · exact (Option.some.inj h4).symm
        · exact h.sess u
  · refine ⟨h.sys, h.srv, ?_, h.server, ?_, h.result⟩
    · intro u
      simp only [upd_apply]
      split
      · exact (h.info t).next hx
      · exact h.info u
    · intro u
      simp only [upd_apply]
      split
      · rename_i e
        subst e
        obtain ⟨b', x, h1, -⟩ | ⟨g, r, -, -, -, -, rfl⟩ := SessionLog.step_cases hx
        · cases h1
        · exact h.sess _
      · exact h.sess u

theorem inv_of_reachable {s : State} (h : Reachable (step parse) (init c) s) : Inv parse c s :=
  h.invariant (Inv parse c) inv_init fun _ _ _ => inv_step

/-! ### Every execution of the process -/

theorem report_all {s : State} (hc : s.sys.crashed = false) (t : Tid) (hx : (s.info t).sess.base.crashed = false) (gs : List SessionLog.Goroutine)
    (hg : ∀ g ∈ gs, SessionLog.returned (s.info t).sess.base g ≠ none) :
    ∃ s', Reachable (step parse) s s' ∧ s'.sys = s.sys ∧ (s'.info t).sess = (s.info t).sess ∧ ∀ g ∈ gs, g ∈ (s'.info t).reports := by
  induction gs with
  | nil => exact ⟨s, Reachable.refl _, rfl, rfl, by simp⟩
  | cons g gs ih =>
    obtain ⟨s1, h1, h2, h3, h4⟩ := ih fun g hg' => hg g (by simp [hg'])
    by_cases hm : g ∈ (s1.info t).reports
    · exact ⟨s1, h1, h2, h3, fun g' hg' => by rcases List.mem_cons.mp hg' with rfl | h; exact hm; exact h4 g' h⟩
    · obtain ⟨r, hr⟩ := Option.ne_none_iff_exists'.mp (hg g (by simp))
      refine ⟨{ s1 with info := upd s1.info t { s1.info t with reports := (s1.info t).reports ++ [g], first := (s1.info t).first.or r } },
        h1.next (a := .report t g) (by simp [step, SessionLog.step, h2, h3, hc, hx, hm, hr]), h2, ?_, fun g' hg' => ?_⟩
      · simp [h3]
      · simp only [upd_apply, if_true]
        rcases List.mem_cons.mp hg' with rfl | h
        · simp
        · exact List.mem_append_left _ (h4 g' h)

theorem joined {x x' : FullSession.State} (hs : FullSession.step parse x (.base .join) = some x') :
    x.base.crashed = false ∧ ∀ g ∈ SessionLog.goroutines, SessionLog.returned x.base g ≠ none := by
  have hx : x.base.crashed = false ∧ x.base.allExited = true := by
    simp only [FullSession.step, FullSession.isHandshake, Bool.false_eq_true, if_false, SessionModel.step] at hs
    split at hs
    · simp at hs
    · split at hs
      · rename_i h h'; exact ⟨by simpa using h, h'.2⟩
      · simp at hs
  refine ⟨hx.1, ?_⟩
  have := hx.2
  simp only [SessionModel.State.allExited, Bool.and_eq_true, decide_eq_true_eq] at this
  obtain ⟨⟨⟨⟨a1, a2⟩, a3⟩, a4⟩, a5⟩ := this
  intro g hg
  simp only [SessionLog.goroutines, List.mem_cons, List.not_mem_nil, or_false] at hg
  rcases hg with rfl | rfl | rfl | rfl | rfl <;> simp only [SessionLog.returned] <;> split <;> simp_all

/-- What is added does not hinder: a step of the process can be made here, too, perhaps after errors have been handed over. -/
theorem sim_step {s : State} (h : Reachable (step parse) (init c) s) {a : System.Action} {y : System.State} (hy : System.step parse s.sys a = some y)
    (ha : ∀ t, a ≠ .server (.sessionEnd t none)) (n : ServerLog.Note) : ∃ s', Reachable (step parse) (init c) s' ∧ s'.sys = y := by
  have hi := inv_of_reachable h
  obtain ⟨hc, ⟨b, w, rfl, hal, h1, -⟩ | ⟨t, x, rfl, -, -, h1, -⟩ | ⟨t, b, x, rfl, -, h1, -⟩⟩ := System.step_cases hy
  · have hret : s.returnsAs (.server b) = true := by
      unfold State.returnsAs
      split
      · rename_i t e hb
        cases hb
        have h5 : (s.info t).sess.base.start = .returned := by rw [hi.sess t]; simpa [System.State.allows] using hal
        have h6 := ret_ne (hi.info t) h5
        have h7 : e ≠ none := fun he => ha t (by rw [he])
        simp [h6, h7]
      · rfl
    cases hm : s.moved parse n (.server b) with
    | none => simp [State.moved, ServerLog.step, hi.server, h1] at hm
    | some p => exact ⟨⟨y, p.1, p.2⟩, h.next (a := .sys (.server b) n) (by simp only [step, hret, if_true, hy, hm]), rfl⟩
  · cases hm : s.moved parse n (.closeNext t) with
    | none => simp [State.moved, SessionLog.step, hi.sess, h1] at hm
    | some p => exact ⟨⟨y, p.1, p.2⟩, h.next (a := .sys (.closeNext t) n) (by simp only [step, State.returnsAs, if_true, hy, hm]), rfl⟩
  · by_cases hb : b = .base .join
    · subst hb
      obtain ⟨hx, hg⟩ := joined h1
      obtain ⟨s1, r1, r2, r3, r4⟩ := report_all (parse := parse) hc t (by rw [hi.sess]; exact hx) SessionLog.goroutines (by rw [hi.sess]; exact hg)
      cases hm : s1.moved parse n (.session t (.base .join)) with
      | none =>
        simp only [State.moved, SessionLog.step, r3, hi.sess, h1] at hm
        rw [if_neg (fun h => h.2 r4)] at hm
        simp at hm
      | some p => exact ⟨⟨y, p.1, p.2⟩, (h.trans r1).next (a := .sys (.session t (.base .join)) n) (by simp only [step, State.returnsAs, if_true, r2, hy, hm]), rfl⟩
    · cases hm : s.moved parse n (.session t b) with
      | none => simp [State.moved, SessionLog.step, hi.sess, h1, hb] at hm
      | some p => exact ⟨⟨y, p.1, p.2⟩, h.next (a := .sys (.session t b) n) (by simp only [step, State.returnsAs, if_true, hy, hm]), rfl⟩

theorem sim_run {s : State} (h : Reachable (step parse) (init c) s) (acts : List System.Action) (ha : ∀ t, .server (.sessionEnd t none) ∉ acts) {y : System.State}
    (hy : run (System.step parse) s.sys acts = some y) : ∃ s', Reachable (step parse) (init c) s' ∧ s'.sys = y := by
  induction acts generalizing s with
  | nil => exact ⟨s, h, Option.some.inj hy⟩
  | cons a as ih =>
    simp only [run] at hy
    split at hy
    · rename_i y1 h1
      obtain ⟨s1, h2, rfl⟩ := sim_step h h1 (fun t he => ha t (by simp [he])) ⟨false, fun _ => false⟩
      exact ih h2 (fun t hm => ha t (List.mem_cons_of_mem _ hm)) hy
    · simp at hy

end Gevulot.SystemLog
