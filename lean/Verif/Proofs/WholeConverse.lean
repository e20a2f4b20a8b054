import Verif.Proofs.PiecesConverse
import Verif.Proofs.WholeEnd

/-!
# What the program can do that reads and writes each message in one step, it can do piece by piece
-/

namespace Gevulot.Whole

open ServerModel (Tid PC)
open SessionModel (Peer)

variable {parse : Bytes → Option ConnectionParams} {bytes : Nat → Bytes} {path : Option Nat} {text : Nat → CliModel.Text}

/-- Nothing is half read or half written. -/
def whole (p : Process.State) : State := { proc := p, rbuf := fun _ _ => [], wrote := fun _ _ => 0 }

theorem sess_whole (p : Process.State) (t : Tid) : (whole p).sess t = Pieces.whole (p.sys.sess t) := rfl

theorem abs_whole (p : Process.State) : abs (whole p) = p := by
  simp only [abs, absSys, sess_whole, Pieces.abs_whole]
  rfl

theorem run_of_possible {p p' : Process.State} {acts : List Process.Action} (h : PossibleRun parse bytes p acts p') :
    run (Process.step parse bytes) p acts = some p' := by
  induction h with
  | nil => rfl
  | cons _ hs _ ih => simp only [run, hs]; exact ih

theorem possible_of_run {p p' : Process.State} {acts : List Process.Action} (h : run (Process.step parse bytes) p acts = some p')
    (ha : ∀ a ∈ acts, ∀ q, Possible q a) : PossibleRun parse bytes p acts p' := by
  induction acts generalizing p with
  | nil => simp only [run, Option.some.injEq] at h; subst h; exact .nil _
  | cons a acts ih =>
    simp only [run] at h
    cases hx : Process.step parse bytes p a with
    | none => rw [hx] at h; simp at h
    | some y =>
      rw [hx] at h
      exact .cons (ha a (by simp) p) hx (ih h fun b hb => ha b (by simp [hb]))

theorem set_set (s : State) (t : Tid) (x y : Pieces.State) (c d : Bool) : (s.set t x c).set t y d = s.set t y d := by
  simp [State.set, upd_twice]

/-- The pieces of one session. -/
theorem piece_run {s : State} {t : Tid} {acts : List Pieces.Action} {x : Pieces.State} (ho : s.proc.over = false)
    (hc : s.proc.sys.crashed = (s.sess t).sess.base.crashed)
    (hn : ∀ a ∈ acts, ∀ b, a ≠ .other b) (h : run (Pieces.step parse) (s.sess t) acts = some x) :
    run (step parse bytes) s (acts.map (.piece t)) = some (s.set t x x.sess.base.crashed) := by
  induction acts generalizing s with
  | nil =>
    simp only [run, Option.some.injEq] at h
    subst h
    simp only [List.map_nil, run, Option.some.injEq, State.set]
    rw [← hc]
    simp [State.sess, Pieces.upd_eta]
  | cons a acts ih =>
    simp only [run] at h
    cases hy : Pieces.step parse (s.sess t) a with
    | none => rw [hy] at h; simp at h
    | some y =>
      rw [hy] at h
      simp only at h
      have h1 : step parse bytes s (.piece t a) = some (s.set t y y.sess.base.crashed) := by
        cases a with
        | other b => exact absurd rfl (hn _ (by simp) b)
        | _ => simp only [step, ho, Bool.false_eq_true, if_false, hy, Option.map_some]; rfl
      have he : (s.set t y y.sess.base.crashed).sess t = y := by rw [congrFun (set_sess s t y _) t, upd_same]
      cases acts with
      | nil =>
        simp only [run, Option.some.injEq] at h
        subst h
        simp only [List.map_cons, List.map_nil, run, h1]
      | cons b acts =>
        have hcy : y.sess.base.crashed = false := by
          simp only [run] at h
          cases hz : Pieces.step parse y b with
          | none => rw [hz] at h; simp at h
          | some z => exact piece_alive hz
        simp only [List.map_cons, run, h1]
        have := ih (s := s.set t y y.sess.base.crashed)
          (by simp only [Process.State.over, Bool.or_eq_false_iff] at ho ⊢
              simp only [State.set, hcy]
              exact ⟨ho.1, trivial⟩)
          (by rw [he]; rfl) (fun a ha => hn a (by simp [ha])) (by rw [he]; exact h)
        rw [set_set] at this
        simpa only [List.map_cons, run] using this

/-- What the pieces of a step are. -/
theorem split_step {p p' : Process.State} {a : Process.Action} (hp : Possible p a) (h : Process.step parse bytes p a = some p') :
    ∃ acts s', (∀ x ∈ acts, x = .other a ∨ ∃ t y, x = .piece t y ∧ (y = .writeStartupFails → ∃ k, a = .sys (.session t (.startup (some k))))) ∧
      run (step parse bytes) (whole p) acts = some s' ∧ abs s' = p' ∧ (p'.over = false → s' = whole p') := by
  by_cases hrep : replaced a = true
  · cases a with
    | sys b =>
      cases b with
      | session t x =>
        obtain ⟨ho, q, hq, h1, h2, h3, h4⟩ := Process.step_plan h
        have hq' : q = { sys := some (.session t x), main := p.main } := by
          simp only [Process.plan] at hq
          cases x <;> simp [replaced, Pieces.replaced, Process.planSys] at hrep hq ⊢ <;> exact hq.symm
        subst hq'
        simp only [Process.also, Option.some.injEq] at h1 h2 h3
        obtain ⟨hc, ⟨_, _, e, _⟩ | ⟨_, _, e, _⟩ | ⟨u, c, y, e, hmay, hb, e'⟩⟩ := System.step_cases h3
        · simp at e
        · simp at e
        · simp only [System.Action.session.injEq] at e
          obtain ⟨rfl, rfl⟩ := e
          obtain ⟨acts, s', k1, k2, k3, k4⟩ := Pieces.split_step (hrep : Pieces.replaced x = true) hp hb
          have hcr : p.sys.crashed = ((whole p).sess t).sess.base.crashed := by
            rw [show ((whole p).sess t).sess.base.crashed = false from FullSession.alive hb]
            simp only [Process.State.over, Bool.or_eq_false_iff] at ho
            exact ho.2
          have hrun := piece_run (bytes := bytes) (s := whole p) (t := t) ho hcr (fun a ha => (k1 a ha).1) k2
          have hcs : s'.sess.base.crashed = y.base.crashed := by
            rw [← k3]
            unfold Pieces.abs
            dsimp only
            split <;> rfl
          have hp' : p' = { p with sys := { p.sys with sess := upd p.sys.sess t y, crashed := y.base.crashed } } := by
            rw [← e']
            cases p'; simp_all
          refine ⟨acts.map (.piece t), _, ?_, hrun, ?_, fun hov => ?_⟩
          · intro z hz
            obtain ⟨w, hw, rfl⟩ := List.mem_map.mp hz
            exact .inr ⟨t, w, rfl, fun hx => by obtain ⟨k, hk⟩ := (k1 w hw).2 hx; exact ⟨k, by rw [hk]⟩⟩
          · rw [hp']
            simp only [abs, absSys, set_sess, absSess_upd, k3, hcs]
            simp only [State.set, whole]
            congr 2
            funext u
            by_cases hu : u = t
            · subst hu; simp
            · rw [upd_other _ _ hu, upd_other _ _ hu]
              exact Pieces.abs_whole _
          · have hy : y.base.crashed = false := by
              rw [hp'] at hov
              simp only [Process.State.over, Bool.or_eq_false_iff] at hov
              exact hov.2
            rw [k4 hy, hp']
            simp [State.set, whole, Pieces.whole, Pieces.const_upd]
      | _ => simp [replaced] at hrep
    | _ => simp [replaced] at hrep
  · refine ⟨[.other a], whole p', by simp, ?_, abs_whole p', fun _ => rfl⟩
    simp only [run, step, hrep, whole, h, Option.map_some]
    rfl

theorem over_run {p p' : Process.State} {acts : List Process.Action} (ho : p.over = true) (h : PossibleRun parse bytes p acts p') : p' = p := by
  cases h with
  | nil => rfl
  | cons _ hs _ => rw [(Process.step_plan hs).1] at ho; simp at ho

theorem split_run {p p' : Process.State} {acts : List Process.Action} (h : PossibleRun parse bytes p acts p') :
    ∃ acts' s', (∀ x ∈ acts', (∃ a ∈ acts, x = .other a) ∨
        ∃ t y, x = .piece t y ∧ (y = .writeStartupFails → ∃ k, Process.Action.sys (.session t (.startup (some k))) ∈ acts)) ∧
      run (step parse bytes) (whole p) acts' = some s' ∧ abs s' = p' ∧ (p'.over = false → s' = whole p') := by
  induction h with
  | nil p => exact ⟨[], _, by simp, rfl, abs_whole p, fun _ => rfl⟩
  | @cons p a u acts p' hp hs hr ih =>
    obtain ⟨xs, s', k0, k1, k2, k3⟩ := split_step hp hs
    have hxs : ∀ x ∈ xs, (∃ b ∈ a :: acts, x = .other b) ∨
        ∃ t y, x = .piece t y ∧ (y = .writeStartupFails → ∃ k, Process.Action.sys (.session t (.startup (some k))) ∈ a :: acts) := by
      intro x hx
      rcases k0 x hx with e | ⟨t, y, e, hy⟩
      · exact .inl ⟨a, by simp, e⟩
      · exact .inr ⟨t, y, e, fun he => by obtain ⟨k, hk⟩ := hy he; exact ⟨k, by simp [hk]⟩⟩
    cases hu : u.over with
    | true => exact ⟨xs, s', hxs, k1, by rw [k2, over_run hu hr], fun hx => by rw [over_run hu hr, hu] at hx; simp at hx⟩
    | false =>
      obtain ⟨ys, s'', j0, j1, j2, j3⟩ := ih
      refine ⟨xs ++ ys, s'', fun x hx => ?_, by rw [run_append, k1, k3 hu]; exact j1, j2, j3⟩
      rcases List.mem_append.mp hx with hx | hx
      · exact hxs x hx
      · rcases j0 x hx with ⟨b, hb, e⟩ | ⟨t, y, e, hy⟩
        · exact .inl ⟨b, by simp [hb], e⟩
        · exact .inr ⟨t, y, e, fun he => by obtain ⟨k, hk⟩ := hy he; exact ⟨k, by simp [hk]⟩⟩

end Gevulot.Whole
