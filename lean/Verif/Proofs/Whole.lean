import Verif.Model.Whole
import Verif.Proofs.PiecesEnd
import Verif.Props.Served

/-!
# The whole program, with messages read and written piece by piece, refines Model/Process.lean
-/

namespace Gevulot

namespace Whole

open ServerModel (Tid PC)
open SessionModel (Peer)

variable {parse : Bytes → Option ConnectionParams} {bytes : Nat → Bytes} {path : Option Nat} {text : Nat → CliModel.Text}

def Inv (s : State) : Prop := ∀ t, Pieces.Inv (s.sess t)

/-- The server, in which the sessions read and write messages in one step. -/
def absSys (s : State) : System.State := { s.proc.sys with sess := fun t => Pieces.abs (s.sess t) }

def abs (s : State) : Process.State := { s.proc with sys := absSys s }

theorem abs_start {s : Pieces.State} (hi : Pieces.Inv s) (h : s.sess.base.start = .returned) : (Pieces.abs s).base.start = .returned := by
  rcases (Pieces.abs_looksLike hi).handshake with ⟨h1, _⟩ | ⟨m, hm, _⟩
  · rw [h1]; exact h
  · have := hi.hs; rw [hm, h] at this; simp [Pieces.hsOk] at this

theorem abs_config {s : Pieces.State} (hi : Pieces.Inv s) (m : StartupMessage) : (Pieces.abs s).hs = .config m ↔ s.sess.hs = .config m := by
  rcases (Pieces.abs_looksLike hi).handshake with ⟨_, h1⟩ | ⟨x, hm, _, _, h1⟩
  · rw [h1]
  · rw [h1, hm]; simp

theorem absSys_closeReturned {s : State} (hi : Inv s) : (absSys s).closeReturned = s.proc.sys.closeReturned := by
  unfold System.State.closeReturned absSys
  dsimp only
  split
  · rfl
  · rename_i t _
    have := (Pieces.abs_looksLike (hi t)).closer
    rw [this]; rfl

theorem absSys_locked {s : State} (hi : Inv s) : (absSys s).locked = s.proc.sys.locked := by
  unfold System.State.locked
  rw [absSys_closeReturned hi]; rfl

theorem absSys_allows {s : State} (hi : Inv s) {a : ServerModel.Action} (h : s.proc.sys.allows a = true) : (absSys s).allows a = true := by
  cases a with
  | sessionEnd t r =>
    simp only [System.State.allows, decide_eq_true_eq] at h ⊢
    exact abs_start (hi t) h
  | thread t => simp only [System.State.allows, absSys_locked hi] at h ⊢; exact h
  | watchdog t => simp only [System.State.allows, absSys_locked hi] at h ⊢; exact h
  | _ => rfl

/-- The program with the session of a thread changed. -/
def State.set (s : State) (t : Tid) (x : Pieces.State) (crashed : Bool) : State :=
  { proc := { s.proc with sys := { s.proc.sys with sess := upd s.proc.sys.sess t x.sess, crashed := crashed } }
    rbuf := upd s.rbuf t x.rbuf
    wrote := upd s.wrote t x.wrote }

theorem set_sess (s : State) (t : Tid) (x : Pieces.State) (c : Bool) : (s.set t x c).sess = upd s.sess t x := by
  funext u
  by_cases hu : u = t
  · subst hu; simp [State.sess, State.set]
  · simp [State.sess, State.set, upd_other _ _ hu]

theorem absSess_upd (f : Tid → Pieces.State) (t : Tid) (x : Pieces.State) :
    (fun u => Pieces.abs (upd f t x u)) = upd (fun u => Pieces.abs (f u)) t (Pieces.abs x) := by
  funext u
  by_cases hu : u = t
  · subst hu; simp
  · simp [upd_other _ _ hu]

theorem upd_twice {α β : Type} [DecidableEq α] (f : α → β) (a : α) (b c : β) : upd (upd f a b) a c = upd f a c := by
  funext x
  by_cases h : x = a
  · subst h; simp
  · simp [upd_other _ _ h]

/-- A step of a session that receives or writes a message, or closes a connection, is a step of the program. -/
theorem proc_step {p : Process.State} {t : Tid} {y : FullSession.State} {a : FullSession.Action} (ho : p.over = false)
    (ha : Pieces.replaced a = true ∨ a = .base .closeStep) (h : FullSession.step parse (p.sys.sess t) a = some y) :
    Process.step parse bytes p (.sys (.session t a)) = some { p with sys := { p.sys with sess := upd p.sys.sess t y, crashed := y.base.crashed } } := by
  have hmay : p.sys.sessionMay t a = true := by
    unfold System.State.sessionMay
    split <;> simp [Pieces.replaced] at ha ⊢
  have hcr : p.sys.crashed = false := by simp only [Process.State.over, Bool.or_eq_false_iff] at ho; exact ho.2
  have hp : Process.plan bytes p (.sys (.session t a)) = some { sys := some (.session t a), main := p.main } := by
    simp only [Process.plan]
    cases a <;> simp [Pieces.replaced, Process.planSys] at ha ⊢
  simp [Process.step, ho, hp, Process.also, System.step, hcr, hmay, h]

/-- Such steps of one session. -/
theorem proc_sim {p : Process.State} {t : Tid} {x y : FullSession.State} (hx : p.sys.sess t = x) (ho : p.over = false)
    {acts : List FullSession.Action} (ha : ∀ a ∈ acts, Pieces.replaced a = true ∨ a = .base .closeStep)
    (h : run (FullSession.step parse) x acts = some y) (hne : acts ≠ []) :
    run (Process.step parse bytes) p (acts.map fun a => .sys (.session t a)) =
      some { p with sys := { p.sys with sess := upd p.sys.sess t y, crashed := y.base.crashed } } := by
  induction acts generalizing p x with
  | nil => exact absurd rfl hne
  | cons a acts ih =>
    subst hx
    simp only [run] at h
    cases hq : FullSession.step parse (p.sys.sess t) a with
    | none => rw [hq] at h; simp at h
    | some z =>
      rw [hq] at h
      simp only at h
      simp only [List.map_cons, run, proc_step ho (ha a (by simp)) hq]
      cases acts with
      | nil => simp only [run, Option.some.injEq] at h; subst h; rfl
      | cons b bs =>
        have hz : z.base.crashed = false := by
          simp only [run] at h
          cases hr : FullSession.step parse z b with
          | none => rw [hr] at h; simp at h
          | some w => exact FullSession.alive hr
        have := ih (p := { p with sys := { p.sys with sess := upd p.sys.sess t z, crashed := z.base.crashed } }) (x := z) (by simp)
          (by simp only [Process.State.over, Bool.or_eq_false_iff] at ho ⊢; exact ⟨ho.1, hz⟩) (fun c hc => ha c (by simp [hc])) h (by simp)
        rw [this]
        simp only [upd_twice]

theorem sess_with (s : State) (t : Tid) (x : FullSession.State) (sys : System.State) (h : sys.sess = upd s.proc.sys.sess t x) :
    (fun u => ({ s with proc := { s.proc with sys := sys } } : State).sess u) = upd s.sess t { s.sess t with sess := x } := by
  funext u
  by_cases hu : u = t
  · subst hu; simp [State.sess, h]
  · simp [State.sess, h, upd_other _ _ hu]

theorem abs_with (s : State) (t : Tid) (x : FullSession.State) (sys : System.State) (h : sys.sess = upd s.proc.sys.sess t x) :
    (fun u => Pieces.abs (({ s with proc := { s.proc with sys := sys } } : State).sess u)) =
      upd (fun u => Pieces.abs (s.sess u)) t (Pieces.abs { s.sess t with sess := x }) := by
  rw [← absSess_upd]
  funext u
  exact congrArg Pieces.abs (congrFun (sess_with s t x sys h) u)

theorem sys_inv {s : State} (hi : Inv s) {b : System.Action} {sys : System.State} (h : System.step parse s.proc.sys b = some sys)
    (hr : ∀ t a, b = .session t a → Pieces.replaced a = false) : Inv { s with proc := { s.proc with sys := sys } } := by
  have key : ∀ t x a, sys.sess = upd s.proc.sys.sess t x → Pieces.replaced a = false → FullSession.step parse (s.proc.sys.sess t) a = some x →
      Inv { s with proc := { s.proc with sys := sys } } := by
    intro t x a h1 h2 h3 u
    have := congrFun (sess_with s t x sys h1) u
    simp only at this
    rw [this]
    by_cases hu : u = t
    · subst hu; rw [upd_same]; exact Pieces.inv_other (hi u) h2 h3
    · rw [upd_other _ _ hu]; exact hi u
  obtain ⟨hc, ⟨c, srv, rfl, hal, hb, rfl⟩ | ⟨u, y, rfl, hx, _, hb, rfl⟩ | ⟨u, c, y, rfl, hmay, hb, rfl⟩⟩ := System.step_cases h
  · exact hi
  · exact key u y _ rfl rfl hb
  · exact key u y c rfl (hr u c rfl) hb

theorem sys_exact {s : State} (hi : Inv s) {b : System.Action} {sys : System.State} (h : System.step parse s.proc.sys b = some sys)
    (hr : ∀ t a, b = .session t a → Pieces.replaced a = false ∧ a ≠ .base .closeStep) :
    System.step parse (absSys s) b = some (absSys { s with proc := { s.proc with sys := sys } }) := by
  have exact1 : ∀ t x a, Pieces.replaced a = false → a ≠ .base .closeStep → FullSession.step parse (s.proc.sys.sess t) a = some x →
      FullSession.step parse (Pieces.abs (s.sess t)) a = some (Pieces.abs { s.sess t with sess := x }) := by
    intro t x a h1 h2 h3
    obtain ⟨u, _, h4, h5⟩ := Pieces.sim_other (s := s.sess t) (hi t) h1 h3
    rw [h5 h2] at h4
    exact h4
  obtain ⟨hc, ⟨c, srv, rfl, hal, hb, rfl⟩ | ⟨u, y, rfl, hx, hcl, hb, rfl⟩ | ⟨u, c, y, rfl, hmay, hb, rfl⟩⟩ := System.step_cases h
  · have hal' := absSys_allows hi hal
    simp only [System.step]
    rw [if_neg (by simpa [absSys] using hc), if_pos hal', show (absSys s).server = s.proc.sys.server from rfl, hb]
    simp only [Option.map_some, Option.some.injEq]
    cases c <;> rfl
  · have h1 := exact1 u y _ rfl (by simp) hb
    have hf : (Pieces.abs (s.sess u)).base.fired = (s.proc.sys.sess u).base.fired := (Pieces.abs_looksLike (hi u)).fired
    have hcl' := absSys_closeReturned hi
    rw [hcl] at hcl'
    simp only [System.step]
    rw [if_neg (by simpa [absSys] using hc), if_pos ⟨hx, hcl'⟩]
    simp only [absSys] at h1 hf ⊢
    rw [h1]
    simp only [Option.map_some, Option.some.injEq, System.State.mk.injEq, true_and, and_true]
    exact ⟨(abs_with s u y _ rfl).symm, by simp only [hf]⟩
  · have h1 := exact1 u y c (hr u c rfl).1 (hr u c rfl).2 hb
    have hcr : (Pieces.abs { s.sess u with sess := y }).base.crashed = y.base.crashed :=
      (Pieces.abs_looksLike (Pieces.inv_other (hi u) (hr u c rfl).1 hb)).crashed
    have hmay' : (absSys s).sessionMay u c = true := hmay
    simp only [System.step]
    rw [if_neg (by simpa [absSys] using hc), if_pos hmay']
    simp only [absSys] at h1 ⊢
    rw [h1]
    simp only [Option.map_some, Option.some.injEq, System.State.mk.injEq, true_and, and_true]
    exact ⟨(abs_with s u y _ rfl).symm, hcr⟩

theorem plan_abs {s : State} (hi : Inv s) (a : Process.Action) : Process.plan bytes (abs s) a = Process.plan bytes s.proc a := by
  cases a with
  | get t =>
    have h := abs_config (hi t)
    simp only [Process.plan]
    cases h1 : (s.proc.sys.sess t).hs with
    | config m =>
      have := (h m).mpr h1
      simp only [abs, absSys, this]
    | _ =>
      have hn : ∀ m, (Pieces.abs (s.sess t)).hs ≠ .config m := by
        intro m hm
        have := (h m).mp hm
        simp [State.sess, h1] at this
      simp only [abs, absSys]
  | _ => rfl

theorem plan_session {p : Process.State} {a : Process.Action} {q : Process.Plan} (h : Process.plan bytes p a = some q) {t : Tid} {x : FullSession.Action}
    (hx : q.sys = some (.session t x)) : a = .sys (.session t x) ∨ a = .gotten t ∧ ∃ r, x = .getConfig r := by
  cases a with
  | sys a =>
    refine .inl ?_
    simp only [Process.plan, Process.planSys] at h
    repeat' split at h
    all_goals first | (simp at h; done) | (simp only [Option.some.injEq] at h; subst h; simp at hx; done) |
      (simp only [Option.some.injEq] at h; subst h; simp at hx; obtain ⟨rfl, rfl⟩ := hx; rfl)
  | gotten u =>
    refine .inr ?_
    simp only [Process.plan] at h
    split at h
    · simp only [Option.some.injEq] at h; subst h
      simp at hx
      exact ⟨by rw [hx.1], _, hx.2.symm⟩
    · simp at h
  | _ =>
    exfalso
    simp only [Process.plan, Process.planCli, Process.planDist, Process.planMain] at h
    repeat' split at h
    all_goals first | (simp at h; done) | (simp only [Option.some.injEq] at h; subst h; simp at hx)

theorem over_abs (s : State) : (abs s).over = s.proc.over := rfl

/-- The step `a` of the program, and if it closes a connection, perhaps a failing write before it. -/
theorem proc_other {s : State} (hi : Inv s) {a : Process.Action} {p : Process.State} (hr : replaced a = false) (h : Process.step parse bytes s.proc a = some p) :
    Inv { s with proc := p } ∧ ∃ t acts, (∀ x ∈ acts, Pieces.replaced x = true ∧ ∀ k, x = .startup (some k) → Pieces.Closing (s.sess t)) ∧
      (acts ≠ [] → a = .sys (.session t (.base .closeStep))) ∧
      run (Process.step parse bytes) (abs s) ((acts.map fun x => .sys (.session t x)) ++ [a]) = some (abs { s with proc := p }) := by
  obtain ⟨ho, q, hq, h1, h2, h3, h4⟩ := Process.step_plan h
  have hstep : ∀ sys', Process.also (System.step parse) (absSys s) q.sys = some sys' →
      Process.step parse bytes (abs s) a = some { p with sys := sys' } := by
    intro sys' h5
    unfold Process.step
    rw [over_abs, if_neg (by simpa using ho), plan_abs hi, hq]
    simp only
    rw [show (abs s).cli = s.proc.cli from rfl, show (abs s).dist = s.proc.dist from rfl, show (abs s).sys = absSys s from rfl, h1, h2, h5]
    simp [h4]
  cases hb : q.sys with
  | none =>
    rw [hb] at h3 hstep
    simp only [Process.also, Option.some.injEq] at h3
    have h5 := hstep _ rfl
    have hp : p.sys = s.proc.sys := h3.symm
    refine ⟨fun t => ?_, .go 0, [], by simp, by simp, ?_⟩
    · have := hi t; simpa [State.sess, hp] using this
    · simp only [List.map_nil, List.nil_append, run, h5, Option.some.injEq]
      simp [abs, absSys, State.sess, hp]
  | some b =>
    rw [hb] at h3 hstep
    simp only [Process.also] at h3 hstep
    have hrep : ∀ t x, b = .session t x → Pieces.replaced x = false := by
      rintro t x rfl
      rcases plan_session hq hb with rfl | ⟨_, r, rfl⟩
      · exact hr
      · rfl
    have hinv := sys_inv hi h3 hrep
    refine ⟨hinv, ?_⟩
    by_cases hcl : ∃ t, b = .session t (.base .closeStep)
    · obtain ⟨t, rfl⟩ := hcl
      obtain rfl : a = .sys (.session t (.base .closeStep)) := by
        rcases plan_session hq hb with rfl | ⟨_, r, hx⟩
        · rfl
        · simp at hx
      obtain ⟨hc, ⟨_, _, hx, _⟩ | ⟨_, _, hx, _⟩ | ⟨u, c, y, hx, hmay, hb', e⟩⟩ := System.step_cases h3
      · simp at hx
      · simp at hx
      · simp only [System.Action.session.injEq] at hx
        obtain ⟨rfl, rfl⟩ := hx
        obtain ⟨v, ⟨acts, g1, g2⟩, g3, _⟩ := Pieces.sim_other (s := s.sess t) (hi t) rfl hb'
        have hcr : (Pieces.abs { s.sess t with sess := y }).base.crashed = y.base.crashed :=
          (Pieces.abs_looksLike (Pieces.inv_other (hi t) rfl hb')).crashed
        refine ⟨t, acts, g1, fun _ => rfl, ?_⟩
        have := proc_sim (bytes := bytes) (p := abs s) (t := t) rfl ho (acts := acts ++ [.base .closeStep])
          (by intro x hx; rcases List.mem_append.mp hx with hx | hx
              · exact .inl (g1 x hx).1
              · exact .inr (by simpa using hx))
          (by rw [run_append]; show _ = some (Pieces.abs { s.sess t with sess := y })
              rw [show run (FullSession.step parse) ((abs s).sys.sess t) acts = some v from g2]
              simp [run, g3]) (by simp)
        rw [List.map_append] at this
        refine this.trans ?_
        have hq' : q = { sys := some (.session t (.base .closeStep)), main := s.proc.main } := by
          simp only [Process.plan, Process.planSys, Option.some.injEq] at hq; exact hq.symm
        subst hq'
        simp only [Process.also, Option.some.injEq] at h1 h2
        simp only at h4
        simp only [Option.some.injEq]
        have hp : p = { s.proc with sys := p.sys } := by
          cases p; simp_all
        rw [hp, e]
        simp only [abs, absSys, hcr, Process.State.mk.injEq, System.State.mk.injEq, true_and, and_true]
        exact (abs_with s t y _ rfl).symm
    · have h5 := hstep _ (sys_exact hi h3 fun t x hx => ⟨hrep t x hx, by rintro rfl; exact hcl ⟨t, hx⟩⟩)
      refine ⟨.go 0, [], by simp, by simp, ?_⟩
      simp only [List.map_nil, List.nil_append, run, h5, Option.some.injEq]
      rfl

theorem piece_inv {s s' : State} {t : Tid} {a : Pieces.Action} (hi : Inv s) (h : step parse bytes s (.piece t a) = some s') : Inv s' := by
  cases a with
  | other a => simp [step] at h
  | _ =>
    simp only [step] at h
    split at h
    · simp at h
    · obtain ⟨x, hx, rfl⟩ := Option.map_eq_some_iff.mp h
      intro u
      have := congrFun (set_sess s t x x.sess.base.crashed) u
      have hx' := Pieces.inv_step (hi t) hx
      by_cases hu : u = t
      · subst hu; rw [upd_same] at this; rw [← this] at hx'; exact hx'
      · rw [upd_other _ _ hu] at this
        exact this.symm ▸ hi u

/-- A piece is read or written. -/
theorem piece_cases {s s' : State} {t : Tid} {a : Pieces.Action} (h : step parse bytes s (.piece t a) = some s') :
    s.proc.over = false ∧ (∀ b, a ≠ .other b) ∧ ∃ x, Pieces.step parse (s.sess t) a = some x ∧ s' = s.set t x x.sess.base.crashed := by
  cases a with
  | other a => simp [step] at h
  | _ =>
    simp only [step] at h
    split at h
    · simp at h
    · rename_i ho
      obtain ⟨x, hx, rfl⟩ := Option.map_eq_some_iff.mp h
      exact ⟨by simpa using ho, by simp, x, hx, rfl⟩

theorem piece_alive {s s' : Pieces.State} {a : Pieces.Action} (h : Pieces.step parse s a = some s') : s.sess.base.crashed = false := by
  unfold Pieces.step at h
  dsimp only at h
  split at h
  · simp at h
  · rename_i hc
    simpa using hc

theorem proc_piece {s s' : State} {t : Tid} {a : Pieces.Action} (hi : Inv s) (h : step parse bytes s (.piece t a) = some s') :
    ∃ acts : List FullSession.Action, (∀ x ∈ acts, Pieces.replaced x = true ∧ ∀ k, x = .startup (some k) → a = .writeStartupFails) ∧
      run (Process.step parse bytes) (abs s) (acts.map fun x => .sys (.session t x)) = some (abs s') := by
  obtain ⟨ho, hn, x, hx, rfl⟩ := piece_cases h
  obtain ⟨acts, g1, g2⟩ := Pieces.sim_piece (hi t) hn hx
  have hcr : (Pieces.abs x).base.crashed = x.sess.base.crashed := (Pieces.abs_looksLike (Pieces.inv_step (hi t) hx)).crashed
  have habs : abs (s.set t x x.sess.base.crashed) =
      { abs s with sys := { (abs s).sys with sess := upd (abs s).sys.sess t (Pieces.abs x), crashed := (Pieces.abs x).base.crashed } } := by
    simp only [abs, absSys, hcr, set_sess, absSess_upd]
    rfl
  refine ⟨acts, g1, ?_⟩
  by_cases hne : acts = []
  · subst hne
    simp only [run, Option.some.injEq] at g2
    simp only [List.map_nil, run, Option.some.injEq]
    rw [habs, ← g2]
    have h1 : (Pieces.abs (s.sess t)).base.crashed = s.proc.sys.crashed := by
      rw [(Pieces.abs_looksLike (hi t)).crashed, piece_alive hx]
      simp only [Process.State.over, Bool.or_eq_false_iff] at ho
      exact ho.2.symm
    simp only [abs, absSys, h1]
    congr 2
    funext u
    by_cases hu : u = t
    · subst hu; simp
    · simp [upd_other _ _ hu]
  · rw [proc_sim (bytes := bytes) (p := abs s) (t := t) rfl ho (fun x hx => .inl (g1 x hx).1) g2 hne, habs]

theorem inv_init : Inv (init path text) := fun _ => Pieces.inv_init

theorem abs_init : abs (init path text) = Process.init path text := by
  have : ∀ t, Pieces.abs ((init path text).sess t) = FullSession.init := fun _ => Pieces.abs_init
  simp only [abs, absSys, this]
  rfl

theorem sim_step {s s' : State} {a : Action} (hi : Inv s) (h : step parse bytes s a = some s') :
    Inv s' ∧ ∃ acts, run (Process.step parse bytes) (abs s) acts = some (abs s') := by
  cases a with
  | other a =>
    simp only [step] at h
    split at h
    · simp at h
    · obtain ⟨p, hp, rfl⟩ := Option.map_eq_some_iff.mp h
      obtain ⟨h1, t, acts, _, _, h2⟩ := proc_other hi (by simp_all) hp
      exact ⟨h1, _, h2⟩
  | piece t a =>
    obtain ⟨acts, _, h1⟩ := proc_piece hi h
    exact ⟨piece_inv hi h, _, h1⟩

theorem abs_reachable {s : State} (h : Reachable (step parse bytes) (init path text) s) :
    Inv s ∧ Reachable (Process.step parse bytes) (Process.init path text) (abs s) :=
  h.invariant (fun s => Inv s ∧ Reachable (Process.step parse bytes) (Process.init path text) (abs s)) ⟨inv_init, by rw [abs_init]; exact .refl _⟩
    fun s a s' hi hs => by
      obtain ⟨h1, acts, h2⟩ := sim_step hi.1 hs
      exact ⟨h1, hi.2.trans ⟨acts, h2⟩⟩

end Whole
end Gevulot
