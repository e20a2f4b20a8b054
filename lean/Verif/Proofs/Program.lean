import Verif.Spec.Program
import Verif.Props.CliWatch
import Verif.Props.Whole

/-!
# The whole program with the goroutines of `Watch` refines Model/Whole.lean
-/

namespace Gevulot

namespace Program

open ServerModel (Tid PC)
open SessionModel (Peer)

variable {parse : Bytes → Option ConnectionParams} {bytes : Nat → Bytes} {path : Option Nat} {text : Nat → CliModel.Text}

theorem over_rest (s : State) (c : CliModel.State) : (s.rest c).proc.over = s.over := rfl

theorem sess_rest (s : State) (c : CliModel.State) (t : Tid) : (s.rest c).sess t = s.sess t := rfl

/-- The steps, as in the definition. -/
theorem watch_cases {s s' : State} {a : CliWatch.Action} (h : step parse bytes s (.watch a) = some s') :
    s.over = false ∧ a ≠ .recv ∧ ∃ w d, CliWatch.step s.watch a = some w ∧
      Process.also DistributorModel.step s.dist ((sends s.watch a).map fun c => .produce (Process.encode c)) = some d ∧ s' = { s with watch := w, dist := d } := by
  unfold step at h
  split at h
  · simp at h
  rename_i ho
  refine ⟨by simpa using ho, ?_⟩
  cases a with
  | recv => simp at h
  | _ =>
    refine ⟨by simp, ?_⟩
    simp only at h
    split at h
    · rename_i w d h1 h2
      simp only [Option.some.injEq] at h
      exact ⟨w, d, h1, h2, h.symm⟩
    · simp at h

theorem rest_cases {s s' : State} {a : Whole.Action} (h : step parse bytes s (.rest a) = some s') :
    s.over = false ∧ replaced a = false ∧ ∃ x w, Whole.step parse bytes (s.rest s.seen) a = some x ∧
      Process.also CliWatch.step s.watch (if takes s a then some .recv else none) = some w ∧
      s' = { watch := w, dist := x.proc.dist, sys := x.proc.sys, main := x.proc.main, rbuf := x.rbuf, wrote := x.wrote } := by
  unfold step at h
  split at h
  · simp at h
  rename_i ho
  simp only at h
  split at h
  · simp at h
  rename_i hr
  split at h
  · rename_i x w h1 h2
    simp only [Option.some.injEq] at h
    exact ⟨by simpa using ho, by simpa using hr, x, w, h1, h2, h.symm⟩
  · simp at h

/-! ## The watcher's side -/

/-- What a step of Model/Cli.lean sends. -/
theorem cli_sends {c c' : CliModel.State} {a : CliModel.Action} (h : CliModel.step c a = some c') (hr : a ≠ .recv) :
    ∃ x : Option CliModel.Config, c'.sent = c.sent ++ x.toList ∧ ∀ s : Process.State, s.cli = c →
      Process.planCli s a = some { cli := some a, dist := x.map fun c => .produce (Process.encode c), main := s.main } := by
  cases a with
  | main =>
    simp only [CliModel.step] at h
    split at h
    · rename_i hm
      split at h <;> (simp only [Option.some.injEq] at h; subst h; exact ⟨none, by simp, fun s hs => by subst hs; simp [Process.planCli, hm]⟩)
    · rename_i c hm
      split at h
      · simp only [Option.some.injEq] at h; subst h
        exact ⟨some c, rfl, fun s hs => by subst hs; simp [Process.planCli, hm]⟩
      · simp at h
    · rename_i hm
      simp only [Option.some.injEq] at h; subst h; exact ⟨none, by simp, fun s hs => by subst hs; simp [Process.planCli, hm]⟩
    · simp at h
  | handle =>
    simp only [CliModel.step] at h
    split at h
    · rename_i hm
      split at h <;> (simp only [Option.some.injEq] at h; subst h; exact ⟨none, by simp, fun s hs => by subst hs; simp [Process.planCli, hm]⟩)
    · rename_i c hm
      split at h
      · simp only [Option.some.injEq] at h; subst h
        exact ⟨some c, rfl, fun s hs => by subst hs; simp [Process.planCli, hm]⟩
      · simp at h
    · simp at h
  | recv => exact absurd rfl hr
  | _ =>
    refine ⟨none, ?_, fun s _ => rfl⟩
    simp only [CliModel.step, CliModel.relink] at h
    repeat' split at h
    all_goals first | (simp at h; done) | (simp only [Option.some.injEq] at h; subst h; simp)

theorem produce_alive {d d' : DistributorModel.State} {c : DistributorModel.Config} (h : DistributorModel.step d (.produce c) = some d') :
    d'.panicked = d.panicked := by
  simp only [DistributorModel.step] at h
  split at h
  · simp at h
  · split at h
    · simp at h
    · simp only [Option.some.injEq] at h; subst h; rfl

/-- Steps of Model/Cli.lean are steps of the program, if the distributor can take what they send. -/
theorem run_cli {c c' : CliModel.State} {acts : List CliModel.Action} (h : run CliModel.step c acts = some c') (hr : .recv ∉ acts) :
    ∃ l, c'.sent = c.sent ++ l ∧ ∀ (s : Whole.State) (d' : DistributorModel.State), s.proc.cli = c → s.proc.over = false →
      run DistributorModel.step s.proc.dist (l.map fun c => .produce (Process.encode c)) = some d' →
      run (Whole.step parse bytes) s (acts.map fun a => .other (.cli a)) = some { s with proc := { s.proc with cli := c', dist := d' } } := by
  induction acts generalizing c with
  | nil =>
    simp only [run, Option.some.injEq] at h
    subst h
    refine ⟨[], by simp, fun s d' hc _ hd => ?_⟩
    simp only [List.map_nil, run, Option.some.injEq] at hd
    subst hd hc
    rfl
  | cons a acts ih =>
    simp only [run] at h
    cases hs : CliModel.step c a with
    | none => simp [hs] at h
    | some c1 =>
      simp only [hs] at h
      simp only [List.mem_cons, not_or] at hr
      obtain ⟨l', e', k'⟩ := ih h hr.2
      obtain ⟨x, e, hp⟩ := cli_sends hs (Ne.symm hr.1)
      refine ⟨x.toList ++ l', by rw [e', e, List.append_assoc], fun s d' hc ho hd => ?_⟩
      rw [List.map_append, run_append] at hd
      cases hd1 : run DistributorModel.step s.proc.dist (x.toList.map fun c => .produce (Process.encode c)) with
      | none => rw [hd1] at hd; simp at hd
      | some d1 =>
        rw [hd1] at hd
        have ha : Process.also DistributorModel.step s.proc.dist (x.map fun c => .produce (Process.encode c)) = some d1 := by
          cases x with
          | none => simpa [run, Process.also] using hd1
          | some c =>
            simp only [Option.toList, List.map_cons, List.map_nil, run] at hd1
            simp only [Option.map_some, Process.also]
            split at hd1
            · rw [← hd1]; assumption
            · simp at hd1
        have hal : d1.panicked = s.proc.dist.panicked := by
          cases x with
          | none => simp [Process.also] at ha; rw [ha]
          | some c => exact produce_alive ha
        have h1 : Whole.step parse bytes s (.other (.cli a)) = some { s with proc := { s.proc with cli := c1, dist := d1 } } := by
          have hce : Process.also CliModel.step s.proc.cli (some a) = some c1 := by rw [hc]; exact hs
          have hse : Process.also (System.step parse) s.proc.sys none = some s.proc.sys := rfl
          simp only [Whole.step, Whole.replaced, Process.step, ho, Process.plan, hp _ hc, Bool.false_eq_true, if_false, ha, hce, hse, Option.map_some]
        simp only [List.map_cons, run, h1]
        refine k' { s with proc := { s.proc with cli := c1, dist := d1 } } d' rfl ?_ hd
        simp only [Process.State.over, hal] at ho ⊢
        exact ho

theorem watch_sends {w w' : CliWatch.State} {a : CliWatch.Action} (h : CliWatch.step w a = some w') : w'.sent = w.sent ++ (sends w a).toList := by
  have htr := CliWatch.step_tr h
  cases htr <;> simp [sends, CliWatch.relink, *]

/-- A step of the watcher's side. -/
theorem sim_watch {s s' : State} {a : CliWatch.Action} {c : CliModel.State} (hi : CliWatch.Inv s.watch) (hrel : CliWatch.Rel s.watch c)
    (h : step parse bytes s (.watch a) = some s') :
    ∃ (acts : List CliModel.Action) (c' : CliModel.State), run (Whole.step parse bytes) (s.rest c) (acts.map fun a => .other (.cli a)) = some (s'.rest c') ∧ CliWatch.Rel s'.watch c' ∧
      acts.filter CliWatch.isOutside = CliWatch.outside a := by
  obtain ⟨ho, ha, w, d, h1, h2, rfl⟩ := watch_cases h
  obtain ⟨acts, c', k1, k2, k3⟩ := CliWatch.simulate hi hrel h1
  have hn : .recv ∉ acts := by
    intro hx
    have : CliModel.Action.recv ∈ acts.filter CliWatch.isOutside := List.mem_filter.mpr ⟨hx, rfl⟩
    rw [k2] at this
    cases a <;> simp_all [CliWatch.outside]
  obtain ⟨l, e, k4⟩ := run_cli (parse := parse) (bytes := bytes) k1 hn
  have hl : l = (sends s.watch a).toList := by
    have e' := watch_sends h1
    rw [← k3.same.sent, ← hrel.same.sent, e] at e'
    exact List.append_cancel_left e'
  refine ⟨acts, c', k4 (s.rest c) d rfl ho ?_, k3, k2⟩
  rw [hl]
  cases hs : sends s.watch a with
  | none => rw [hs] at h2; simpa [Process.also, run, State.rest] using h2
  | some x =>
    rw [hs] at h2
    simp only [Option.map_some, Process.also] at h2
    simp [run, State.rest, h2]

/-! ## The rest -/

/-- What the rest of the program needs to know of `prepareConfigChan`. -/
def Tells (s : State) (c : CliModel.State) : Prop := s.main = .prepare → (s.watch.main = .running → c.main = .running) ∧ (s.watch.main = .failed → c.main = .failed)

theorem tells_of_rel {s : State} {c : CliModel.State} (h : CliWatch.Rel s.watch c) : Tells s c := by
  intro _
  rw [h.seen.main]
  exact ⟨fun e => by rw [e]; rfl, fun e => by rw [e]; rfl⟩

/-- Whether a step receives from the channel. -/
def recvs (s : Process.State) : Process.Action → Bool
  | .dist (.monTake _) => !s.dist.source.isEmpty
  | _ => false

theorem plan_recvs {s : Process.State} {a : Process.Action} {p : Process.Plan} (hr : replaced (.other a) = false) (hp : Process.plan bytes s a = some p) :
    p.cli = if recvs s a then some .recv else none := by
  cases a with
  | cli a => simp [replaced] at hr
  | dist a =>
    simp only [Process.plan, Process.planDist] at hp
    repeat' split at hp
    all_goals first | (simp at hp; done) | (simp only [Option.some.injEq] at hp; subst hp; simp_all [recvs])
  | _ =>
    simp only [Process.plan, Process.planSys, Process.planMain] at hp
    repeat' split at hp
    all_goals first | (simp at hp; done) | (simp only [Option.some.injEq] at hp; subst hp; simp [recvs])

/-- The plan of a step of the rest. -/
theorem plan_rest {s : State} {c : CliModel.State} {a : Process.Action} {p : Process.Plan} (hr : replaced (.other a) = false) (ht : Tells s c)
    (hp : Process.plan bytes (s.rest s.seen).proc a = some p) :
    Process.plan bytes (s.rest c).proc a = some p ∧ p.cli = if takes s (.other a) then some .recv else none := by
  refine ⟨?_, ?_⟩
  · cases a with
    | cli a => simp [replaced] at hr
    | main =>
      simp only [Process.plan, Process.planMain, State.rest, State.seen] at hp ⊢
      cases hm : s.main with
      | prepare =>
        obtain ⟨t1, t2⟩ := ht hm
        rw [hm] at hp
        cases hw : s.watch.main <;> simp only [hw, seenMain] at hp <;>
          first
            | (simp at hp; done)
            | (simp only [Option.some.injEq] at hp; subst hp; simp [t1 hw])
            | (simp only [Option.some.injEq] at hp; subst hp; simp [t2 hw])
      | _ => rw [hm] at hp; exact hp
    | _ => exact hp
  · have e : takes s (.other a) = recvs (s.rest s.seen).proc a := by
      cases a with
      | dist a => cases a <;> rfl
      | _ => rfl
    rw [e]
    exact plan_recvs hr hp

theorem rel_recv {d d' : CliWatch.State} {c : CliModel.State} (h : CliWatch.Rel d c) (hs : CliWatch.step d .recv = some d') :
    ∃ c', CliModel.step c .recv = some c' ∧ CliWatch.Rel d' c' := by
  obtain ⟨⟨s1, s2, s3, s4, s5, s6, s7, s8⟩, r1, r2, r3⟩ := h
  simp only [CliWatch.step] at hs
  split at hs
  · rename_i x rest hc
    simp only [Option.some.injEq] at hs
    subst hs
    exact ⟨{ c with chan := rest, received := c.received ++ [x] }, by simp [CliModel.step, s4, hc], ⟨s1, s2, s3, rfl, s5, by simp [s6], s7, s8⟩, ⟨r1, r2, r3⟩⟩
  · simp at hs

/-- A step of the rest. -/
theorem sim_rest {s s' : State} {a : Whole.Action} {c : CliModel.State} (hrel : CliWatch.Rel s.watch c) (h : step parse bytes s (.rest a) = some s') :
    ∃ c', Whole.step parse bytes (s.rest c) a = some (s'.rest c') ∧ CliWatch.Rel s'.watch c' ∧ (takes s a = false → c' = c) := by
  obtain ⟨ho, hr, x, w, h1, h2, rfl⟩ := rest_cases h
  cases a with
  | piece t a =>
    simp only [takes, Bool.false_eq_true, if_false, Process.also, Option.some.injEq] at h2
    subst h2
    obtain ⟨-, hn, y, hy, rfl⟩ := Whole.piece_cases h1
    refine ⟨c, ?_, hrel, fun _ => rfl⟩
    cases a with
    | other b => exact absurd rfl (hn b)
    | _ =>
      simp only [Whole.step, over_rest, ho, Bool.false_eq_true, if_false, sess_rest] at h1 ⊢
      rw [show Pieces.step parse (s.sess t) _ = some y from hy]
      rfl
  | other a =>
    obtain ⟨hn, p, hp, rfl⟩ := Whole.other_cases h1
    obtain ⟨-, q, hq, e1, e2, e3, e4⟩ := Process.step_plan hp
    obtain ⟨hq', hc⟩ := plan_rest hr (tells_of_rel hrel) hq
    have key : ∃ c', Process.also CliModel.step c q.cli = some c' ∧ CliWatch.Rel w c' ∧ (takes s (.other a) = false → c' = c) := by
      rw [hc]
      split
      · rename_i ht
        rw [if_pos ht] at h2
        obtain ⟨c', k1, k2⟩ := rel_recv hrel h2
        exact ⟨c', k1, k2, fun hf => by rw [hf] at ht; simp at ht⟩
      · rename_i ht
        rw [if_neg ht] at h2
        simp only [Process.also, Option.some.injEq] at h2
        subst h2
        exact ⟨c, rfl, hrel, fun _ => rfl⟩
    obtain ⟨c', k1, k2, k3⟩ := key
    refine ⟨c', ?_, k2, k3⟩
    have e2' : Process.also DistributorModel.step (s.rest c).proc.dist q.dist = some p.dist := e2
    have e3' : Process.also (System.step parse) (s.rest c).proc.sys q.sys = some p.sys := e3
    have k1' : Process.also CliModel.step (s.rest c).proc.cli q.cli = some c' := k1
    simp only [Whole.step, hn, Process.step, over_rest, ho, hq', e2', e3', k1', Bool.false_eq_true, if_false, Option.map_some, ← e4]
    rfl

/-! ## Executions -/

theorem inv_next {s s' : State} {a : Action} (hi : CliWatch.Inv s.watch) (h : step parse bytes s a = some s') : CliWatch.Inv s'.watch := by
  cases a with
  | watch a =>
    obtain ⟨-, -, w, d, h1, -, rfl⟩ := watch_cases h
    exact CliWatch.inv_step hi h1
  | rest a =>
    obtain ⟨-, -, x, w, -, h2, rfl⟩ := rest_cases h
    split at h2
    · exact CliWatch.inv_step (a := .recv) hi h2
    · simp only [Process.also, Option.some.injEq] at h2
      subst h2; exact hi

theorem shown_cli (acts : List CliModel.Action) :
    (acts.map fun a => Whole.Action.other (.cli a)).filter isShown = (acts.filter CliWatch.isOutside).map fun a => .other (.cli a) := by
  rw [List.filter_map]
  rfl

theorem sim_run {s s' : State} {acts : List Action} {c : CliModel.State} (hi : CliWatch.Inv s.watch) (hrel : CliWatch.Rel s.watch c)
    (h : run (step parse bytes) s acts = some s') :
    ∃ acts' c', run (Whole.step parse bytes) (s.rest c) acts' = some (s'.rest c') ∧ CliWatch.Rel s'.watch c' ∧ CliWatch.Inv s'.watch ∧
      acts'.filter isShown = acts.flatMap shown := by
  induction acts generalizing s c with
  | nil =>
    simp only [run, Option.some.injEq] at h
    subst h
    exact ⟨[], c, rfl, hrel, hi, rfl⟩
  | cons a acts ih =>
    simp only [run] at h
    cases hs : step parse bytes s a with
    | none => simp [hs] at h
    | some s1 =>
      simp only [hs] at h
      have one : ∃ as c1, run (Whole.step parse bytes) (s.rest c) as = some (s1.rest c1) ∧ CliWatch.Rel s1.watch c1 ∧ as.filter isShown = shown a := by
        cases a with
        | watch a =>
          obtain ⟨as, c1, k1, k2, k3⟩ := sim_watch hi hrel hs
          exact ⟨_, c1, k1, k2, by rw [shown_cli, k3]; rfl⟩
        | rest a =>
          obtain ⟨c1, k1, k2, -⟩ := sim_rest hrel hs
          refine ⟨[a], c1, by simp [run, k1], k2, ?_⟩
          obtain ⟨-, hr, -⟩ := rest_cases hs
          have : isShown a = true := by
            unfold isShown
            split
            · simp [replaced] at hr
            · rfl
          simp [shown, this]
      obtain ⟨as, c1, k1, k2, k3⟩ := one
      obtain ⟨bs, c2, k4, k5, k6, k7⟩ := ih (inv_next hi hs) k2 h
      exact ⟨as ++ bs, c2, run_append_some k1 k4, k5, k6, by rw [List.filter_append, k3, k7]; rfl⟩

/-- Nothing is done in Model/Whole.lean but this. -/
theorem of_shown {acts : List Action} {acts' : List Whole.Action} (h : acts'.filter isShown = acts.flatMap shown) {a : Whole.Action} (ha : a ∈ acts')
    (hs : isShown a = true) : .rest a ∈ acts ∨ ∃ x b, .watch x ∈ acts ∧ b ∈ CliWatch.outside x ∧ a = .other (.cli b) := by
  have : a ∈ acts.flatMap shown := h ▸ List.mem_filter.mpr ⟨ha, hs⟩
  obtain ⟨x, hx, hax⟩ := List.mem_flatMap.mp this
  cases x with
  | watch x =>
    obtain ⟨b, hb, rfl⟩ := List.mem_map.mp hax
    exact .inr ⟨x, b, hx, hb, rfl⟩
  | rest x =>
    simp only [shown, List.mem_singleton] at hax
    exact .inl (hax ▸ hx)

/-- The steps of the rest are never steps of the watcher's side. -/
theorem not_replaced {s s' : State} {acts : List Action} (h : run (step parse bytes) s acts = some s') : ∀ a, .rest a ∈ acts → replaced a = false := by
  induction acts generalizing s with
  | nil => simp
  | cons b acts ih =>
    simp only [run] at h
    cases hs : step parse bytes s b with
    | none => simp [hs] at h
    | some s1 =>
      simp only [hs] at h
      intro a ha
      rcases List.mem_cons.mp ha with e | ha
      · subst e
        exact (rest_cases hs).2.1
      · exact ih h a ha

theorem changes_run {s s' : State} {acts : List Action} {acts' : List Whole.Action} (hr : run (step parse bytes) s acts = some s')
    (h1 : ∀ a ∈ acts, ¬ Changes a) (h : acts'.filter isShown = acts.flatMap shown) : ∀ b ∈ acts', ¬ Whole.Changes b := by
  intro b hb hc
  have hs : isShown b = true := by
    cases b with
    | piece => rfl
    | other b =>
      cases b with
      | cli b => cases b <;> first | rfl | exact hc.elim
      | _ => rfl
  rcases of_shown h hb hs with hx | ⟨x, y, hx, hy, rfl⟩
  · have := not_replaced hr b hx
    cases b with
    | piece => exact hc
    | other b =>
      cases b with
      | cli b => simp [replaced] at this
      | _ => exact hc
  · have := h1 _ hx
    cases x <;> simp [CliWatch.outside] at hy <;> subst hy <;> simp [Changes, Whole.Changes, Process.Changes] at this hc

theorem sim_init : (init path text).rest (CliModel.init path text) = Whole.init path text := rfl

/-- What is seen of a state that can be reached. -/
theorem sim_reachable {s : State} (h : Reachable (step parse bytes) (init path text) s) :
    ∃ c, Reachable (Whole.step parse bytes) (Whole.init path text) (s.rest c) ∧ CliWatch.Rel s.watch c ∧ CliWatch.Inv s.watch := by
  obtain ⟨acts, hr⟩ := h
  obtain ⟨acts', c, h1, h2, h3, -⟩ := sim_run (CliWatch.inv_init path text) (CliWatch.rel_init path text) hr
  exact ⟨c, ⟨acts', h1⟩, h2, h3⟩

/-! ## The other way round, and at rest -/

/-- `prepareConfigChan` has returned in one if it has in the other. -/
def Agrees (s : State) (c : CliModel.State) : Prop := s.main = .prepare → (c.main = .running → s.watch.main = .running) ∧ (c.main = .failed → s.watch.main = .failed)

theorem plan_back {s : State} {c : CliModel.State} {a : Process.Action} {p : Process.Plan} (hr : replaced (.other a) = false) (ht : Agrees s c)
    (hp : Process.plan bytes (s.rest c).proc a = some p) :
    Process.plan bytes (s.rest s.seen).proc a = some p ∧ p.cli = if takes s (.other a) then some .recv else none := by
  refine ⟨?_, ?_⟩
  · cases a with
    | cli a => simp [replaced] at hr
    | main =>
      simp only [Process.plan, Process.planMain, State.rest, State.seen] at hp ⊢
      cases hm : s.main with
      | prepare =>
        obtain ⟨t1, t2⟩ := ht hm
        rw [hm] at hp
        cases hw : c.main <;> simp only [hw] at hp <;>
          first
            | (simp at hp; done)
            | (simp only [Option.some.injEq] at hp; subst hp; simp [t1 hw, seenMain])
            | (simp only [Option.some.injEq] at hp; subst hp; simp [t2 hw, seenMain])
      | _ => rw [hm] at hp; exact hp
    | _ => exact hp
  · have e : takes s (.other a) = recvs (s.rest c).proc a := by
      cases a with
      | dist a => cases a <;> rfl
      | _ => rfl
    rw [e]
    exact plan_recvs hr hp

/-- A step of the rest that can be made in Model/Whole.lean. -/
theorem lift_rest {s : State} {a : Whole.Action} {c : CliModel.State} {x : Whole.State} (hr : replaced a = false) (hrel : CliWatch.Rel s.watch c)
    (hag : Agrees s c) (h : Whole.step parse bytes (s.rest c) a = some x) :
    ∃ s' c', step parse bytes s (.rest a) = some s' ∧ x = s'.rest c' ∧ CliWatch.Rel s'.watch c' := by
  have hs : ∃ s', step parse bytes s (.rest a) = some s' := by
    cases a with
    | piece t a =>
      obtain ⟨ho, hn, y, hy, rfl⟩ := Whole.piece_cases h
      rw [over_rest] at ho
      have hx : (Whole.step parse bytes (s.rest s.seen) (.piece t a)).isSome := by
        cases a with
        | other b => exact absurd rfl (hn b)
        | _ =>
          simp only [Whole.step, over_rest, ho, Bool.false_eq_true, if_false]
          rw [show Pieces.step parse ((s.rest s.seen).sess t) _ = some y from hy]
          rfl
      obtain ⟨z, hz⟩ := Option.isSome_iff_exists.mp hx
      refine ⟨{ watch := s.watch, dist := z.proc.dist, sys := z.proc.sys, main := z.proc.main, rbuf := z.rbuf, wrote := z.wrote }, ?_⟩
      simp [step, ho, hr, takes, Process.also, hz]
    | other a =>
      obtain ⟨hn, p, hp, rfl⟩ := Whole.other_cases h
      obtain ⟨ho, q, hq, e1, e2, e3, e4⟩ := Process.step_plan hp
      rw [over_rest] at ho
      obtain ⟨hq', hc⟩ := plan_back hr hag hq
      have hchan : c.chan = s.watch.chan := hrel.same.chan
      have key : (∃ z, Process.also CliModel.step s.seen q.cli = some z) ∧
          ∃ w, Process.also CliWatch.step s.watch (if takes s (.other a) then some .recv else none) = some w := by
        rw [hc] at e1 ⊢
        split
        · rename_i ht
          rw [if_pos ht] at e1
          simp only [Process.also, CliModel.step, State.rest, hchan] at e1
          simp only [Process.also, CliModel.step, State.seen, CliWatch.step]
          split at e1
          · simp_all
          · simp at e1
        · exact ⟨⟨_, rfl⟩, ⟨_, rfl⟩⟩
      obtain ⟨⟨z, hz⟩, w, hw⟩ := key
      have e2' : Process.also DistributorModel.step (s.rest s.seen).proc.dist q.dist = some p.dist := e2
      have e3' : Process.also (System.step parse) (s.rest s.seen).proc.sys q.sys = some p.sys := e3
      have hz' : Process.also CliModel.step (s.rest s.seen).proc.cli q.cli = some z := hz
      refine ⟨{ watch := w, dist := p.dist, sys := p.sys, main := q.main, rbuf := s.rbuf, wrote := s.wrote }, ?_⟩
      simp only [step, ho, hr, hw, Whole.step, hn, Process.step, over_rest, hq', e2', e3', hz', Bool.false_eq_true, if_false, Option.map_some]
      rfl
  obtain ⟨s', hs'⟩ := hs
  obtain ⟨c', h1, h2, -⟩ := sim_rest hrel hs'
  rw [h] at h1
  exact ⟨s', c', hs', by simpa using h1, h2⟩

/-- Steps of the rest that can be made in Model/Whole.lean, after `prepareConfigChan`. -/
theorem lift_run {s : State} {acts : List Whole.Action} {c : CliModel.State} {x : Whole.State} (hr : ∀ a ∈ acts, replaced a = false)
    (hrel : CliWatch.Rel s.watch c) (hm : s.watch.main = .running) (h : run (Whole.step parse bytes) (s.rest c) acts = some x) :
    ∃ s' c', run (step parse bytes) s (acts.map .rest) = some s' ∧ x = s'.rest c' ∧ CliWatch.Rel s'.watch c' ∧
      s'.watch = { s.watch with chan := s'.watch.chan, received := s'.watch.received } := by
  induction acts generalizing s c with
  | nil =>
    simp only [run, Option.some.injEq] at h
    subst h
    exact ⟨s, c, rfl, rfl, hrel, rfl⟩
  | cons a acts ih =>
    simp only [run] at h
    cases hs : Whole.step parse bytes (s.rest c) a with
    | none => simp [hs] at h
    | some x1 =>
      simp only [hs] at h
      have hag : Agrees s c := fun _ => ⟨fun _ => hm, fun hf => by rw [hrel.seen.main, hm] at hf; simp [CliWatch.absMain] at hf⟩
      obtain ⟨s1, c1, k1, rfl, k3⟩ := lift_rest (hr a (by simp)) hrel hag hs
      have hw : s1.watch = { s.watch with chan := s1.watch.chan, received := s1.watch.received } := by
        obtain ⟨-, -, y, w, -, h2, rfl⟩ := rest_cases k1
        split at h2
        · simp only [Process.also, CliWatch.step] at h2
          split at h2
          · simp only [Option.some.injEq] at h2
            subst h2; rfl
          · simp at h2
        · simp only [Process.also, Option.some.injEq] at h2
          subst h2; rfl
      obtain ⟨s2, c2, k4, k5, k6, k7⟩ := ih (fun b hb => hr b (by simp [hb])) k3 (by rw [hw]; exact hm) h
      refine ⟨s2, c2, by simp [run, k1, k4], k5, k6, ?_⟩
      rw [k7, hw]

/-- If the program has nothing to do, then it has nothing to do in Model/Whole.lean. -/
theorem rest_whole {s : State} {c : CliModel.State} (h : Reachable (Whole.step parse bytes) (Whole.init path text) (s.rest c)) (hrel : CliWatch.Rel s.watch c)
    (hi : CliWatch.Inv s.watch) (ho : s.over = false) (hr : AtRest parse bytes s) :
    Whole.AtRest parse bytes (s.rest c) ∧ s.watch.main = .running := by
  have hab := (Whole.abs_reachable h).2
  have hl := (Process.linked_of_reachable hab).link
  have hd : s.dist.panicked = false ∧ s.dist.sourceClosed = false := ⟨hl.distUp.2.2, hl.distUp.2.1⟩
  have hq : ∀ a, CliWatch.Own a → a ≠ .recv → CliWatch.step s.watch a = none := by
    intro a ha hn
    have h0 := hr (.watch a) ha
    cases hs : CliWatch.step s.watch a with
    | none => rfl
    | some w =>
      exfalso
      have hp : ∃ d, Process.also DistributorModel.step s.dist ((sends s.watch a).map fun c => .produce (Process.encode c)) = some d := by
        cases sends s.watch a with
        | none => exact ⟨_, rfl⟩
        | some x => simp [Process.also, DistributorModel.step, hd.1, hd.2]
      obtain ⟨d, hd'⟩ := hp
      cases a <;> simp [step, ho, hs, hd'] at h0 hn
  obtain ⟨q1, q2, q3⟩ := CliWatch.quiet hi hq
  have hnf : s.watch.main ≠ .failed := by
    intro hf
    have hcf : c.main = .failed := (by rw [hrel.seen.main, hf]; rfl)
    rcases hl.main with hm | hm | ⟨hm, -⟩
    · have hm : s.main = .prepare := hm
      have hx : Whole.step parse bytes (s.rest c) (.other .main) = some { (s.rest c) with proc := { (s.rest c).proc with main := .exited } } := by
        simp only [Whole.step, Whole.replaced, Process.step, over_rest, ho, Process.plan, Process.planMain]
        simp only [State.rest, hm, hcf, Process.also]
        rfl
      have hag : Agrees s c := fun _ => ⟨fun hx => by rw [hcf] at hx; simp at hx, fun _ => hf⟩
      obtain ⟨s', -, hs', -⟩ := lift_rest rfl hrel hag hx
      rw [hr (.rest (.other .main)) trivial] at hs'
      simp at hs'
    · have := (Process.C73_begin _ hab).1 hm
      have : c.main = .running := this
      rw [hcf] at this; simp at this
    · have hm : s.main = .exited := hm
      simp [State.over, hm] at ho
  have hag : Agrees s c := by
    intro _
    refine ⟨fun hx => ?_, fun hx => ?_⟩ <;> rcases q1 with q | q | ⟨y, q, -⟩
    · exact q
    · exact absurd q hnf
    · rw [hrel.seen.main, q] at hx; simp [CliWatch.absMain] at hx
    · rw [hrel.seen.main, q] at hx; simp [CliWatch.absMain] at hx
    · exact q
    · rw [hrel.seen.main, q] at hx; simp [CliWatch.absMain] at hx
  have hmain : c.main = .running ∨ ∃ y, c.main = .send y ∧ 1 ≤ c.chan.length := by
    rw [hrel.seen.main, hrel.same.chan]
    rcases q1 with q | q | ⟨y, q, hy⟩
    · exact .inl (by rw [q]; rfl)
    · exact absurd q hnf
    · exact .inr ⟨y, by rw [q]; rfl, hy⟩
  have hhandler : c.handler = .idle ∨ c.handler = .stopped ∨ (c.handler = .select ∧ c.queue = []) ∨ ∃ y, c.handler = .send y ∧ 1 ≤ c.chan.length := by
    rw [hrel.seen.handler, hrel.same.chan]
    cases hreg : s.watch.registered with
    | none =>
      simp only [CliWatch.absHandler]
      split
      · rename_i hdone
        exfalso
        rcases q1 with q | q | ⟨y, q, -⟩
        · have h1 := (CliWatch.callInv hi).value none (hi.linked.running.mp q)
          have := hi.linked.added none (h1.1 rfl)
          rw [hreg] at this; simp at this
        · exact hnf q
        · have h1 := hi.linked.before (.inr (.inr ⟨y, q⟩))
          have h2 := (CliWatch.callInv hi).idle
          grind
      · exact .inl rfl
    | some b =>
      simp only [CliWatch.absHandler]
      split
      · exact .inr (.inl rfl)
      · rename_i he
        rcases q2 with q | ⟨y, q, hy⟩
        · simp only [q, true_and]
          exact .inr (.inr (.inl ((hrel.seen.rest he).1.trans (q3 he q))))
        · simp only [q]
          exact .inr (.inr (.inr ⟨y, rfl, hy⟩))
  have hcli : ∀ b, (b = .main ∨ (∃ ok, b = .add ok) ∨ b = .event ∨ b = .handle ∨ b = .lost) → CliModel.step c b = none := by
    rintro b (rfl | ⟨ok, rfl⟩ | rfl | rfl | rfl)
    · rcases hmain with hm | ⟨y, hm, hy⟩ <;> simp only [CliModel.step, hm]
      rw [if_neg (by omega)]
    · rcases hmain with hm | ⟨y, hm, hy⟩ <;> simp only [CliModel.step, hm]
    · rcases hhandler with hm | hm | ⟨hm, hq⟩ | ⟨y, hm, hy⟩ <;> simp only [CliModel.step, hm]
      rw [hq]
    · rcases hhandler with hm | hm | ⟨hm, hq⟩ | ⟨y, hm, hy⟩ <;> simp only [CliModel.step, hm]
      rw [if_neg (by omega)]
    · rcases hmain with hm | ⟨y, hm, hy⟩ <;> simp [CliModel.step, hm]
  have hrest : Whole.AtRest parse bytes (s.rest c) := by
    intro a ha
    cases hx : Whole.step parse bytes (s.rest c) a with
    | none => rfl
    | some x =>
      exfalso
      by_cases hrep : replaced a = true
      · cases a with
        | piece t a => simp [replaced] at hrep
        | other a =>
          cases a with
          | cli b =>
            obtain ⟨-, p, hp, -⟩ := Whole.other_cases hx
            obtain ⟨-, q, hq', e1, -⟩ := Process.step_plan hp
            have hb : q.cli = some b := by
              simp only [Process.plan, Process.planCli] at hq'
              repeat' split at hq'
              all_goals first | (simp at hq'; done) | (simp only [Option.some.injEq] at hq'; subst hq'; rfl)
            rw [hb] at e1
            have := hcli b ha
            simp only [Process.also, State.rest, this] at e1
            simp at e1
          | _ => simp [replaced] at hrep
      · obtain ⟨s', c', hs', -⟩ := lift_rest (by simpa using hrep) hrel hag hx
        rw [hr (.rest a) (by cases a with | piece => trivial | other a => cases a <;> exact ha)] at hs'
        simp at hs'
  refine ⟨hrest, ?_⟩
  have hrun := (Process.rest_of_reachable hab ho (Whole.rest_abs h ho hrest)).running
  have hrun : c.main = .running := hrun
  rcases q1 with q | q | ⟨y, q, -⟩
  · exact q
  · exact absurd q hnf
  · rw [hrel.seen.main, q] at hrun; simp [CliWatch.absMain] at hrun

/-- The other way round. -/
theorem rest_of_whole {s : State} {c : CliModel.State} (hrel : CliWatch.Rel s.watch c) (hw : Whole.AtRest parse bytes (s.rest c)) (hc : CliWatch.AtRest s.watch) :
    AtRest parse bytes s := by
  intro a ha
  cases hs : step parse bytes s a with
  | none => rfl
  | some s' =>
    exfalso
    cases a with
    | watch a =>
      obtain ⟨-, -, w, d, h1, -⟩ := watch_cases hs
      rw [hc a ha] at h1; simp at h1
    | rest a =>
      obtain ⟨c', h1, -⟩ := sim_rest hrel hs
      rw [hw a (by cases a with | piece => trivial | other a => cases a <;> exact ha)] at h1
      simp at h1

/-! ## It comes to rest -/

theorem no_infinite (f : Nat → State) (a : Nat → Action) (h0 : Reachable (step parse bytes) (init path text) (f 0))
    (h : ∀ i, Own (a i) ∧ step parse bytes (f i) (a i) = some (f (i + 1))) : False := by
  have hreach : ∀ i, Reachable (step parse bytes) (init path text) (f i) := by
    intro i
    induction i with
    | zero => exact h0
    | succ i ih => exact ih.next (h i).2
  have hinv : ∀ i, CliWatch.Inv (f i).watch := fun i => (sim_reachable (hreach i)).elim fun _ hc => hc.2.2
  have hstep : ∀ i, CliWatch.work (f (i + 1)).watch < CliWatch.work (f i).watch ∨
      ∃ b, a i = .rest b ∧ takes (f i) b = false ∧ (f (i + 1)).watch = (f i).watch := by
    intro i
    obtain ⟨ho, hs⟩ := h i
    cases hb : a i with
    | watch b =>
      rw [hb] at ho hs
      obtain ⟨-, -, w, d, h1, -, e⟩ := watch_cases hs
      left
      rw [e]
      exact CliWatch.work_step (hinv i) ho h1
    | rest b =>
      rw [hb] at hs
      obtain ⟨-, -, x, w, -, h2, e⟩ := rest_cases hs
      cases ht : takes (f i) b with
      | true =>
        rw [ht, if_pos rfl] at h2
        left
        rw [e]
        exact CliWatch.work_step (hinv i) (a := .recv) trivial h2
      | false =>
        rw [ht] at h2
        simp only [Bool.false_eq_true, if_false, Process.also, Option.some.injEq] at h2
        exact .inr ⟨b, rfl, ht, by rw [e, h2]⟩
  have key : ∀ n i, CliWatch.work (f i).watch = n → False := by
    intro n
    induction n using Nat.strongRecOn with
    | _ n ih =>
      intro i hi
      by_cases hex : ∃ j, CliWatch.work (f (i + j)).watch < n
      · obtain ⟨j, hj⟩ := hex
        exact ih _ hj (i + j) rfl
      · have hge : ∀ j, n ≤ CliWatch.work (f (i + j)).watch := fun j => Nat.le_of_not_lt fun hx => hex ⟨j, hx⟩
        have hconst : ∀ j, (f (i + j)).watch = (f i).watch ∧ ∃ b, a (i + j) = .rest b ∧ takes (f (i + j)) b = false := by
          intro j
          have hw : (f (i + j)).watch = (f i).watch := by
            induction j with
            | zero => rfl
            | succ j ihj =>
              rcases hstep (i + j) with hx | ⟨b, -, -, e⟩
              · have := hge (j + 1)
                rw [ihj, hi] at hx
                rw [show i + (j + 1) = i + j + 1 from rfl] at this
                omega
              · rw [← ihj, ← e]; rfl
          refine ⟨hw, ?_⟩
          rcases hstep (i + j) with hx | ⟨b, h1, h2, -⟩
          · have := hge (j + 1)
            rw [hw, hi] at hx
            rw [show i + (j + 1) = i + j + 1 from rfl] at this
            omega
          · exact ⟨b, h1, h2⟩
        obtain ⟨c, hc, hrel, -⟩ := sim_reachable (hreach i)
        have hb : ∀ j, ∃ b, a (i + j) = .rest b ∧ takes (f (i + j)) b = false := fun j => (hconst j).2
        refine Whole.no_infinite (parse := parse) (bytes := bytes) (path := path) (text := text) (fun j => (f (i + j)).rest c) (fun j => (hb j).choose) hc fun j => ?_
        obtain ⟨h1, h2⟩ := (hb j).choose_spec
        obtain ⟨ho, hs⟩ := h (i + j)
        rw [h1] at ho hs
        obtain ⟨c', k1, -, k3⟩ := sim_rest (c := c) (by rw [(hconst j).1]; exact hrel) hs
        rw [k3 h2] at k1
        exact ⟨ho, k1⟩
  exact key _ 0 rfl

end Program
end Gevulot
