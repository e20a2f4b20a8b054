import Verif.Proofs.Server
import Verif.Spec.Server

/-!
Changing listeners: which address `Start` has tried last, and which listener is current.
-/

namespace Gevulot
namespace ServerModel

/-! ### What only grows -/

structure Grows (s s' : State) : Prop where
  shutdown : s.shutdown = true → s'.shutdown = true
  starter : ∀ t, s.starter = some t → s'.starter = some t
  op : ∀ t o, s.op t = some o → s'.op t = some o
  jobs : s.jobs <+: s'.jobs
  installed : s.installed <+: s'.installed
  tried : s.tried <+: s'.tried

theorem Grows.refl (s : State) : Grows s s := ⟨id, fun _ => id, fun _ _ => id, List.prefix_refl _, List.prefix_refl _, List.prefix_refl _⟩

theorem Grows.trans {s1 s2 s3 : State} (h : Grows s1 s2) (h' : Grows s2 s3) : Grows s1 s3 :=
  ⟨fun x => h'.1 (h.1 x), fun t x => h'.2 t (h.2 t x), fun t o x => h'.3 t o (h.3 t o x), h.4.trans h'.4, h.5.trans h'.5, h.6.trans h'.6⟩

theorem grows_step {s s' : State} {a : Action} (hi : Inv s) (hs : step s a = some s') : Grows s s' := by
  have h1 := hi.go.opIdle
  have h2 := hi.start.start
  have hx := hi.go.fresh s.spawned
  simp only [Nat.le_refl, iff_true] at hx
  clear hi
  server_cases hs
  all_goals constructor
  all_goals first | exact List.prefix_refl _ | exact List.prefix_append _ _ | grind [upd_apply]

theorem grows_run {s s' : State} {acts : List Action} (hi : Inv s) (h : run step s acts = some s') : Grows s s' :=
  (run_invariant (fun x => Inv x ∧ Grows s x) ⟨hi, .refl s⟩
    (fun _ _ _ h hs => ⟨inv_step _ _ _ h.1 hs, h.2.trans (grows_step h.1 hs)⟩) h).2

/-! ### Addresses -/

def PC.listenAddr : PC → Option Addr
  | .startListen a => some a
  | _ => none

/-- The address `Start` wants to listen on next, or has tried last. -/
def wanted (s : State) (t : Tid) : Option Addr :=
  match s.updates with
  | a :: _ => some a
  | [] =>
    match (s.pc t).listenAddr with
    | some a => some a
    | none => lastTried s

theorem wanted_cons {s : State} {a : Addr} {l : List Addr} (t : Tid) (h : s.updates = a :: l) : wanted s t = some a := by
  unfold wanted; rw [h]

theorem lastTried_snoc (l : List (Tid × Addr × Option Nat)) (x : Tid × Addr × Option Nat) : (l ++ [x]).getLast?.map (·.2.1) = some x.2.1 := by
  simp

structure AddrInv (s : State) : Prop where
  before : s.subscribed = false → s.tried = []
  sub : ∀ t, s.pc t = .startSubscribe → s.subscribed = false
  wanted : ∀ t, (s.pc t).looping = true → wanted s t = s.current
  made : ∀ x ∈ s.tried, ∀ ln, x.2.2 = some ln → ln < s.lnCount ∧ s.lnAddr ln = x.2.1

theorem addrInv_init (c : Option Addr) : AddrInv (init c) := by
  constructor <;> simp [init, PC.looping]

theorem addrInv_before {s s' : State} {a : Action} (hi : Inv s) (h : AddrInv s) (hs : step s a = some s') : s'.subscribed = false → s'.tried = [] := by
  have h1 := h.before
  have h2 := hi.config.loop
  clear hi h
  server_cases hs
  all_goals grind [PC.looping]

theorem addrInv_sub {s s' : State} {a : Action} (hi : Inv s) (h : AddrInv s) (hs : step s a = some s') : ∀ t, s'.pc t = .startSubscribe → s'.subscribed = false := by
  have h1 := h.sub
  have h2 := hi.config.noStart
  have h3 := hi.start.starter
  have h4 := hi.start.start
  have hx := hi.go.fresh s.spawned
  simp only [Nat.le_refl, iff_true] at hx
  have e2 : ∀ op, entry op ≠ .startSubscribe := by intro op; cases op <;> simp [entry]
  clear hi h
  server_cases hs
  all_goals grind [upd_apply, PC.running]

theorem addrInv_made {s s' : State} {a : Action} (h : AddrInv s) (hs : step s a = some s') :
    ∀ x ∈ s'.tried, ∀ ln, x.2.2 = some ln → ln < s'.lnCount ∧ s'.lnAddr ln = x.2.1 := by
  have h1 := h.made
  clear h
  server_cases hs
  all_goals grind [upd_apply]

theorem addrInv_wanted {s s' : State} {a : Action} (hi : Inv s) (h : AddrInv s) (hs : step s a = some s') :
    ∀ t, (s'.pc t).looping = true → ServerModel.wanted s' t = s'.current := by
  have h1 := h.before
  have h2 := h.wanted
  have h3 := hi.start.starter
  have h4 : ∀ t t', (s.pc t).running = true → (s.pc t').running = true → t = t' := by
    intro t t' ha hb
    have := h3 t ha
    rw [h3 t' hb] at this
    simpa using this.symm
  have h5 := hi.config.noSub
  have h6 := hi.config.cap
  have h7 := hi.config.loop
  have h8 := h.sub
  have h9 := hi.config.running
  have hx := hi.go.fresh s.spawned
  simp only [Nat.le_refl, iff_true] at hx
  have e2 : ∀ op, (entry op).looping = false := by intro op; cases op <;> rfl
  have hl : ∀ x, (PC.looping x) = true → x.running = true := by intro x; cases x <;> simp [PC.looping, PC.running]
  clear hi h
  unfold ServerModel.wanted lastTried at h2 ⊢
  intro x
  server_cases hs
  all_goals simp only
  case subOk t h hc =>
    have := h7 x
    cases hcur : s.current <;> grind [upd_apply, PC.looping, PC.running, PC.listenAddr]
  case configSame a h hs' =>
    intro hlp
    have ha : addressChanged s.current a = false := hs' (h7 x hlp)
    have : s.current = some a := by
      unfold addressChanged at ha
      cases hcur : s.current <;> simp_all
    rw [h2 x hlp, this]
  case listenOk t a h =>
    simp only [List.getLast?_append, List.getLast?_singleton, Option.some_or, Option.map_some]
    grind [upd_apply, PC.looping, PC.running, PC.listenAddr]
  case listenFail t a h =>
    simp only [List.getLast?_append, List.getLast?_singleton, Option.some_or, Option.map_some]
    grind [upd_apply, PC.looping, PC.running, PC.listenAddr]
  all_goals grind [upd_apply, PC.looping, PC.running, PC.listenAddr]

theorem addrInv_step {s s' : State} {a : Action} (hi : Inv s) (h : AddrInv s) (hs : step s a = some s') : AddrInv s' :=
  ⟨addrInv_before hi h hs, addrInv_sub hi h hs, addrInv_wanted hi h hs, addrInv_made h hs⟩

theorem addrInv_of_reachable {c : Option Addr} {s : State} (h : Reachable step (init c) s) : AddrInv s :=
  (h.invariant (fun s => Inv s ∧ AddrInv s) ⟨inv_init c, addrInv_init c⟩ (fun _ _ _ h hs => ⟨inv_step _ _ _ h.1 hs, addrInv_step h.1 h.2 hs⟩)).2

/-! ### Calm executions -/

def Op.ln? : Op → Option Nat
  | .serve ln => some ln
  | _ => none

/-- The listener of the `Serve` started last. -/
def served (s : State) : Option Nat := (s.jobs.filterMap (·.2.ln?)).getLast?

structure CalmInv (s : State) : Prop where
  shut : s.shutdown = false
  noClose : ∀ t, s.op t ≠ some .close
  unique : ∀ t t', (s.pc t).pending ≠ none → (s.pc t').pending ≠ none → t = t'
  pend : ∀ t ln, (s.pc t).pending = some ln → served s = some ln ∧ s.lnOpen ln = true ∧ s.listener ≠ some ln
  settled : (∀ t, (s.pc t).pending = none) → s.listener = served s
  doing : ∀ t ln, s.pc t = .startDo ln → lastListener s = some ln ∧ s.lnOpen ln = true ∧ ln ∉ s.installed ∧ ∀ t', (s.pc t').pending ≠ some ln
  notDoing : (∀ t ln, s.pc t ≠ .startDo ln) → lastListener s = served s
  opened : ∀ ln, s.listener = some ln → s.lnOpen ln = true
  listening : ∀ ln, s.listener = some ln → ∃ t, (s.pc t).accepting = some ln

theorem calmInv_init (c : Option Addr) : CalmInv (init c) := by
  constructor <;> simp [init, PC.pending, served, lastListener]

section
variable {s s' : State} {a : Action}

theorem calm_noClose (hi : Inv s) (h : CalmInv s) (hc : Calm s a) (hs : step s a = some s') : s'.shutdown = false ∧ ∀ t, s'.op t ≠ some .close := by
  have h1 := h.shut
  have h2 := h.noClose
  have hf : ∀ t, (s.pc t).fits (s.op t) := hi.fit
  clear h hi
  revert hc
  server_cases hs
  all_goals intro hc; simp only [Calm, Undisturbed] at hc
  case closeFire t h hc' =>
    have := hf t
    rw [h] at this
    exact absurd this (h2 t)
  all_goals first | exact ⟨h1, h2⟩ | grind [upd_apply]

theorem calm_unique (hi : Inv s) (h : CalmInv s) (hc : Calm s a) (hs : step s a = some s') :
    ∀ t t', (s'.pc t).pending ≠ none → (s'.pc t').pending ≠ none → t = t' := by
  have h1 := h.unique
  have hx := hi.go.fresh s.spawned
  simp only [Nat.le_refl, iff_true] at hx
  clear h hi
  revert hc
  server_cases hs
  all_goals intro hc; simp only [Calm, Undisturbed] at hc
  case call n op h he => rcases hc with hc | ⟨c, hc⟩ <;> subst hc <;> grind [upd_apply, PC.pending, entry]
  all_goals grind [upd_apply, PC.pending]

theorem served_snoc (l : List (Tid × Op)) (t : Tid) (ln : Nat) : ((l ++ [(t, Op.serve ln)]).filterMap (·.2.ln?)).getLast? = some ln := by
  simp [Op.ln?]

theorem served_conn (l : List (Tid × Op)) (t : Tid) (c : Nat) : ((l ++ [(t, Op.serveConn c)]).filterMap (·.2.ln?)).getLast? = (l.filterMap (·.2.ln?)).getLast? := by
  simp [Op.ln?]

theorem calm_pend (hi : Inv s) (h : CalmInv s) (hc : Calm s a) (hs : step s a = some s') :
    ∀ t ln, (s'.pc t).pending = some ln → served s' = some ln ∧ s'.lnOpen ln = true ∧ s'.listener ≠ some ln := by
  have h1 := h.pend
  have h2 := h.doing
  have h3 := h.unique
  have h4 := hi.listen.installed
  have h5 := hi.listen.pcs
  have hx := hi.go.fresh s.spawned
  simp only [Nat.le_refl, iff_true] at hx
  have e : ∀ p ln, PC.pending p = some ln → p.ln = some ln := by intro p ln; cases p <;> simp [PC.pending, PC.ln]
  clear h hi
  unfold served at *
  revert hc
  server_cases hs
  all_goals intro hc; simp only [Calm, Undisturbed] at hc
  case call n op h he => rcases hc with hc | ⟨c, hc⟩ <;> subst hc <;> grind [upd_apply, PC.pending, entry]
  case startDo t ln h =>
    simp only [served_snoc]
    have := hc ln h
    have := h2 t ln h
    grind [upd_apply, PC.pending]
  case serveDo t ln c h =>
    simp only [served_conn]
    grind [upd_apply, PC.pending]
  all_goals grind [upd_apply, PC.pending, closeListener_apply]

theorem calm_settled (hi : Inv s) (h : CalmInv s) (hc : Calm s a) (hs : step s a = some s') :
    (∀ t, (s'.pc t).pending = none) → s'.listener = served s' := by
  have h1 := h.pend
  have h2 := h.settled
  have h3 := h.unique
  have h4 := h.shut
  have h6 := h.noClose
  have hf : ∀ t, (s.pc t).fits (s.op t) := hi.fit
  have hx := hi.go.fresh s.spawned
  simp only [Nat.le_refl, iff_true] at hx
  clear h hi
  unfold served at *
  revert hc
  server_cases hs
  all_goals intro hc hp; simp only [Calm, Undisturbed] at hc hp ⊢
  case startDo t ln h =>
    have := hp (.go s.spawned)
    rw [upd_other _ _ (by rintro rfl; rw [h] at hx; simp at hx), upd_same] at this
    simp [PC.pending] at this
  case serveDo t ln c h =>
    rw [served_conn]
    refine h2 (fun t' => ?_)
    have := hp t'
    grind [upd_apply, PC.pending]
  case serveClosed t ln h hc' => simp [h4] at hc'
  case install t ln h => exact (h1 t ln (by rw [h]; rfl)).1.symm
  case closeAll t h =>
    have := hf t
    rw [h] at this
    exact absurd this (h6 t)
  all_goals refine h2 (fun t' => ?_)
  all_goals have := hp t'
  all_goals clear hp
  all_goals grind [upd_apply, PC.pending]

theorem calm_doing (hi : Inv s) (h : CalmInv s) (hc : Calm s a) (hs : step s a = some s') :
    ∀ t ln, s'.pc t = .startDo ln → lastListener s' = some ln ∧ s'.lnOpen ln = true ∧ ln ∉ s'.installed ∧ ∀ t', (s'.pc t').pending ≠ some ln := by
  have h1 := h.pend
  have h2 := h.doing
  have h3 := hi.listen.bound
  have h4 := hi.listen.installed
  have h5 := hi.listen.pcs
  have h6 := hi.start.starter
  have hx := hi.go.fresh s.spawned
  simp only [Nat.le_refl, iff_true] at hx
  have e : ∀ p ln, PC.pending p = some ln → p.ln = some ln := by intro p ln; cases p <;> simp [PC.pending, PC.ln]
  clear h hi
  unfold lastListener at *
  revert hc
  server_cases hs
  all_goals intro hc; simp only [Calm, Undisturbed] at hc
  case call n op h he => rcases hc with hc | ⟨c, hc⟩ <;> subst hc <;> grind [upd_apply, PC.pending, entry]
  case listenOk t a h =>
    intro t' ln
    simp only [List.filterMap_append, List.filterMap_cons, List.filterMap_nil, List.getLast?_append, List.getLast?_singleton, Option.some_or]
    grind [upd_apply, PC.pending, PC.running]
  case listenFail t a h =>
    intro t' ln
    simp only [List.filterMap_append, List.filterMap_cons, List.filterMap_nil, List.append_nil]
    grind [upd_apply, PC.pending, PC.running]
  case startDo t ln h => grind [upd_apply, PC.pending, PC.running]
  all_goals grind [upd_apply, PC.pending, closeListener_apply]

theorem calm_notDoing (hi : Inv s) (h : CalmInv s) (hc : Calm s a) (hs : step s a = some s') :
    (∀ t ln, s'.pc t ≠ .startDo ln) → lastListener s' = served s' := by
  have h1 := h.doing
  have h2 := h.notDoing
  have hx := hi.go.fresh s.spawned
  simp only [Nat.le_refl, iff_true] at hx
  clear h hi
  unfold lastListener served at *
  revert hc
  server_cases hs
  all_goals intro hc hp; simp only [Calm, Undisturbed] at hc hp ⊢
  case startDo t ln h => rw [served_snoc]; exact (h1 t ln h).1
  case serveDo t ln c h =>
    rw [served_conn]
    refine h2 (fun t' ln' => ?_)
    have := hp t' ln'
    grind [upd_apply]
  case listenOk t a h =>
    have := hp t s.lnCount
    simp at this
  case listenFail t a h =>
    simp only [List.filterMap_append, List.filterMap_cons, List.filterMap_nil, List.append_nil]
    refine h2 (fun t' ln' => ?_)
    have := hp t' ln'
    grind [upd_apply]
  all_goals refine h2 (fun t' ln' => ?_)
  all_goals have := hp t' ln'
  all_goals clear hp
  all_goals grind [upd_apply]

theorem calm_opened (hi : Inv s) (h : CalmInv s) (hc : Calm s a) (hs : step s a = some s') :
    ∀ ln, s'.listener = some ln → s'.lnOpen ln = true := by
  have h1 := h.pend
  have h2 := h.opened
  have h3 := h.noClose
  have hf : ∀ t, (s.pc t).fits (s.op t) := hi.fit
  clear h hi
  revert hc
  server_cases hs
  all_goals intro hc; simp only [Calm, Undisturbed] at hc
  case install t ln h =>
    have := h1 t ln (by rw [h]; rfl)
    simp only [closeListener_apply, Option.some.injEq]
    rintro ln' rfl
    rw [if_neg this.2.2]; exact this.2.1
  all_goals first | exact h2 | grind [upd_apply]

theorem accepting_step {x : Tid} {ln : Nat} (h : (s.pc x).accepting = some ln) (hi : Inv s) (hs : step s a = some s') :
    (s'.pc x).accepting = some ln ∨ ∃ e, a = .accept x (.err e) ∧ e.survived = false ∧ s.pc x = .serveAccept ln := by
  have hx := hi.go.fresh s.spawned
  simp only [Nat.le_refl, iff_true] at hx
  clear hi
  server_cases hs
  all_goals grind [upd_apply, PC.accepting]

theorem calm_listening (hi : Inv s) (h : CalmInv s) (hc : Calm s a) (hs : step s a = some s') :
    ∀ ln, s'.listener = some ln → ∃ t, (s'.pc t).accepting = some ln := by
  intro ln hl
  have hl' : s.listener = some ln ∨ ∃ t, (s'.pc t).accepting = some ln := by
    clear h hc hi
    revert hl
    server_cases hs
    case install t ln' h =>
      intro hl
      simp only [Option.some.injEq] at hl; subst hl
      exact .inr ⟨t, by simp [PC.accepting]⟩
    all_goals first | exact .inl | simp
  rcases hl' with hl' | hl'
  · obtain ⟨t, ht⟩ := h.listening ln hl'
    rcases accepting_step ht hi hs with h' | ⟨e, rfl, he, ht⟩
    · exact ⟨t, h'⟩
    · simp only [Calm, Undisturbed] at hc
      rcases hc with hc | hc
      · simp [he] at hc
      · have := hc ln ht
        rw [h.opened ln hl'] at this; simp at this
  · exact hl'

theorem calmInv_step (hi : Inv s) (h : CalmInv s) (hc : Calm s a) (hs : step s a = some s') : CalmInv s' :=
  ⟨(calm_noClose hi h hc hs).1, (calm_noClose hi h hc hs).2, calm_unique hi h hc hs, calm_pend hi h hc hs, calm_settled hi h hc hs,
    calm_doing hi h hc hs, calm_notDoing hi h hc hs, calm_opened hi h hc hs, calm_listening hi h hc hs⟩
end

theorem ReachableBy.reachable {P : State → Action → Prop} {c : Option Addr} {s : State} (h : ReachableBy P c s) : Reachable ServerModel.step (ServerModel.init c) s := by
  induction h with
  | init => exact .refl _
  | step _ _ hs ih => exact ih.next hs

theorem ReachableBy.calm {c : Option Addr} {s : State} (h : ReachableBy Calm c s) : CalmInv s := by
  induction h with
  | init => exact calmInv_init c
  | step h hc hs ih => exact calmInv_step (inv_of_reachable h.reachable) ih hc hs

/-- Steps that are undisturbed in any state. -/
def Action.harmless : Action → Bool
  | .call _ op => op == .start
  | .thread _ => true
  | .takeConfig _ => true
  | .listen _ _ => true
  | .config _ => true
  | .accept _ (.conn _) => true
  | _ => false

theorem reachableBy_run {P : State → Action → Prop} {c : Option Addr} {s s' : State} {acts : List Action} (h0 : ReachableBy P c s)
    (hp : ∀ s, ∀ a ∈ acts, P s a) (h : run ServerModel.step s acts = some s') : ReachableBy P c s' := by
  induction acts generalizing s with
  | nil => simp only [run, Option.some.injEq] at h; exact h ▸ h0
  | cons a as ih =>
    simp only [run] at h
    split at h
    · exact ih (.step h0 (hp s a (by simp)) ‹_›) (fun s x hx => hp s x (by simp [hx])) h
    · simp at h

theorem undisturbed_of_harmless {a : Action} (h : a.harmless = true) (s : State) : Undisturbed s a := by
  unfold Action.harmless at h
  split at h <;> simp_all [Undisturbed]

end ServerModel
end Gevulot
