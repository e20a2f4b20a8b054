import Verif.Proofs.ProcessLink
import Verif.Spec.Process

/-!
The whole program comes to rest.
-/

namespace Gevulot.Process

open ServerModel (Tid PC)
open DistributorModel (ChanId)

variable {parse : Bytes → Option ConnectionParams} {bytes : Nat → Bytes} {path : Option Nat} {text : Nat → CliModel.Text}

/-! ### At rest -/

theorem step_isSome {s : State} {a : Action} {p : Plan} (ho : s.over = false) (hp : plan bytes s a = some p)
    (h1 : (also CliModel.step s.cli p.cli).isSome) (h2 : (also DistributorModel.step s.dist p.dist).isSome)
    (h3 : (also (System.step parse) s.sys p.sys).isSome) : (step parse bytes s a).isSome := by
  obtain ⟨c, h1⟩ := Option.isSome_iff_exists.mp h1
  obtain ⟨d, h2⟩ := Option.isSome_iff_exists.mp h2
  obtain ⟨v, h3⟩ := Option.isSome_iff_exists.mp h3
  simp [step, ho, hp, h1, h2, h3]

theorem rest_step {s : State} (hr : AtRest parse bytes s) {a : Action} (ha : Internal s a) (h : (step parse bytes s a).isSome) : False := by
  rw [hr a ha] at h; simp at h

theorem sys_isSome {s : System.State} {b : ServerModel.Action} (hc : s.crashed = false) (ha : s.allows b = true) (h : (ServerModel.step s.server b).isSome) :
    (System.step parse s (.server b)).isSome := by
  obtain ⟨v, h⟩ := Option.isSome_iff_exists.mp h
  simp [System.step, hc, ha, h]

theorem over_false {s : State} (h : s.over = false) : s.main ≠ .exited ∧ s.dist.panicked = false ∧ s.sys.crashed = false := by
  simpa [State.over, and_assoc] using h

/-- Nobody closes the server. -/
theorem unlocked {s : State} (hl : Linked s) (hrs : Reachable (System.step parse) (System.init none) s.sys) : s.sys.locked = false := by
  have := (System.link_of_reachable hrs).before (.inl hl.link.up.1)
  simp [System.State.locked, System.State.closeReturned, this.1, this.2.1]

theorem allows_thread {s : State} (hl : Linked s) (hrs : Reachable (System.step parse) (System.init none) s.sys) (t : Tid) : s.sys.allows (.thread t) = true := by
  simp [System.State.allows, unlocked hl hrs]

/-- Nothing is sent before the first configuration. -/
theorem cli_unsent {c : CliModel.State} (h : Reachable CliModel.step (CliModel.init path text) c) :
    (c.main = .read ∨ ∃ x, c.main = .send x) → c.sent = [] ∧ c.chan = [] ∧ c.handler = .idle := by
  have key := h.invariant (fun c => CliModel.Inv c ∧ ((c.main = .read ∨ ∃ x, c.main = .send x) → c.sent = [])) ⟨CliModel.inv_init _ _, by simp [CliModel.init]⟩ (by
    rintro c a c' ⟨hi, h⟩ hs
    refine ⟨CliModel.inv_step _ _ _ hi hs, ?_⟩
    have h1 := hi.order
    clear hi
    cli_cases hs <;> simp_all [CliModel.relink, CliModel.MainPC.started]
    all_goals grind [CliModel.MainPC.started])
  intro hm
  have h1 := key.2 hm
  have h2 := key.1.received
  rw [h1] at h2
  simp only [List.append_eq_nil_iff] at h2
  refine ⟨h1, h2.2, Decidable.byContradiction fun hn => ?_⟩
  have := key.1.order hn
  rcases hm with hm | ⟨x, hm⟩ <;> rw [hm] at this <;> simp [CliModel.MainPC.started] at this

theorem running_stays {c c' : CliModel.State} {a : CliModel.Action} (h : c.main = .running) (hs : CliModel.step c a = some c') : c'.main = .running := by
  have := CliModel.step_tr hs
  cases this <;> simp_all [CliModel.relink]

/-- `Start` is called when the configuration has been read and is being watched. -/
theorem started_running {s : State} (h : Reachable (step parse bytes) (init path text) s) : s.main = .start → s.cli.main = .running := by
  refine h.invariant (fun s => s.main = .start → s.cli.main = .running) (by simp [init]) ?_
  intro s a s' hi hs hm
  obtain ⟨-, p, hp, h1, -, -, h4⟩ := step_plan hs
  rw [hm] at h4
  have key : s.cli.main = .running := by
    cases a with
    | main =>
      simp only [plan, planMain] at hp
      split at hp
      · split at hp
        · assumption
        · simp only [Option.some.injEq] at hp; subst hp; simp at h4
        · simp at hp
      all_goals
        first
        | (split at hp <;> first | (simp at hp; done) | (simp only [Option.some.injEq] at hp; subst hp; simp at h4))
        | simp at hp
    | _ =>
      refine hi ?_
      simp only [plan, planCli, planDist, planSys] at hp
      repeat' split at hp
      all_goals first | (simp at hp; done) | (simp only [Option.some.injEq] at hp; subst hp; exact h4.symm)
  cases hq : p.cli with
  | none => rw [hq] at h1; simp only [also, Option.some.injEq] at h1; rw [← h1]; exact key
  | some b => rw [hq] at h1; exact running_stays key h1

/-- Where everything is at rest. -/
structure Rest (s : State) : Prop where
  main : s.main = .start
  running : s.cli.main = .running
  handler : (s.cli.handler = .select ∧ s.cli.queue = []) ∨ s.cli.handler = .idle ∨ s.cli.handler = .stopped
  chan : s.cli.chan = []
  source : s.dist.source = []
  lock : s.dist.lock = none
  mon : s.dist.mon 0 = .select
  callers : ∀ t, s.dist.pc t = .idle ∨ ∃ r, s.dist.pc t = .returned r
  loop : s.sys.server.pc (.user 0) = .startLoop
  updates : s.sys.server.updates = []
  settled : ServerModel.Settled s.sys.server
  sessions : ∀ t m, (s.sys.sess t).hs ≠ .config m

theorem rest_main {s : State} (h : Reachable (step parse bytes) (init path text) s) (ho : s.over = false) (hr : AtRest parse bytes s) :
    s.main = .start := by
  obtain ⟨hrc, hrd, hrs⟩ := parts_reachable h
  have hl := (linked_of_reachable h)
  obtain ⟨o1, o2, o3⟩ := over_false ho
  rcases hl.link.main with hm | hm | ⟨hm, -⟩
  · exfalso
    cases hc : s.cli.main with
    | read =>
      refine rest_step hr (a := .cli .main) (.inl rfl) (step_isSome (p := { cli := some .main, main := s.main }) ho (by simp [plan, planCli, hc]) ?_ rfl rfl)
      simp only [also, CliModel.step, hc]
      split <;> rfl
    | send x =>
      have hu := (cli_unsent hrc (.inr ⟨x, hc⟩)).2.1
      refine rest_step hr (a := .cli .main) (.inl rfl) (step_isSome (p := { cli := some .main, dist := some (.produce (encode x)), main := s.main }) ho (by simp [plan, planCli, hc]) ?_ ?_ rfl)
      · simp [also, CliModel.step, hc, hu]
      · simp [also, DistributorModel.step, hl.link.distUp]
    | add =>
      refine rest_step hr (a := .cli (.add false)) (.inr (.inl ⟨_, rfl⟩)) (step_isSome (p := { cli := some (.add false), main := s.main }) ho (by simp [plan, planCli]) ?_ rfl rfl)
      simp [also, CliModel.step, hc]
    | watching =>
      refine rest_step hr (a := .cli .main) (.inl rfl) (step_isSome (p := { cli := some .main, main := s.main }) ho (by simp [plan, planCli, hc]) ?_ rfl rfl)
      simp [also, CliModel.step, hc]
    | running =>
      refine rest_step hr (a := .main) trivial (step_isSome (p := { sys := some (.server (.call 0 .start)), main := .start }) ho (by simp [plan, planMain, hm, hc]) rfl rfl ?_)
      refine sys_isSome (parse := parse) o3 rfl ?_
      have hidle : s.sys.server.pc (.user 0) = .idle := by
        have := (ServerModel.inv_of_reachable (System.server_reachable hrs)).go.opIdle (.user 0)
        refine this.mp ?_
        cases hop : s.sys.server.op (.user 0) with
        | none => rfl
        | some op => have := (hl.link.users 0 op hop).2.2; rw [hm] at this; simp at this
      simp [ServerModel.step, hl.link.up, hidle, ServerModel.Op.exists]
    | failed =>
      exact rest_step hr (a := .main) trivial (step_isSome (p := { main := .exited }) ho (by simp [plan, planMain, hm, hc]) rfl rfl rfl)
  · exact hm
  · exact absurd hm o1

/-- A thread of the server is not at any of these at rest. -/
theorem rest_thread {s : State} (h : Reachable (step parse bytes) (init path text) s) (ho : s.over = false) (hr : AtRest parse bytes s) (t : Tid)
    (hn : s.sys.server.pc t ≠ .startSubscribe) : ServerModel.step s.sys.server (.thread t) = none := by
  obtain ⟨hrc, hrd, hrs⟩ := parts_reachable h
  have hl := (linked_of_reachable h)
  obtain ⟨o1, o2, o3⟩ := over_false ho
  cases hs : ServerModel.step s.sys.server (.thread t) with
  | none => rfl
  | some v =>
    refine (rest_step hr (a := .sys (.server (.thread t))) trivial (step_isSome (p := { sys := some (.server (.thread t)), main := s.main }) ho (by simp [plan, planSys, hn]) rfl rfl ?_)).elim
    exact sys_isSome (parse := parse) o3 (allows_thread hl hrs t) (by simp [hs])

theorem dist_step_isSome {d : DistributorModel.State} {a : DistributorModel.Action} (h : DistributorModel.step d a ≠ none) : (DistributorModel.step d a).isSome := by
  cases hx : DistributorModel.step d a with
  | none => exact absurd hx h
  | some x => rfl

/-- Who holds the lock of the distributor: `Subscribe` of `Start`, or the monitor. -/
theorem lock_holder {c : CliModel.State} {d : DistributorModel.State} {v : ServerModel.State} {m : MainPC} (hi : DistributorModel.LockInv d) (h : Link c d v m)
    (h0 : ∀ ch ks, d.pc 0 ≠ .subLocked ch ks) (h1 : ∀ old new rem, d.mon 0 ≠ .notifying old new rem) : d.lock = none := by
  cases hk : d.lock with
  | none => rfl
  | some k =>
    exfalso
    cases k with
    | thread t =>
      have := (hi.thread t).mp hk
      rcases dist_thread h t with ⟨rfl, ht⟩ | ⟨-, ht⟩
      · rcases ht with ⟨-, ht⟩ | ⟨-, -, ht | ht | ht⟩ | ⟨-, ht⟩
        all_goals first | exact h0 _ _ ht | (rw [ht] at this; simp [DistributorModel.PC.locked] at this)
      · rcases ht with ht | ht | ht | ⟨x, ht⟩ <;> rw [ht] at this <;> simp [DistributorModel.PC.locked] at this
    | monitor i =>
      have hx := (hi.monitor i).mp hk
      have hz := (mon_zero hi (i := i) (by intro hn; rw [hn] at hx; simp [DistributorModel.MonPC.locked] at hx)).1
      subst hz
      cases hm : d.mon 0 <;> rw [hm] at hx <;> simp [DistributorModel.MonPC.locked] at hx
      exact h1 _ _ _ hm

theorem rest_of_reachable {s : State} (h : Reachable (step parse bytes) (init path text) s) (ho : s.over = false) (hr : AtRest parse bytes s) : Rest s := by
  obtain ⟨hrc, hrd, hrs⟩ := parts_reachable h
  have hl := (linked_of_reachable h)
  have hid := (DistributorModel.inv_of_reachable hrd).lock
  have hiv := ServerModel.inv_of_reachable (System.server_reachable hrs)
  obtain ⟨o1, o2, o3⟩ := over_false ho
  have hm := rest_main h ho hr
  have hth := fun t ht => rest_thread h ho hr t ht
  have hlk := hl.link
  have hop := hlk.called hm
  have hfit := hiv.fit (.user 0)
  -- `Start`
  have hsub : s.sys.server.pc (.user 0) ≠ .startSubscribe := by
    intro hx
    have hs : s.sys.server.subscribed = false := by rw [hlk.loop, hx]; rfl
    obtain ⟨b1, b2, b3, b4⟩ := hlk.before hs
    have hm0 : s.dist.mon 0 = .notStarted := by
      refine Decidable.byContradiction fun hn => ?_
      have := (mon_zero hid (i := 0) hn).2
      rw [b2] at this; simp at this
    rcases hlk.sub with ⟨-, hp⟩ | ⟨-, -, hp | hp | hp⟩ | ⟨hs', -⟩
    · refine rest_step hr (a := .subscribe) trivial (step_isSome (p := { dist := some (.call 0 (.subscribe 0 [listenChanged])), main := s.main }) ho (by simp [plan, hx]) rfl ?_ rfl)
      simp [also, DistributorModel.step, o2, hp]
    · refine rest_step hr (a := .dist (.thread 0)) trivial (step_isSome (p := { dist := some (.thread 0), main := s.main }) ho (by simp [plan, planDist, hp, hlk.distUp]) rfl ?_ rfl)
      simp [also, DistributorModel.step, o2, hp]
    · have hk := lock_holder hid hlk (by rw [hp]; simp) (by rw [hm0]; simp)
      refine rest_step hr (a := .dist (.thread 0)) trivial (step_isSome (p := { dist := some (.thread 0), main := s.main }) ho (by simp [plan, planDist, hp]) rfl ?_ rfl)
      simp [also, DistributorModel.step, o2, hp, hk]
    · refine rest_step hr (a := .dist (.thread 0)) trivial (step_isSome (p := { dist := some (.thread 0), sys := some (.server (.thread (.user 0))), main := s.main }) ho (by simp [plan, planDist, hp]) rfl ?_ ?_)
      · simp [also, DistributorModel.step, o2, hp, b3]
      · refine sys_isSome (parse := parse) o3 (allows_thread hl hrs _) ?_
        simp [ServerModel.step, hlk.up, hx]
    · rw [hs] at hs'; simp at hs'
  have hloop : s.sys.server.pc (.user 0) = .startLoop := by
    have h1 := hth (.user 0) hsub
    cases hx : s.sys.server.pc (.user 0)
    case startLoop => rfl
    case startListen a =>
      exfalso
      refine rest_step hr (a := .sys (.server (.listen (.user 0) true))) trivial (step_isSome (p := { sys := some (.server (.listen (.user 0) true)), main := s.main }) ho (by simp [plan, planSys]) rfl rfl ?_)
      refine sys_isSome (parse := parse) o3 rfl ?_
      simp [ServerModel.step, hlk.up, hx]
    case startSubscribe => exact absurd hx hsub
    case returned r => exact absurd hx (hlk.runs r)
    case done => exact absurd hx (hiv.go.notDone 0)
    all_goals
      exfalso
      simp only [ServerModel.step, hlk.up, hx, Bool.or_self, Bool.false_eq_true, if_false] at h1
      rw [hx, hop] at hfit
      simp [PC.fits] at h1 hfit
      try (split at h1 <;> simp at h1)
  have hsubd : s.sys.server.subscribed = true := by rw [hlk.loop, hloop]; rfl
  obtain ⟨a1, a2, a3⟩ := hlk.after hsubd
  obtain ⟨buf, hbuf, hup⟩ := hlk.chan
  have hnil : buf = [] := by
    cases buf with
    | nil => rfl
    | cons x xs =>
      exfalso
      refine rest_step hr (a := .sys (.server (.takeConfig (.user 0)))) trivial (step_isSome (p := { dist := some (.userRecv 0), sys := some (.server (.takeConfig (.user 0))), main := s.main }) ho (by simp [plan, planSys]) rfl ?_ ?_)
      · simp [also, DistributorModel.step, o2, hbuf]
      · refine sys_isSome (parse := parse) o3 rfl ?_
        simp [ServerModel.step, hlk.up, hloop, hup]
  subst hnil
  have hret : s.dist.pc 0 = .returned .ok := by simpa [hsubd] using hlk.sub
  -- the monitor
  have hmon : s.dist.mon 0 = .select := by
    have hst : s.dist.mon 0 ≠ .notStarted := (hid.mons 0).mpr (by rw [hid.count, a3]; simp)
    cases hx : s.dist.mon 0 with
    | notStarted => exact absurd hx hst
    | select => rfl
    | gotten c =>
      exfalso
      have hk := lock_holder hid hlk (by rw [hret]; simp) (by rw [hx]; simp)
      refine rest_step hr (a := .dist (.monLock 0)) trivial (step_isSome (p := { dist := some (.monLock 0), main := s.main }) ho (by simp [plan, planDist]) rfl ?_ rfl)
      simp [also, DistributorModel.step, o2, hx, hk]
    | notifying old new rem =>
      exfalso
      cases rem with
      | nil =>
        refine rest_step hr (a := .dist (.monLock 0)) trivial (step_isSome (p := { dist := some (.monLock 0), main := s.main }) ho (by simp [plan, planDist]) rfl ?_ rfl)
        simp [also, DistributorModel.step, o2, hx]
      | cons ch rem =>
        have hch : ch = .user 0 := by
          have := (hid.remaining 0 _ _ _ hx).1 ch (by simp)
          rw [a1] at this
          simpa using this
        subst hch
        refine rest_step hr (a := .dist (.monNotify 0 (.user 0))) trivial (step_isSome (p := { dist := some (.monNotify 0 (.user 0)), sys := some (.server (.config (decode new).listen)), main := s.main }) ho (by simp [plan, planDist, hx]) rfl ?_ ?_)
        · simp only [also, DistributorModel.step, o2, hx, DistributorModel.send, hbuf]
          simp
          split <;> simp [o2]
        · refine sys_isSome (parse := parse) o3 rfl ?_
          simp only [ServerModel.step, hlk.up, hup]
          simp
          split <;> simp
    | closeLock => have := hid.exited 0 (.inr hx); rw [hlk.distUp.1] at this; simp at this
    | exited => have := hid.exited 0 (.inl hx); rw [hlk.distUp.1] at this; simp at this
  have hk := lock_holder hid hlk (by rw [hret]; simp) (by rw [hmon]; simp)
  have hchan : s.cli.chan = [] := by
    cases hx : s.cli.chan with
    | nil => rfl
    | cons x xs =>
      exfalso
      have hsrc := hlk.source
      rw [hx] at hsrc
      refine rest_step hr (a := .dist (.monTake 0)) trivial (step_isSome (p := { cli := some .recv, dist := some (.monTake 0), main := s.main }) ho (by simp [plan, planDist, hsrc]) ?_ ?_ rfl)
      · simp [also, CliModel.step, hx]
      · simp [also, DistributorModel.step, o2, hmon, hsrc]
  have hrun := started_running h hm
  have hgetters : ∀ t, s.dist.pc t = .idle ∨ ∃ r, s.dist.pc t = .returned r := by
    intro t
    rcases dist_thread hlk t with ⟨rfl, -⟩ | ⟨-, ht⟩
    · exact .inr ⟨_, hret⟩
    rcases ht with ht | ht | ht | ⟨x, ht⟩
    · exact .inl ht
    · exfalso
      refine rest_step hr (a := .dist (.thread t)) trivial (step_isSome (p := { dist := some (.thread t), main := s.main }) ho (by simp [plan, planDist, ht]) rfl ?_ rfl)
      simp [also, DistributorModel.step, o2, ht]
    · exfalso
      refine rest_step hr (a := .dist (.thread t)) trivial (step_isSome (p := { dist := some (.thread t), main := s.main }) ho (by simp [plan, planDist, ht]) rfl ?_ rfl)
      simp only [also, DistributorModel.step, o2, ht, hk]
      simp
      split <;> simp
    · exact .inr ⟨_, ht⟩
  refine ⟨hm, hrun, ?_, hchan, by rw [hlk.source, hchan]; rfl, hk, hmon, hgetters, hloop, by rw [hup]; rfl, ⟨⟨_, hloop⟩, by rw [hup]; rfl, fun t => ?_⟩, fun t m hx => ?_⟩
  · cases hx : s.cli.handler with
    | idle => simp
    | stopped => simp
    | select =>
      refine .inl ⟨rfl, ?_⟩
      cases hq : s.cli.queue with
      | nil => rfl
      | cons e q =>
        exfalso
        refine rest_step hr (a := .cli .event) (.inr (.inr (.inl rfl))) (step_isSome (p := { cli := some .event, main := s.main }) ho (by simp [plan, planCli]) ?_ rfl rfl)
        simp only [also, CliModel.step, hx, hq]
        split <;> simp
    | read =>
      exfalso
      refine rest_step hr (a := .cli .handle) (.inr (.inr (.inr (.inl rfl)))) (step_isSome (p := { cli := some .handle, main := s.main }) ho (by simp [plan, planCli, hx]) ?_ rfl rfl)
      simp only [also, CliModel.step, hx]
      split <;> simp
    | send c =>
      exfalso
      refine rest_step hr (a := .cli .handle) (.inr (.inr (.inr (.inl rfl)))) (step_isSome (p := { cli := some .handle, dist := some (.produce (encode c)), main := s.main }) ho (by simp [plan, planCli, hx]) ?_ ?_ rfl)
      · simp [also, CliModel.step, hx, hchan]
      · simp [also, DistributorModel.step, hlk.distUp]
  · cases hx : s.sys.server.pc t <;> simp [PC.pending]
    all_goals
      have h1 := hth t (by rw [hx]; simp)
      simp [ServerModel.step, hlk.up, hx] at h1
  · rcases hgetters (getter t) with hp | ⟨r, hp⟩
    · refine rest_step hr (a := .get t) trivial (step_isSome (p := { dist := some (.call (getter t) .get), main := s.main }) ho (by simp [plan, hx]) rfl ?_ rfl)
      simp [also, DistributorModel.step, o2, hp]
    · refine rest_step hr (a := .gotten t) trivial (step_isSome (p := { sys := some (.session t (.getConfig (answer bytes r))), main := s.main }) ho (by simp [plan, hp]) rfl rfl ?_)
      have hcr := ((System.link_of_reachable hrs).crashed o3).2.2 t
      have hst := (FullSession.hinv_of_reachable (System.session_reachable hrs t)).stage
      unfold FullSession.Stage at hst
      rw [hx] at hst
      have hfail : ∀ x : FullSession.State, x.base = (s.sys.sess t).base → x.fail.isSome := by
        intro x e
        simp [FullSession.State.fail, e, SessionModel.step, hcr, hst.1]
      have key : (FullSession.step parse (s.sys.sess t) (.getConfig (answer bytes r))).isSome := by
        simp only [FullSession.step, hx]
        split
        · split
          · exact hfail _ rfl
          · simp [hcr]
        · exact hfail _ rfl
      obtain ⟨y, hy⟩ := Option.isSome_iff_exists.mp key
      simp [also, System.step, o3, System.State.sessionMay, hy]

end Gevulot.Process
