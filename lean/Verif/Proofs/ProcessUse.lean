import Verif.Proofs.ProcessFinite
import Verif.Proofs.FullSessionTold
import Verif.Props.Cli
import Verif.Props.Distributor

/-!
The whole program: what a session gets from the distributor, and what stays the same while nobody changes the file.
-/

namespace Gevulot.Process

open ServerModel (Tid PC)
open DistributorModel (ChanId)

variable {parse : Bytes → Option ConnectionParams} {bytes : Nat → Bytes} {path : Option Nat} {text : Nat → CliModel.Text}

/-! ### Panics -/

theorem sys_crashed {s : System.State} {c : Option ServerModel.Addr} (h : Reachable (System.step parse) (System.init c) s) (hc : s.crashed = true) :
    s.server.watchdogPanic = true ∨ s.server.sendPanic = true ∨ ∃ t, (s.sess t).base.crashed = true := by
  revert hc
  refine h.invariant (fun s => s.crashed = true → s.server.watchdogPanic = true ∨ s.server.sendPanic = true ∨ ∃ t, (s.sess t).base.crashed = true)
    (by simp [System.init]) ?_
  rintro s a s' - hs
  obtain ⟨hc, ⟨b, srv, rfl, hal, hb, rfl⟩ | ⟨t, x, rfl, ht, hret, hb, rfl⟩ | ⟨t, b, x, rfl, hmay, hb, rfl⟩⟩ := System.step_cases hs
  · simp only [Bool.or_eq_true]
    rintro (h | h)
    · exact .inl h
    · exact .inr (.inl h)
  · simp [hc]
  · intro h
    exact .inr (.inr ⟨t, by simpa using h⟩)

/-! ### What a session has been told -/

theorem sys_configs {s s' : System.State} {b : System.Action} (hs : System.step parse s b = some s') (hb : ∀ t r, b ≠ .session t (.getConfig r)) (t : Tid) :
    (s'.sess t).configs = (s.sess t).configs := by
  obtain ⟨hc, ⟨b, srv, rfl, hal, h, rfl⟩ | ⟨u, x, rfl, ht, hret, h, rfl⟩ | ⟨u, b, x, rfl, hmay, h, rfl⟩⟩ := System.step_cases hs
  · rfl
  · simp only [upd_apply]
    split
    · rename_i hx; subst hx
      rw [FullSession.session_configs h]; simp
    · rfl
  · simp only [upd_apply]
    split
    · rename_i hx; subst hx
      rw [FullSession.session_configs h]
      cases b <;> simp at hb ⊢
    · rfl

theorem sys_gotten {s s' : System.State} {u : Tid} {r : Option Bytes} (hrs : Reachable (System.step parse) (System.init none) s)
    (hs : System.step parse s (.session u (.getConfig r)) = some s') :
    (s.sess u).configs = [] ∧ ∀ t, (s'.sess t).configs = if t = u then [r] else (s.sess t).configs := by
  obtain ⟨hc, ⟨b, srv, he, hal, h, rfl⟩ | ⟨u, x, he, ht, hret, h, rfl⟩ | ⟨u, b, x, he, hmay, h, rfl⟩⟩ := System.step_cases hs <;> simp at he
  obtain ⟨rfl, rfl⟩ := he
  have hnil : (s.sess u).configs = [] := by
    have hst := (FullSession.hinv_of_reachable (System.session_reachable hrs u)).stage
    simp only [FullSession.step] at h
    split at h
    · rename_i m hm
      unfold FullSession.Stage at hst
      rw [hm] at hst
      exact hst.2.2.2.2.1
    · simp at h
  refine ⟨hnil, fun t => ?_⟩
  simp only [upd_apply]
  split
  · rename_i hx; subst hx
    rw [FullSession.session_configs h, hnil]; simp
  · rfl

/-- A session has been told what its call of `Get` has returned. -/
theorem told_of_reachable {s : State} (h : Reachable (step parse bytes) (init path text) s) (t : Tid) :
    (s.sys.sess t).configs = [] ∨ ∃ c, s.dist.pc (getter t) = .returned (.config c) ∧ (s.sys.sess t).configs = [some (bytes (decode c).databaseURL)] := by
  revert t
  refine (h.invariant (fun s => Reachable (step parse bytes) (init path text) s ∧ ∀ t, (s.sys.sess t).configs = [] ∨ ∃ c, s.dist.pc (getter t) = .returned (.config c) ∧
    (s.sys.sess t).configs = [some (bytes (decode c).databaseURL)])
    ⟨Reachable.refl _, by simp [init, System.init, FullSession.init]⟩ ?_).2
  rintro s a s' ⟨hr, hk⟩ hs
  refine ⟨hr.next hs, ?_⟩
  have hl := linked_of_reachable hr
  -- a call that has returned has
  have hdist : ∀ {b dist}, DistributorModel.step s.dist b = some dist → ∀ t r, s.dist.pc t = .returned r → dist.pc t = .returned r := by
    intro b dist h2 t r ht
    have hx : dist.panicked = false ∨ dist.panicked = true := by cases dist.panicked <;> simp
    obtain ⟨-, htr⟩ := DistributorModel.step_tr h2
    clear h2
    cases htr <;> (try rw [DistributorModel.finishSubscribe_eq]) <;> grind [upd_apply]
  have hsys : ∀ {b sys}, System.step parse s.sys b = some sys → (∀ t r, b ≠ .session t (.getConfig r)) → ∀ t, (sys.sess t).configs = (s.sys.sess t).configs :=
    fun h3 hb t => sys_configs h3 hb t
  have both : ∀ {s' : State}, (∀ t r, s.dist.pc t = .returned r → s'.dist.pc t = .returned r) → (∀ t, (s'.sys.sess t).configs = (s.sys.sess t).configs) →
      ∀ t, (s'.sys.sess t).configs = [] ∨ ∃ c, s'.dist.pc (getter t) = .returned (.config c) ∧ (s'.sys.sess t).configs = [some (bytes (decode c).databaseURL)] := by
    intro s' h1 h2 t
    rw [h2]
    rcases hk t with h | ⟨c, h3, h4⟩
    · exact .inl h
    · exact .inr ⟨c, h1 _ _ h3, h4⟩
  cases move_of_step hr hl hs with
  | cli hr hc hs hm hh h1 => exact hk
  | send ha hc hs h1 h2 => exact both (hdist h2) fun _ => rfl
  | dist ha h2 => exact both (hdist h2) fun _ => rfl
  | subscribed hpc h2 h3 => exact both (hdist h2) (hsys h3 (by simp))
  | take h1 h2 => exact both (hdist h2) fun _ => rfl
  | notify hm h2 h3 => exact both (hdist h2) (hsys h3 (by simp))
  | server hb h3 => exact both (fun _ _ h => h) (hsys h3 (by simp))
  | takeConfig h2 h3 => exact both (hdist h2) (hsys h3 (by simp))
  | session hb hg hv h3 => exact both (fun _ _ h => h) (hsys h3 hg)
  | start hm hc h3 => exact both (fun _ _ h => h) (hsys h3 (by simp))
  | exit hm hc => exact hk
  | subscribe hpc h2 => exact both (hdist h2) fun _ => rfl
  | get hh hconn h2 => exact both (hdist h2) fun _ => rfl
  | gotten hpc hv h3 =>
    rename_i u c sys
    intro t
    obtain ⟨-, hx⟩ := sys_gotten (parts_reachable hr).2.2 h3
    simp only [hx]
    split
    · rename_i htu
      subst htu
      exact .inr ⟨c, hpc, rfl⟩
    · exact hk t

/-- The parts, from any state. -/
theorem dist_of_run {s s' : State} {acts : List Action} (h : run (step parse bytes) s acts = some s') : Reachable DistributorModel.step s.dist s'.dist :=
  run_invariant (fun x => Reachable DistributorModel.step s.dist x.dist) (Reachable.refl _) (fun x a x' hx hs => by
    obtain ⟨-, p, -, -, h2, -, -⟩ := step_plan hs
    exact also_reachable hx h2) h

/-! ### At rest -/

theorem cli_begun {c : CliModel.State} (h : Reachable CliModel.step (CliModel.init path text) c) :
    (c.main = .add ∨ c.main = .running → c.sent ≠ []) ∧ (c.main = .running → c.handler ≠ .idle) := by
  have key := h.invariant (fun c => (c.main = .add ∨ c.main = .watching ∨ c.main = .running → c.sent ≠ []) ∧
    (c.main = .watching ∨ c.main = .running → c.handler ≠ .idle)) (by simp [CliModel.init]) ?_
  · exact ⟨fun hx => key.1 (hx.elim .inl (fun hx => .inr (.inr hx))), fun hx => key.2 (.inr hx)⟩
  rintro c a c' ⟨h1, h2⟩ hs
  cli_cases hs <;> simp_all [CliModel.relink]

theorem rest_updates {s : State} (h : Reachable (step parse bytes) (init path text) s) (hr : Rest s) : Spec.updates s.dist.hist = s.cli.sent.map encode := by
  have h1 := (DistributorModel.inv_of_reachable (parts_reachable h).2.1).src.produced
  rw [(linked_of_reachable h).link.produced, hr.mon, hr.source] at h1
  simpa [DistributorModel.MonPC.inflight] using h1.symm

theorem rest_last {s : State} (h : Reachable (step parse bytes) (init path text) s) (hr : Rest s) :
    ∃ c, s.cli.sent.getLast? = some c ∧ s.dist.lastConfig = some (encode c) ∧ s.sys.server.current = some c.listen := by
  have h0 := (cli_begun (parts_reachable h).1).1 (.inr hr.running)
  obtain ⟨c, hc⟩ : ∃ c, s.cli.sent.getLast? = some c := by
    cases hx : s.cli.sent.getLast? with
    | none => exact absurd (List.getLast?_eq_none_iff.mp hx) h0
    | some c => exact ⟨c, rfl⟩
  have hlast : s.dist.lastConfig = some (encode c) := by
    rw [(DistributorModel.inv_of_reachable (parts_reachable h).2.1).src.last, rest_updates h hr, List.getLast?_map, hc]; rfl
  refine ⟨c, hc, hlast, ?_⟩
  rw [(linked_of_reachable h).link.current]
  simp [shown, hr.mon, hlast]

/-! ### While nobody changes the file -/

/-- Only `c` is read, on its way, or in force. -/
structure Steady (c : CliModel.Config) (s : State) : Prop where
  file : CliModel.readServerConfig s.cli.current = some c
  running : s.cli.main = .running
  handler : ∀ x, s.cli.handler = .send x → x = c
  chan : ∀ x ∈ s.cli.chan, x = c
  mon : ∀ i x, s.dist.mon i = .gotten x → x = encode c
  notifying : ∀ i old x rem, s.dist.mon i = .notifying old x rem → old = some (encode c) ∧ x = encode c
  last : s.dist.lastConfig = some (encode c)
  shown : s.sys.server.current = some c.listen
  updates : s.sys.server.updates = []

theorem cli_steady {c : CliModel.Config} {k k' : CliModel.State} {a : CliModel.Action} (hc : ¬ Changes (.cli a)) (hk : k.main = .running)
    (hf : CliModel.readServerConfig k.current = some c) (hh : ∀ x, k.handler = .send x → x = c) (hs : CliModel.step k a = some k') :
    CliModel.readServerConfig k'.current = some c ∧ ∀ x, k'.handler = .send x → x = c := by
  have := CliModel.step_tr hs
  clear hs
  cases this <;> simp_all [Changes, CliModel.State.current]

theorem dist_steady {d d' : DistributorModel.State} {b : DistributorModel.Action} {e : DistributorModel.Config} (k5 : ∀ i x, d.mon i = .gotten x → x = e)
    (k6 : ∀ i old x rem, d.mon i = .notifying old x rem → old = some e ∧ x = e) (k7 : d.lastConfig = some e) (hb : ∀ i, b ≠ .monTake i)
    (h2 : DistributorModel.step d b = some d') :
    (∀ i x, d'.mon i = .gotten x → x = e) ∧ (∀ i old x rem, d'.mon i = .notifying old x rem → old = some e ∧ x = e) ∧ d'.lastConfig = some e := by
  obtain ⟨-, htr⟩ := DistributorModel.step_tr h2
  clear h2
  cases htr <;> (try rw [DistributorModel.finishSubscribe_eq]) <;> (refine ⟨?_, ?_, ?_⟩ <;> grind [upd_apply])

theorem server_steady {v v' : ServerModel.State} {b : ServerModel.Action} (hb : ∀ x, b ≠ .config x) (hsub : ∀ t, b = .thread t → v.pc t ≠ .startSubscribe) (hu : v.updates = []) (h3 : ServerModel.step v b = some v') :
    v'.current = v.current ∧ v'.updates = [] := by
  obtain ⟨-, htr⟩ := ServerModel.step_tr h3
  clear h3
  cases htr
  all_goals first
    | exact ⟨rfl, hu⟩
    | (exact absurd rfl (hb _))
    | (exact absurd ‹_› (hsub _ rfl))
    | simp_all

theorem server_same {v v' : ServerModel.State} {a : Nat} (hc : v.current = some a) (hu : v.updates = []) (h3 : ServerModel.step v (.config a) = some v') :
    v'.current = some a ∧ v'.updates = [] := by
  have h0 : ServerModel.addressChanged (some a) a = false := by simp [ServerModel.addressChanged]
  simp only [ServerModel.step, hc, h0, Bool.and_false, Bool.false_eq_true, if_false] at h3
  split at h3
  · simp at h3
  · split at h3
    · simp at h3
    · simp only [Option.some.injEq] at h3
      subst h3
      exact ⟨rfl, hu⟩

theorem dist_taken {d d' : DistributorModel.State} {i : Nat} {e : DistributorModel.Config} (k5 : ∀ i x, d.mon i = .gotten x → x = e)
    (k6 : ∀ i old x rem, d.mon i = .notifying old x rem → old = some e ∧ x = e) (k7 : d.lastConfig = some e) (hall : ∀ y ∈ d.source, y = e)
    (h2 : DistributorModel.step d (.monTake i) = some d') :
    (∀ i x, d'.mon i = .gotten x → x = e) ∧ (∀ i old x rem, d'.mon i = .notifying old x rem → old = some e ∧ x = e) ∧ d'.lastConfig = some e := by
  have hhd : ∀ y rest, d.source = y :: rest → y = e := fun y rest h => hall y (by rw [h]; simp)
  obtain ⟨-, htr⟩ := DistributorModel.step_tr h2
  clear h2
  cases htr <;> (refine ⟨?_, ?_, ?_⟩ <;> grind [upd_apply])

theorem steady_step {c : CliModel.Config} {s s' : State} {a : Action} (h : Reachable (step parse bytes) (init path text) s) (hk : Steady c s) (ha : ¬ Changes a)
    (hs : step parse bytes s a = some s') : Steady c s' := by
  have hl := linked_of_reachable h
  obtain ⟨hrc, hrd, hrs⟩ := parts_reachable h
  have hid := (DistributorModel.inv_of_reachable hrd).lock
  obtain ⟨k1, k2, k3, k4, k5, k6, k7, k8, k9⟩ := hk
  -- the distributor, apart from its monitor
  have hdist : ∀ {b dist}, DistributorModel.step s.dist b = some dist → (∀ i, b ≠ .monTake i) →
      (∀ i x, dist.mon i = .gotten x → x = encode c) ∧ (∀ i old x rem, dist.mon i = .notifying old x rem → old = some (encode c) ∧ x = encode c) ∧
      dist.lastConfig = some (encode c) := by
    intro b dist h2 hb
    exact dist_steady k5 k6 k7 hb h2
  have hsrv : ∀ {b v}, ServerModel.step s.sys.server b = some v → (∀ x, b ≠ .config x) → v.current = some c.listen ∧ v.updates = [] := by
    intro b v h3 hb
    obtain ⟨g1, g2⟩ := server_steady hb (fun t _ ht => by
      obtain rfl : t = .user 0 := by
        have hop := (ServerModel.inv_of_reachable (System.server_reachable hrs)).fit t
        rw [ht] at hop
        cases t with
        | user n => rw [(hl.link.users n _ hop).1]
        | go n => exact absurd rfl (hl.link.goes n _ hop).1
      have hsub : s.sys.server.subscribed = false := by rw [hl.link.loop, ht]; rfl
      rw [(hl.link.before hsub).2.2.1] at k7
      simp at k7) k9 h3
    exact ⟨g1.trans k8, g2⟩
  have hsys : ∀ {b v}, System.step parse s.sys b = some v → (∀ x, b ≠ .server (.config x)) → v.server.current = some c.listen ∧ v.server.updates = [] := by
    intro b v h3 hb
    rcases sys_cases h3 with ⟨b', rfl, hb'⟩ | ⟨-, hb'⟩
    · exact hsrv hb' (by intro x hx; exact hb x (by rw [hx]))
    · rw [hb']; exact ⟨k8, k9⟩
  cases move_of_step h hl hs with
  | cli hr hc hs hm hh h1 =>
    obtain ⟨g1, g2⟩ := cli_steady ha k2 k1 k3 h1
    exact ⟨g1, running_stays k2 h1, g2, by rw [hc]; exact k4, k5, k6, k7, k8, k9⟩
  | send hx hc hs h1 h2 =>
    obtain ⟨g1, g2⟩ := cli_steady ha k2 k1 k3 h1
    obtain ⟨d1, d2, d3⟩ := hdist h2 (by simp)
    refine ⟨g1, running_stays k2 h1, g2, ?_, d1, d2, d3, k8, k9⟩
    rw [hc]
    rcases hx with ⟨-, hx⟩ | ⟨-, hx⟩
    · rw [k2] at hx; simp at hx
    · intro x hm
      rcases List.mem_append.mp hm with hm | hm
      · exact k4 x hm
      · rw [List.mem_singleton.mp hm]; exact k3 _ hx
  | dist hx h2 =>
    obtain ⟨d1, d2, d3⟩ := hdist h2 (by rcases hx with ⟨t, rfl, -⟩ | ⟨i, rfl⟩ | ⟨i, rfl⟩ | ⟨t, rfl⟩ | ⟨i, t, rfl⟩ <;> simp)
    exact ⟨k1, k2, k3, k4, d1, d2, d3, k8, k9⟩
  | subscribed hpc h2 h3 =>
    obtain ⟨d1, d2, d3⟩ := hdist h2 (by simp)
    obtain ⟨v1, v2⟩ := hsys h3 (by simp)
    exact ⟨k1, k2, k3, k4, d1, d2, d3, v1, v2⟩
  | take h1 h2 =>
    obtain ⟨g1, g2⟩ := cli_steady (by simp [Changes]) k2 k1 k3 h1
    have hsrc := hl.link.source
    have hdu := hl.link.distUp
    rename_i i cli dist
    have hcc : ∀ x ∈ cli.chan, x = c := by
      have := CliModel.step_tr h1
      clear h1
      cases this
      rename_i y rest hch
      rw [hch] at k4
      exact fun x hx => k4 x (List.mem_cons_of_mem _ hx)
    have hd : (∀ i x, dist.mon i = .gotten x → x = encode c) ∧ (∀ i old x rem, dist.mon i = .notifying old x rem → old = some (encode c) ∧ x = encode c) ∧
        dist.lastConfig = some (encode c) := by
      have hall : ∀ y ∈ s.dist.source, y = encode c := by
        rw [hsrc]
        intro y hy
        obtain ⟨x, hx, rfl⟩ := List.mem_map.mp hy
        rw [k4 x hx]
      exact dist_taken k5 k6 k7 hall h2
    exact ⟨g1, running_stays k2 h1, g2, hcc, hd.1, hd.2.1, hd.2.2, k8, k9⟩
  | notify hm h2 h3 =>
    rename_i i n old new rem dist sys
    obtain ⟨d1, d2, d3⟩ := hdist h2 (by simp)
    obtain ⟨-, rfl⟩ := k6 _ _ _ _ hm
    have hv : sys.server.current = some c.listen ∧ sys.server.updates = [] := by
      have hb := sys_server h3
      rw [decode_encode] at hb
      exact server_same k8 k9 hb
    exact ⟨k1, k2, k3, k4, d1, d2, d3, hv.1, hv.2⟩
  | server hb h3 =>
    obtain ⟨v1, v2⟩ := hsys h3 (by rintro x hx; simp only [System.Action.server.injEq] at hx; subst hx; simp [Alone] at hb)
    exact ⟨k1, k2, k3, k4, k5, k6, k7, v1, v2⟩
  | takeConfig h2 h3 =>
    obtain ⟨d1, d2, d3⟩ := hdist h2 (by simp)
    obtain ⟨v1, v2⟩ := hsys h3 (by simp)
    exact ⟨k1, k2, k3, k4, d1, d2, d3, v1, v2⟩
  | session hb hg hv h3 => exact ⟨k1, k2, k3, k4, k5, k6, k7, by simp only [hv]; exact k8, by simp only [hv]; exact k9⟩
  | start hm hc h3 =>
    obtain ⟨v1, v2⟩ := hsys h3 (by simp)
    exact ⟨k1, k2, k3, k4, k5, k6, k7, v1, v2⟩
  | exit hm hc => exact ⟨k1, k2, k3, k4, k5, k6, k7, k8, k9⟩
  | subscribe hpc h2 =>
    obtain ⟨d1, d2, d3⟩ := hdist h2 (by simp)
    exact ⟨k1, k2, k3, k4, d1, d2, d3, k8, k9⟩
  | get hh hconn h2 =>
    obtain ⟨d1, d2, d3⟩ := hdist h2 (by simp)
    exact ⟨k1, k2, k3, k4, d1, d2, d3, k8, k9⟩
  | gotten hpc hv h3 => exact ⟨k1, k2, k3, k4, k5, k6, k7, by simp only [hv]; exact k8, by simp only [hv]; exact k9⟩

/-- `Get` returns the last configuration. -/
theorem dist_returned {d d' : DistributorModel.State} {b : DistributorModel.Action} {t : Nat} (hg : ∀ r, d.pc t ≠ .getUnsub r)
    (hs : DistributorModel.step d b = some d') (y : DistributorModel.Config) (hy : d'.pc t = .returned (.config y)) :
    d.pc t = .returned (.config y) ∨ d.lastConfig = some y := by
  obtain ⟨-, htr⟩ := DistributorModel.step_tr hs
  clear hs
  cases htr <;> (try rw [DistributorModel.finishSubscribe_eq] at hy) <;> (try unfold DistributorModel.afterSubscribe at hy) <;> grind [upd_apply]

theorem returned_last {s s' : State} {a : Action} {t : Tid} {e : DistributorModel.Config} (h : Reachable (step parse bytes) (init path text) s)
    (hl : s.dist.lastConfig = some e) (hk : ∀ y, s.dist.pc (getter t) = .returned (.config y) → y = e) (hs : step parse bytes s a = some s')
    (y : DistributorModel.Config) (hy : s'.dist.pc (getter t) = .returned (.config y)) : y = e := by
  obtain ⟨-, p, -, -, h2, -, -⟩ := step_plan hs
  cases hp : p.dist with
  | none => rw [hp] at h2; simp only [also, Option.some.injEq] at h2; rw [← h2] at hy; exact hk y hy
  | some b =>
    rw [hp] at h2
    have hg : ∀ r, s.dist.pc (getter t) ≠ .getUnsub r := by
      intro r hx
      rcases (linked_of_reachable h).link.getters t with hg | ⟨hg | hg | ⟨x, hg⟩, -⟩ <;> rw [hx] at hg <;> simp at hg
    rcases dist_returned hg h2 y hy with h3 | h3
    · exact hk y h3
    · rw [hl] at h3; simpa using h3.symm

end Gevulot.Process
