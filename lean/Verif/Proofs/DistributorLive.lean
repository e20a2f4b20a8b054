import Verif.Proofs.DistributorInv

/-!
When the lock of the distributor can be released, and when it is held for ever.
-/

namespace Gevulot
namespace DistributorModel
open Spec

theorem Deadlocked.lock {s : State} (hl : LockInv s) (h : Deadlocked s) : s.lock ≠ none := by
  cases h with
  | ownChannel t ks h hc => rw [(hl.thread t).mpr (by rw [h]; rfl)]; simp
  | doneGetter i old new rem t r h hm hp => rw [(hl.monitor i).mpr (by rw [h]; rfl)]; simp

theorem Deadlocked.step {s s' : State} {a : Action} (hi : Inv s) (h : Deadlocked s) (hs : step s a = some s') : Deadlocked s' := by
  have hlk := h.lock hi.lock
  have l6 := hi.lock.own
  have l8 := hi.lock.remaining
  have hg1 := hi.getter.noChecks
  have hg2 := hi.getter.keyChecks
  have lt := hi.lock.thread
  have lm := hi.lock.monitor
  cases h with
  | ownChannel t ks h hc =>
    have hks : ks = [] := by have := hg1 t t (by rw [h]; rfl); rwa [h] at this
    have : s'.pc t = .subLocked (.getter t) ks ∧ s'.lastConfig ≠ none := by
      have hlt := (lt t).mpr (by rw [h]; rfl)
      have hoth : ∀ t', (s.pc t').locked = true → t' = t := by
        intro t' ht'
        have := (lt t').mpr ht'
        rw [hlt] at this
        simpa using this.symm
      have hmon : ∀ i, (s.mon i).locked = false := by
        intro i
        have := lm i
        rw [hlt] at this
        simpa using this
      clear lt lm hi hg1 hg2 l8
      obtain ⟨c, hc⟩ := Option.ne_none_iff_exists'.mp hc
      have hw : wants ks none c := .inl hks
      dist_cases hs <;> grind [upd_apply, PC.locked, MonPC.locked, afterSubscribe]
    exact .ownChannel t ks this.1 this.2
  | doneGetter i old new rem t r h hm hp =>
    have hlt := (lm i).mpr (by rw [h]; rfl)
    have hck := hg2 t ((l8 i old new rem h).1 _ hm)
    have hoth : ∀ t', (s.pc t').locked = false := by
      intro t'
      have := lt t'
      rw [hlt] at this
      simpa using this
    have : ∃ rem, s'.mon i = .notifying old new rem ∧ .getter t ∈ rem ∧ s'.pc t = .getUnsub r := by
      clear lt lm hi hg1 hg2 l8
      dist_cases hs <;> grind [upd_apply, PC.locked, MonPC.locked, afterSubscribe, wants]
    obtain ⟨rem', h1, h2, h3⟩ := this
    exact .doneGetter i old new rem' t r h1 h2 h3

/-! ### Releasing the lock -/

/-- By receiving often enough, a user gets its channel ready for a send. -/
theorem drain (s : State) (n : Nat) (hp : s.panicked = false) (hc : (s.chans n).closed = false) :
    ∃ acts f, run step s acts = some { s with chans := f } ∧ 0 < (f n).waiting ∧ (∀ m, (f m).closed = (s.chans m).closed) ∧
      (∀ a ∈ acts, a = .userRecv n) := by
  generalize hb : (s.chans n).buf = b
  induction b generalizing s with
  | nil =>
    refine ⟨[.userRecv n], upd s.chans n { s.chans n with waiting := (s.chans n).waiting + 1 }, ?_, ?_, ?_, by simp⟩
    · simp [run, step, hp, hb, hc]
    · simp
    · intro m; rw [upd_apply]; split
      · rename_i h; rw [h]
      · rfl
  | cons x rest ih =>
    obtain ⟨acts, f, h1, h2, h3, h4⟩ := ih { s with chans := upd s.chans n { s.chans n with buf := rest } } hp (by simpa using hc) (by simp)
    refine ⟨.userRecv n :: acts, f, ?_, h2, ?_, ?_⟩
    · have hst : step s (.userRecv n) = some { s with chans := upd s.chans n { s.chans n with buf := rest } } := by
        simp [step, hp, hb]
      simp only [run, hst]
      exact h1
    · intro m
      rw [h3 m]
      simp only [upd_apply]
      split
      · rename_i h; rw [h]
      · rfl
    · intro a ha
      rcases List.mem_cons.mp ha with rfl | ha
      · rfl
      · exact h4 a ha

/-- The actions of the goroutine that holds the lock, and of users receiving. -/
def releasing (h : Holder) : Action → Prop
  | .thread t => h = .thread t
  | .monLock i => h = .monitor i
  | .monNotify i _ => h = .monitor i
  | .userRecv _ => True
  | _ => False

theorem release_monitor (s : State) (i : Nat) (old : Option Config) (new : Config) (rem : List ChanId) (hp : s.panicked = false)
    (hc : ∀ n, (s.chans n).closed = false) (hm : s.mon i = .notifying old new rem)
    (hg : ∀ t, .getter t ∈ rem → s.pc t = .getSelect) :
    ∃ acts s', run step s acts = some s' ∧ s'.lock = none ∧ (∀ a ∈ acts, releasing (.monitor i) a) ∧
      (∀ t, .getter t ∈ rem → s.checks (.getter t) = [] → s'.pc t = .getUnsub (.config new)) ∧ (∀ t, .getter t ∉ rem → s'.pc t = s.pc t) ∧
      s'.panicked = false := by
  generalize hk : rem.length = k
  induction k using Nat.strongRecOn generalizing s rem with
  | _ k ih =>
    cases rem with
    | nil =>
      refine ⟨[.monLock i], { s with lock := none, mon := upd s.mon i .select }, ?_, rfl, by simp [releasing], by simp, fun _ _ => rfl, hp⟩
      simp [run, step, hp, hm]
    | cons ch rest =>
      have hlen : ((ch :: rest).filter (· ≠ ch)).length < k := by
        rw [← hk]
        simp only [ne_eq, decide_not, List.filter_cons, decide_true, Bool.not_true, Bool.false_eq_true, if_false, List.length_cons]
        exact Nat.lt_succ_of_le (List.length_filter_le _ _)
      by_cases hw : shouldSend (s.checks ch) old new = true
      · cases ch with
        | user n =>
          obtain ⟨acts, f, h1, h2, h3, h4⟩ := drain s n hp (hc n)
          have hcf : (f n).closed = false := by rw [h3, hc]
          let s1 : State := { s with chans := upd f n { f n with waiting := (f n).waiting - 1 }, delivered := upd s.delivered (.user n) (s.delivered (.user n) ++ [new]), mon := upd s.mon i (.notifying old new ((ChanId.user n :: rest).filter (· ≠ .user n))) }
          have hstep : step { s with chans := f } (.monNotify i (.user n)) = some s1 := by
            simp [step, hp, hm, hw, send, hcf, h2, s1]
          obtain ⟨acts', s', h5, h6, h7, h8, h9, h10⟩ := ih _ hlen s1 _ hp
            (by intro m; simp only [s1, upd_apply]; split
                · exact hcf
                · rw [h3, hc])
            (by simp [s1])
            (by intro t ht
                exact hg t ((List.mem_filter.mp ht).1)) rfl
          refine ⟨acts ++ .monNotify i (.user n) :: acts', s', ?_, h6, ?_, ?_, ?_, h10⟩
          · refine run_append_some h1 ?_
            simp only [run, hstep]
            exact h5
          · intro a ha
            rcases List.mem_append.mp ha with ha | ha
            · rw [h4 a ha]; trivial
            · rcases List.mem_cons.mp ha with rfl | ha
              · exact rfl
              · exact h7 a ha
          · intro t ht hck
            exact h8 t (by simpa using ht) hck
          · intro t ht
            exact h9 t (fun h => ht (List.mem_filter.mp h).1)
        | getter t =>
          have hsel := hg t (by simp)
          let s1 : State := { s with pc := upd s.pc t (.getUnsub (.config new)), delivered := upd s.delivered (.getter t) (s.delivered (.getter t) ++ [new]), mon := upd s.mon i (.notifying old new ((ChanId.getter t :: rest).filter (· ≠ .getter t))) }
          have hstep : step s (.monNotify i (.getter t)) = some s1 := by
            simp [step, hp, hm, hw, send, hsel, s1]
          obtain ⟨acts', s', h5, h6, h7, h8, h9, h10⟩ := ih _ hlen s1 _ hp hc (by simp [s1])
            (by intro t' ht'
                have h8 := List.mem_filter.mp ht'
                have hne : t' ≠ t := by
                  intro h; subst h; simp at h8
                simp only [s1]
                rw [upd_other _ _ hne]
                exact hg t' h8.1) rfl
          refine ⟨.monNotify i (.getter t) :: acts', s', ?_, h6, ?_, ?_, ?_, h10⟩
          · simp only [run, hstep]
            exact h5
          · intro a ha
            rcases List.mem_cons.mp ha with rfl | ha
            · exact rfl
            · exact h7 a ha
          · intro t' ht hck
            by_cases ht' : t' = t
            · subst ht'
              rw [h9 t' (by simp)]
              simp [s1]
            · exact h8 t' (by simpa [ht'] using ht) hck
          · intro t' ht
            have hne : t' ≠ t := by
              intro h; subst h; simp at ht
            rw [h9 t' (fun h => ht (List.mem_filter.mp h).1)]
            simp only [s1]
            rw [upd_other _ _ hne]
      · let s1 : State := { s with mon := upd s.mon i (.notifying old new ((ch :: rest).filter (· ≠ ch))) }
        have hstep : step s (.monNotify i ch) = some s1 := by
          simp [step, hp, hm, hw, s1]
        obtain ⟨acts', s', h5, h6, h7, h8, h9, h10⟩ := ih _ hlen s1 _ hp hc (by simp [s1])
          (by intro t' ht'; exact hg t' ((List.mem_filter.mp ht').1)) rfl
        refine ⟨.monNotify i ch :: acts', s', ?_, h6, ?_, ?_, ?_, h10⟩
        · simp only [run, hstep]
          exact h5
        · intro a ha
          rcases List.mem_cons.mp ha with rfl | ha
          · exact rfl
          · exact h7 a ha
        · intro t ht hck
          refine h8 t ?_ hck
          refine List.mem_filter.mpr ⟨ht, ?_⟩
          simp only [ne_eq, decide_not, Bool.not_eq_eq_eq_not, Bool.not_true, decide_eq_false_iff_not]
          intro hx
          rw [← hx] at hw
          simp [shouldSend, hck] at hw
        · intro t ht
          exact h9 t (fun h => ht (List.mem_filter.mp h).1)

theorem finishSubscribe_lock (s : State) (t : Nat) (ch : ChanId) (ks : List Check) : (finishSubscribe s t ch ks).lock = none := rfl

theorem release_thread (s : State) (t : Nat) (ch : ChanId) (ks : List Check) (hp : s.panicked = false)
    (hc : ∀ n, (s.chans n).closed = false) (hm : s.pc t = .subLocked ch ks) (hg : ∀ t', ch = .getter t' → s.lastConfig = none) :
    ∃ acts s', run step s acts = some s' ∧ s'.lock = none ∧ ∀ a ∈ acts, releasing (.thread t) a := by
  cases hlc : s.lastConfig with
  | none =>
    refine ⟨[.thread t], _, ?_, finishSubscribe_lock s t ch ks, by simp [releasing]⟩
    simp [run, step, hp, hm, hlc]
  | some c =>
    cases ch with
    | getter t' => rw [hg t' rfl] at hlc; simp at hlc
    | user n =>
      by_cases hw : shouldSend ks none c = true
      · obtain ⟨acts, f, h1, h2, h3, h4⟩ := drain s n hp (hc n)
        have hcf : (f n).closed = false := by rw [h3, hc]
        refine ⟨acts ++ [.thread t], _, run_append_some h1 ?_, finishSubscribe_lock { s with chans := upd f n { f n with waiting := (f n).waiting - 1 }, delivered := upd s.delivered (.user n) (s.delivered (.user n) ++ [c]) } t (.user n) ks, ?_⟩
        · simp [run, step, hp, hm, hlc, hw, send, hcf, h2]
        · intro a ha
          rcases List.mem_append.mp ha with ha | ha
          · rw [h4 a ha]; trivial
          · rw [List.mem_singleton.mp ha]; exact rfl
      · refine ⟨[.thread t], _, ?_, finishSubscribe_lock s t (.user n) ks, by simp [releasing]⟩
        simp [run, step, hp, hm, hlc, hw]

/-! ### `Get` returns -/

/-- As long as the distributor is open, a waiting `Get` is subscribed. -/
structure WaitInv (s : State) : Prop where
  key : ∀ t, s.pc t = .getSelect → s.closed = false → .getter t ∈ s.keys
  started : (∃ t, s.pc t = .getSelect) → s.started = true

theorem waitInv_init (caps : Nat → Nat) : WaitInv (init caps) := by
  constructor <;> simp [init]

theorem waitInv_step {s s' : State} {a : Action} (hi : Inv s) (h : WaitInv s) (hs : step s a = some s') : WaitInv s' := by
  obtain ⟨h1, h2⟩ := h
  have l6 := hi.lock.own
  have l9 := hi.lock.closing
  have l5 := hi.lock.exited
  refine ⟨?_, ?_⟩
  · clear h2 hi
    dist_cases hs <;> grind [upd_apply, PC.sub, afterSubscribe]
  · clear h1 hi
    dist_cases hs <;> grind [upd_apply, PC.sub, afterSubscribe]

theorem waitInv_of_reachable {caps : Nat → Nat} {s : State} (h : Reachable step (init caps) s) : WaitInv s :=
  (h.invariant (fun s => Inv s ∧ WaitInv s) ⟨inv_init caps, waitInv_init caps⟩
    (fun _ _ _ h hs => ⟨inv_step h.1 hs, waitInv_step h.1 h.2 hs⟩)).2

theorem releasing_internal {h : Holder} {a : Action} (ha : releasing h a) : a.internal := by
  cases a <;> simp_all [releasing, Action.internal]

/-- With the lock free, the calls of `Get` that have a result can all finish. -/
theorem finish_getters (l : List ChanId) (s : State) (hp : s.panicked = false) (hl : s.lock = none) :
    ∃ acts k h p, run step s acts = some { s with keys := k, hist := h, pc := p } ∧ (∀ a ∈ acts, a.internal) ∧
      (∀ t r, .getter t ∈ l → .getter t ∈ k → p t ≠ .getUnsub r) ∧ (∀ t, (∀ r, s.pc t ≠ .getUnsub r) → p t = s.pc t) ∧
      (∀ t, (∀ r, s.pc t ≠ .getUnsub r) → .getter t ∈ s.keys → .getter t ∈ k) ∧ (∀ ch ∈ k, ch ∈ s.keys) ∧
      (∀ t r, p t = .getUnsub r → s.pc t = .getUnsub r) := by
  induction l generalizing s with
  | nil => exact ⟨[], s.keys, s.hist, s.pc, rfl, by simp, by simp, fun _ _ => rfl, fun _ _ h => h, fun _ h => h, fun _ _ h => h⟩
  | cons ch rest ih =>
    by_cases hx : ∃ t r, ch = .getter t ∧ s.pc t = .getUnsub r
    · obtain ⟨t, r, rfl, hr⟩ := hx
      let s1 : State := { s with keys := s.keys.filter (· ≠ .getter t), hist := s.hist ++ [.unsubscribe (.getter t)], pc := upd s.pc t (.returned r) }
      have hstep : step s (.thread t) = some s1 := by simp [step, hp, hr, hl, unregister, s1]
      obtain ⟨acts, k, h, p, h1, h2, h3, h4, h5, h6, h7⟩ := ih s1 hp hl
      refine ⟨.thread t :: acts, k, h, p, ?_, ?_, ?_, ?_, ?_, ?_, ?_⟩
      · simp only [run, hstep]; exact h1
      · intro a ha
        rcases List.mem_cons.mp ha with rfl | ha
        · trivial
        · exact h2 a ha
      · intro t' r' hm hk
        rcases List.mem_cons.mp hm with hm | hm
        · have := h6 _ hk
          rw [hm] at this
          simp [s1] at this
        · exact h3 t' r' hm hk
      · intro t' ht'
        have hne : t' ≠ t := by intro h; subst h; exact ht' r hr
        have := h4 t' (by simp only [s1]; rw [upd_other _ _ hne]; exact ht')
        rw [this]; simp only [s1]; rw [upd_other _ _ hne]
      · intro t' ht' hk
        have hne : t' ≠ t := by intro h; subst h; exact ht' r hr
        refine h5 t' (by simp only [s1]; rw [upd_other _ _ hne]; exact ht') ?_
        simp only [s1]
        exact List.mem_filter.mpr ⟨hk, by simp [hne]⟩
      · intro c hc
        exact (List.mem_filter.mp (h6 c hc)).1
      · intro t' r' ht'
        have := h7 t' r' ht'
        simp only [s1, upd_apply] at this
        split at this
        · simp at this
        · exact this
    · obtain ⟨acts, k, h, p, h1, h2, h3, h4, h5, h6, h7⟩ := ih s hp hl
      refine ⟨acts, k, h, p, h1, h2, ?_, h4, h5, h6, h7⟩
      intro t r hm hk hr
      rcases List.mem_cons.mp hm with hm | hm
      · exact hx ⟨t, r, hm.symm, h7 t r hr⟩
      · exact h3 t r hm hk hr

/-- With the lock free and a configuration on its way, a waiting `Get` can return it. -/
theorem get_returns {s : State} (hi : Inv s) (hw : WaitInv s) (hp : s.panicked = false) (hl : s.lock = none)
    (hc : ∀ n, (s.chans n).closed = false) (hopen : s.closed = false) {t : Nat} (ht : s.pc t = .getSelect)
    {c : Config} {rest : List Config} (hsrc : (s.mon 0).inflight ++ s.source = c :: rest) :
    ∃ acts s', run step s acts = some s' ∧ (∀ a ∈ acts, a.internal) ∧ s'.pc t = .returned (.config c) := by
  obtain ⟨acts1, k, h, p, h1, h2, h3, h4, h5, h6, h7⟩ := finish_getters s.keys s hp hl
  have hpt : p t = .getSelect := by rw [h4 t (by rw [ht]; simp), ht]
  have hkt : .getter t ∈ k := h5 t (by rw [ht]; simp) (hw.key t ht hopen)
  have hst := hw.started ⟨t, ht⟩
  have hm0 : s.mon 0 ≠ .notStarted := by
    refine (hi.lock.mons 0).mpr ?_
    rw [hi.lock.count, hst]; simp
  -- the monitor takes the configuration
  have htake : ∃ acts2 src, run step { s with keys := k, hist := h, pc := p } acts2 = some { s with keys := k, hist := h, pc := p, source := src, mon := upd s.mon 0 (.gotten c) } ∧ (∀ a ∈ acts2, a.internal) := by
    cases hm : s.mon 0 with
    | notStarted => exact absurd hm hm0
    | select =>
      rw [hm] at hsrc
      simp only [MonPC.inflight, List.nil_append] at hsrc
      refine ⟨[.monTake 0], rest, ?_, by simp [Action.internal]⟩
      simp [run, step, hp, hm, hsrc]
    | gotten c' =>
      rw [hm] at hsrc
      simp only [MonPC.inflight, List.cons_append, List.nil_append, List.cons.injEq] at hsrc
      refine ⟨[], s.source, ?_, by simp⟩
      have : upd s.mon 0 (.gotten c) = s.mon := by
        funext j
        rw [upd_apply]; split
        · rename_i hj; rw [hj, hm, hsrc.1]
        · rfl
      rw [this]; rfl
    | notifying old new rem =>
      have := (hi.lock.monitor 0).mpr (by rw [hm]; rfl)
      rw [hl] at this; simp at this
    | closeLock => rw [hi.lock.exited 0 (.inr hm)] at hopen; simp at hopen
    | exited => rw [hi.lock.exited 0 (.inl hm)] at hopen; simp at hopen
  obtain ⟨acts2, src, g1, g2⟩ := htake
  -- it gets the lock
  let s2 : State := { s with keys := k, hist := h ++ [.update c], pc := p, source := src, lock := some (.monitor 0), lastConfig := some c, mon := upd (upd s.mon 0 (.gotten c)) 0 (.notifying s.lastConfig c k) }
  have hstep : step { s with keys := k, hist := h, pc := p, source := src, mon := upd s.mon 0 (.gotten c) } (.monLock 0) = some s2 := by
    simp [step, hp, hl, s2]
  have hsel : ∀ t', .getter t' ∈ k → s2.pc t' = .getSelect := by
    intro t' ht'
    have hwt := hi.lock.getterKeys t' (h6 _ ht')
    have hnu : ∀ r, p t' ≠ .getUnsub r := fun r => h3 t' r (h6 _ ht') ht'
    simp only [s2]
    by_cases hu : ∃ r, s.pc t' = .getUnsub r
    · obtain ⟨r, hu⟩ := hu
      -- it has been finished, hence unsubscribed
      have inv1 : Inv { s with keys := k, hist := h, pc := p } := run_invariant Inv hi (fun _ _ _ h hs => inv_step h hs) h1
      have hwt' := inv1.lock.getterKeys t' ht'
      simp only at hwt'
      cases hpc : p t' <;> rw [hpc] at hwt' <;> simp [PC.waits] at hwt' ⊢
      exact absurd hpc (hnu _)
    · have hu' : ∀ r, s.pc t' ≠ .getUnsub r := fun r h => hu ⟨r, h⟩
      rw [h4 t' hu']
      cases hpc : s.pc t' <;> rw [hpc] at hwt <;> simp [PC.waits] at hwt ⊢
      exact absurd hpc (hu' _)
  obtain ⟨acts3, s3, k1, k2, k3, k4, k5, k6⟩ := release_monitor s2 0 s.lastConfig c k hp hc (by simp [s2]) hsel
  have hck : s2.checks (.getter t) = [] := hi.getter.keyChecks t (h6 _ hkt)
  have h3t := k4 t hkt hck
  let s4 : State := { s3 with keys := s3.keys.filter (· ≠ .getter t), hist := s3.hist ++ [.unsubscribe (.getter t)], pc := upd s3.pc t (.returned (.config c)) }
  have hlast : step s3 (.thread t) = some s4 := by
    simp [step, k6, h3t, k2, unregister, s4]
  refine ⟨acts1 ++ (acts2 ++ (.monLock 0 :: (acts3 ++ [.thread t]))), s4, ?_, ?_, by simp [s4]⟩
  · refine run_append_some h1 (run_append_some g1 ?_)
    simp only [run, hstep]
    refine run_append_some k1 ?_
    simp only [run, hlast]
  · intro a ha
    simp only [List.mem_append, List.mem_cons, List.not_mem_nil, or_false] at ha
    rcases ha with ha | ha | rfl | ha | rfl
    · exact h2 a ha
    · exact g2 a ha
    · trivial
    · exact releasing_internal (k3 a ha)
    · trivial

end DistributorModel
end Gevulot
