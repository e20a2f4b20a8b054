import Verif.Proofs.DistributorLock
import Verif.Props.Distributor

/-!
# C107: the distributor with its RWMutex

`s` ranges over every state reachable when `Lock`, `Unlock`, `RLock`, `RUnlock`, and each thing done in between are steps of their own,
interleaved with the steps of every other goroutine.
-/

namespace Gevulot.DistributorLock

open DistributorModel (Config ChanId Holder Deadlocked BlockedOn)

/-- C107: each state looks like a state of Model/Distributor.lean, and if nobody is in a section it is one. So what is proved there is true at every moment
of the real thing, except for what the mutex guards while somebody has it. -/
theorem C107 (caps : Nat → Nat) (s : State) (h : Reachable step (init caps) s) :
    ∃ g, Reachable DistributorModel.step (DistributorModel.init caps) g ∧ LooksLike s g :=
  ⟨abs s, abs_reachable h, looksLike_abs (inv_of_reachable h)⟩

/-- C107, and what follows looks like what follows there. -/
theorem C107_run (caps : Nat → Nat) (s s' : State) (acts : List Action) (h : Reachable step (init caps) s) (hr : run step s acts = some s') :
    ∃ g g', Reachable DistributorModel.step (DistributorModel.init caps) g ∧ LooksLike s g ∧ Reachable DistributorModel.step g g' ∧ LooksLike s' g' := by
  have hi := inv_of_reachable h
  exact ⟨abs s, abs s', abs_reachable h, looksLike_abs hi, abs_run hi hr, looksLike_abs (run_invariant Inv hi inv_step hr)⟩

/-- C107, conversely each state of Model/Distributor.lean is one of these, so what is refuted there is refuted. -/
theorem C107_all (caps : Nat → Nat) (g : DistributorModel.State) (h : Reachable DistributorModel.step (DistributorModel.init caps) g) :
    Reachable step (init caps) (bare g) := fine_run (DistributorModel.lockInv_init caps) h

/-- Who is between `Lock` and `Unlock` is the one who has the mutex. -/
theorem writing_iff {s : State} (h : Inv s) (k : Holder) : Writing s k ↔ (∃ x, s.held = some (k, x)) ∨ (s.held = none ∧ s.base.lock = some k) := by
  cases k with
  | thread t =>
    constructor
    · rintro (h1 | ⟨ch, ks, h1⟩)
      · exact .inl h1
      · cases hx : s.held with
        | none =>
          refine .inr ⟨rfl, ?_⟩
          have h2 := h.lock.thread t
          simp only [abs, hx, patch] at h2
          have h3 : s.rd t = none := by
            cases hy : s.rd t with
            | none => rfl
            | some p => have := h.reading t ((h.rd t).1 (by simp [hy])); rw [this] at h1; simp at h1
          exact h2.2 (by simp [h3, h1, DistributorModel.PC.locked])
        | some kx =>
          obtain ⟨k, x⟩ := kx
          left
          by_cases hk : k = .thread t
          · exact ⟨x, by rw [hk]⟩
          · exfalso
            have h2 := h.holds k x hx
            have h3 := h.lock.thread t
            have h4 : (abs s).pc t = s.base.pc t := (looksLike_abs h).pc t (by rw [hx]; simp [hk]) (by rw [(h.quiet (by simp [hx])).1]; simp)
            have h5 : (abs s).lock = none := by
              cases k <;> cases x <;> simp only [Holds] at h2 <;> simp [abs, hx, patch] <;> exact h2.2
            rw [h4, h5, h1] at h3
            simp [DistributorModel.PC.locked] at h3
    · rintro (h1 | ⟨h1, h2⟩)
      · exact .inl h1
      · right
        have h3 := (h.lock.thread t).1 (by simp [abs, h1, patch, h2])
        have hr : s.readers = [] := by
          cases hr : s.readers with
          | nil => rfl
          | cons u us => have := h.readLock (by simp [hr]); rw [this] at h2; simp at h2
        rw [abs_free h h1 hr] at h3
        cases hq : s.base.pc t <;> simp [hq, DistributorModel.PC.locked] at h3
        exact ⟨_, _, rfl⟩
  | monitor i =>
    constructor
    · rintro (h1 | ⟨old, new, rem, h1⟩)
      · exact .inl h1
      · obtain ⟨h2, -, -, h3⟩ := notifying_alone h h1
        exact .inr ⟨h2, h3⟩
    · rintro (h1 | ⟨h1, h2⟩)
      · exact .inl h1
      · right
        have h3 := (h.lock.monitor i).1 (by simp [abs, h1, patch, h2])
        simp only [abs, h1, patch, Option.getD_none] at h3
        cases hq : s.base.mon i <;> simp [hq, DistributorModel.MonPC.locked] at h3
        exact ⟨_, _, _, rfl⟩

/-- C107, never two are between `Lock` and `Unlock`, and while somebody is, no `Get` is between `RLock` and `RUnlock`; -/
theorem C107_mutex (caps : Nat → Nat) (s : State) (h : Reachable step (init caps) s) (k : Holder) (hk : Writing s k) :
    s.readers = [] ∧ ∀ k', Writing s k' → k' = k := by
  have hi := inv_of_reachable h
  rw [writing_iff hi] at hk
  refine ⟨?_, fun k' hk' => ?_⟩
  · rcases hk with ⟨x, hk⟩ | ⟨hk, hl⟩
    · exact (hi.quiet (by simp [hk])).1
    · cases hr : s.readers with
      | nil => rfl
      | cons u us => have := hi.readLock (by simp [hr]); rw [this] at hl; simp at hl
  · rw [writing_iff hi] at hk'
    rcases hk with ⟨x, hk⟩ | ⟨hk, hl⟩ <;> rcases hk' with ⟨x', hk'⟩ | ⟨hk', hl'⟩ <;> simp_all

/-- and the subscriptions, the current configuration and whether the monitor was started change only while somebody is. -/
theorem C107_guarded (caps : Nat → Nat) (s s' : State) (a : Action) (h : Reachable step (init caps) s) (hs : step s a = some s')
    (hd : s'.base.keys ≠ s.base.keys ∨ s'.base.checks ≠ s.base.checks ∨ s'.base.lastConfig ≠ s.base.lastConfig ∨ s'.base.started ≠ s.base.started ∨ s'.base.hist ≠ s.base.hist) :
    (a = .inside ∨ ∃ ch, a = .delete ch) ∧ ∃ k x, s.held = some (k, x) ∧ Writing s k ∧ Writing s' k := by
  have hi := inv_of_reachable h
  have hi' := inv_step s a s' hi hs
  have hw : ∀ {k x}, s.held = some (k, x) → ((∃ y, s'.held = some (k, y)) ∨ (s'.held = none ∧ s'.base.lock = some k)) → ∃ k x, s.held = some (k, x) ∧ Writing s k ∧ Writing s' k :=
    fun {k x} hx hy => ⟨k, x, hx, (writing_iff hi k).2 (.inl ⟨x, hx⟩), (writing_iff hi' k).2 hy⟩
  clear hi'
  obtain ⟨hp, htr⟩ := step_tr hs
  clear hs
  cases htr with
  | other b g' hg hs =>
    exfalso
    rcases away_or hg hs with ha | ⟨i, old, new, rem, hm⟩
    · obtain ⟨⟨k1, k2, k3, k4, k5, k6, k7⟩, -⟩ := step_keeps ha hs
      simp [k2, k3, k4, k5, k7] at hd
    · obtain ⟨-, htr⟩ := DistributorModel.step_tr hs
      cases htr <;> first | (simp at hd; done) | (simp [guarded, guards, guardsMon, *] at hg; done)
  | sendPanic t ch ks c g' hh hl hpc hc hws hs hp' =>
    obtain ⟨⟨k1, k2, k3, k4, k5, k6, k7⟩, -⟩ := send_keeps hs
    simp [k2, k3, k4, k5, k7] at hd
  | sent t ch ks c g' hh hl hpc hc hws hs hp' =>
    obtain ⟨⟨k1, k2, k3, k4, k5, k6, k7⟩, -⟩ := send_keeps hs
    simp [k2, k3, k4, k5, k7] at hd
  | register t ch ks hh => exact ⟨.inl rfl, hw hh (.inl ⟨_, rfl⟩)⟩
  | start t ch hh => exact ⟨.inl rfl, hw hh (.inl ⟨_, rfl⟩)⟩
  | getUnsub t r hh hpc => exact ⟨.inl rfl, hw hh (.inl ⟨_, rfl⟩)⟩
  | unsub t n hh hpc => exact ⟨.inl rfl, hw hh (.inl ⟨_, rfl⟩)⟩
  | close t hh hpc => exact ⟨.inl rfl, hw hh (.inl ⟨_, rfl⟩)⟩
  | monGot i c hh hm => exact ⟨.inl rfl, hw hh (.inr ⟨rfl, rfl⟩)⟩
  | monClose i hh hm => exact ⟨.inl rfl, hw hh (.inl ⟨_, rfl⟩)⟩
  | delete k todo ch hh hc => exact ⟨.inr ⟨ch, rfl⟩, hw hh (.inl ⟨_, rfl⟩)⟩
  | _ => simp at hd

/-- C107, what `Get` has read under the mutex is still the current configuration when it gives the mutex back: it returns the current configuration, or waits for one if
there is none. -/
theorem C107_snapshot (caps : Nat → Nat) (s s' : State) (t : Nat) (h : Reachable step (init caps) s) (hs : step s (.runlock t) = some s') :
    (∃ c, s'.base.lastConfig = some c ∧ s'.base.pc t = .returned (.config c)) ∨ (s'.base.lastConfig = none ∧ s'.base.pc t = .subCheck (.getter t) []) := by
  have hi := inv_of_reachable h
  obtain ⟨-, htr⟩ := step_tr hs
  cases htr with
  | runlock _ p hr =>
    have := hi.snap t p hr
    unfold seen at this
    split at this
    · rename_i c hc; exact .inl ⟨c, hc, by simp [this]⟩
    · rename_i hc; exact .inr ⟨hc, by simp [this]⟩

/-- C107, when the loop of `Close` is over there are no subscriptions, whatever the order in which they were deleted. -/
theorem C107_close (caps : Nat → Nat) (s : State) (k : Holder) (h : Reachable step (init caps) s) (hx : s.held = some (k, .deleting [])) : s.base.keys = [] := by
  have h1 := (inv_of_reachable h).holds k _ hx
  cases hk : s.base.keys with
  | nil => rfl
  | cons c cs =>
    exfalso
    cases k with
    | thread t => have := h1.2.2 c (by simp [hk]); simp at this
    | monitor i => have := h1.2.2 c (by simp [hk]); simp at this

/-- C107, who is in a section that neither blocks nor sends can go on; a reader can; and who waits for the readers to leave can when they have left. -/
theorem C107_goes_on (caps : Nat → Nat) (s : State) (h : Reachable step (init caps) s) (hp : s.base.panicked = false) :
    (∀ k x, s.held = some (k, x) → (∃ s', step s .inside = some s') ∨ ∃ ch s', step s (.delete ch) = some s') ∧
    (∀ t ∈ s.readers, (∃ s', step s (.read t) = some s') ∨ ∃ s', step s (.runlock t) = some s') ∧
    (s.want ≠ none → s.readers = [] → ∃ s', step s .lock = some s') := goes_on (inv_of_reachable h) hp

/-- C107, after finitely many steps, however the goroutines take turns, there is nothing left to do. -/
theorem C107_finite (caps : Nat → Nat) (s : State) (h : Reachable step (init caps) s) :
    ∃ n, ∀ acts s', (∀ a ∈ acts, a.own = true) → run step s acts = some s' → acts.length ≤ n := finite h

/-- C107, and then nobody is in such a section, nor waits for readers to leave: C48 again, all calls have returned or wait for a configuration, or else the distributor
waits for itself or for a user in one of the ways known from Model/Distributor.lean. The mutex itself adds none. -/
theorem C107_rest (caps : Nat → Nat) (s : State) (h : Reachable step (init caps) s) (hp : s.base.panicked = false) (hr : AtRest s) :
    Free s ∧ s.want = none ∧ (Deadlocked s.base ∨ (∃ n, BlockedOn s.base n) ∨
      (s.base.lock = none ∧ (∀ t, s.base.pc t = .idle ∨ (∃ r, s.base.pc t = .returned r) ∨ (s.base.pc t = .getSelect ∧ s.base.closed = false)) ∧
        ∀ i, s.base.mon i = .notStarted ∨ (s.base.mon i = .select ∧ s.base.source = [] ∧ s.base.sourceClosed = false ∧ s.base.closed = false) ∨ s.base.mon i = .exited)) := by
  have hi := inv_of_reachable h
  obtain ⟨hf, hw⟩ := rest_free hi hp hr
  have h1 := abs_reachable h
  rw [abs_free hi hf.1 hf.2] at h1
  exact ⟨hf, hw, DistributorModel.C48_rest caps s.base h1 hp (rest_base hi hr)⟩

/-- C107, C44 with the mutex: whenever nobody has it for writing, each channel has been sent exactly what it should have been. -/
theorem C107_delivered (caps : Nat → Nat) (s : State) (h : Reachable step (init caps) s) (hn : ∀ k, ¬ Writing s k) (ch : ChanId) :
    s.base.delivered ch = (Spec.view ch s.base.hist).got := by
  have hi := inv_of_reachable h
  have hh : s.held = none := by
    cases hx : s.held with
    | none => rfl
    | some kx => exact absurd ((writing_iff hi kx.1).2 (.inl ⟨kx.2, hx⟩)) (hn _)
  have hl : s.base.lock = none := by
    cases hx : s.base.lock with
    | none => rfl
    | some k => exact absurd ((writing_iff hi k).2 (.inr ⟨hh, hx⟩)) (hn _)
  have h1 := DistributorModel.C44 caps (abs s) (abs_reachable h) (by simp [abs, hh, patch, hl]) ch
  simpa [abs, hh, patch] using h1

/-- C107, C45 with the mutex: what happens in `Unsubscribe` between `Lock` and `Unlock` is final: until the channel is subscribed again, nothing is sent to it. -/
theorem C107_unsubscribe (caps : Nat → Nat) (s s1 s2 : State) (h : Reachable step (init caps) s) (t n : Nat) (hx : s.held = some (.thread t, .entered))
    (hpc : s.base.pc t = .unsubLock n) (hs : step s .inside = some s1) (acts : List Action) (hr : run step s1 acts = some s2)
    (hn : ∀ ks, .subscribe (.user n) ks ∉ s2.base.hist.drop s1.base.hist.length) (hf : ∀ k ks, s2.held ≠ some (k, .register (.user n) ks)) :
    s2.base.delivered (.user n) = s1.base.delivered (.user n) := by
  have hi := inv_of_reachable h
  have hi1 := inv_step _ _ _ hi hs
  have hi2 := run_invariant Inv hi1 inv_step hr
  have h1 := sim hi hs
  simp only [commit, hx] at h1
  have e0 := abs_entered hx
  obtain ⟨bs, h2⟩ := abs_run hi1 hr
  have e1 : (abs s1).hist = s1.base.hist := by
    obtain ⟨hp, htr⟩ := step_tr hs
    cases htr <;> first | (simp_all; done) | skip
    simp [abs, patch]
  have e2 : ∀ ks, .subscribe (.user n) ks ∉ (abs s2).hist.drop (abs s1).hist.length := by
    rw [e1]
    intro ks hm
    unfold abs at hm
    split at hm
    case h_2 t' ch ks' hh =>
      simp only [patch] at hm
      rw [List.drop_append] at hm
      rcases List.mem_append.1 hm with hm | hm
      · exact hn ks hm
      · have := List.mem_of_mem_drop hm
        simp only [List.mem_singleton, DistributorModel.Ev.subscribe.injEq] at this
        exact hf (.thread t') ks' (by rw [hh, ← this.1])
    all_goals exact hn ks hm
  have h3 := (DistributorModel.C45 caps (abs s) (abs s1) (abs s2) (abs_reachable h) t n (by rw [e0, hpc]) h1 bs h2 e2).2
  rwa [(looksLike_abs hi1).delivered, (looksLike_abs hi2).delivered] at h3

/-! ## Examples -/

/-- The state after these actions. -/
def after (acts : List Action) : State := (run step (init fun _ => 1) acts).getD (init fun _ => 1)

theorem after_run {acts : List Action} (h : (run step (init fun _ => 1) acts).isSome = true) : run step (init fun _ => 1) acts = some (after acts) := by
  unfold after
  cases hr : run step (init fun _ => 1) acts with
  | none => simp [hr] at h
  | some s => simp

theorem after_reachable {acts : List Action} (h : (run step (init fun _ => 1) acts).isSome = true) : Reachable step (init fun _ => 1) (after acts) :=
  ⟨acts, after_run h⟩

theorem after_append {as bs : List Action} (h : (run step (init fun _ => 1) (as ++ bs)).isSome = true) : run step (after as) bs = some (after (as ++ bs)) := by
  have h2 := after_run h
  rw [run_append] at h2
  cases hr : run step (init fun _ => 1) as with
  | none => simp [hr] at h2
  | some s =>
    have : after as = s := by unfold after; rw [hr]; rfl
    rw [this]
    simpa [hr] using h2

/-- A channel is subscribed, and was sent the first configuration; another is being subscribed, and was sent it too. -/
def subscribed : List Action :=
  [.other (.produce 7), .other (.call 0 (.subscribe 0 [])), .other (.thread 0), .announce (.thread 0), .lock, .inside, .inside, .inside, .inside,
   .other (.monTake 0), .announce (.monitor 0), .lock, .inside, .other (.monNotify 0 (.user 0)), .other (.monLock 0),
   .other (.call 1 (.subscribe 1 [])), .other (.thread 1), .announce (.thread 1), .lock, .inside]

/-- A `Get` has read the current configuration, another is about to, and `Close` waits for them. -/
def waiting : List Action :=
  subscribed ++ [.inside, .inside, .inside, .other (.call 2 .get), .other (.thread 2), .rlock 2, .other (.call 3 .get), .other (.thread 3), .rlock 3, .read 2,
    .other (.call 4 .close), .other (.thread 4), .announce (.thread 4)]

/-- `Close` has the mutex, and has deleted one of the two subscriptions. -/
def closing : List Action := waiting ++ [.read 3, .runlock 3, .runlock 2, .lock, .inside, .delete (.user 0)]

/-- C107 and `C107_run` are not about nothing: the channel was sent the configuration and is not subscribed yet, which is no state of Model/Distributor.lean where the mutex
is free; and what follows. -/
example : Reachable step (init fun _ => 1) (after subscribed) ∧ (after subscribed).base.delivered (.user 1) = [7] ∧ (after subscribed).base.keys = [.user 0] ∧
    run step (after subscribed) [.inside] = some (after (subscribed ++ [.inside])) ∧ (after (subscribed ++ [.inside])).base.keys = [.user 1, .user 0] := by
  refine ⟨after_reachable (by decide), by decide, by decide, after_append (by decide), by decide⟩

/-- `C107_mutex`, `C107_guarded`: here the subscriptions change. -/
example : Writing (after subscribed) (.thread 1) ∧ (after subscribed).held.isSome = true ∧
    step (after subscribed) .inside = some (after (subscribed ++ [.inside])) ∧ (after (subscribed ++ [.inside])).base.keys ≠ (after subscribed).base.keys := by
  refine ⟨.inl ⟨.register (.user 1) [], rfl⟩, by decide, ?_, by decide⟩
  have := after_append (as := subscribed) (bs := [.inside]) (by decide)
  cases hx : step (after subscribed) .inside with
  | none => simp [run, hx] at this
  | some s => simpa [run, hx] using this

/-- `C107_snapshot`, and `Close` cannot go on, nor can another `Get` begin, while the two are reading: the mutex excludes. -/
example : (after waiting).readers = [3, 2] ∧ (after waiting).want = some (.thread 4) ∧ (step (after waiting) .lock).isNone = true ∧
    (step (after (waiting ++ [.other (.call 5 .get), .other (.thread 5)])) (.rlock 5)).isNone = true ∧ (step (after waiting) (.runlock 2)).isSome = true := by
  decide

/-- `C107_close`. -/
example : Reachable step (init fun _ => 1) (after (closing ++ [.delete (.user 1)])) ∧ (after closing).base.keys = [.user 1] ∧
    (after (closing ++ [.delete (.user 1)])).held = some (.thread 4, .deleting []) :=
  ⟨after_reachable (by decide), by decide, rfl⟩

/-- `C107_rest`: nothing is left to do when `Close` has returned and the monitor has noticed. -/
example : Reachable step (init fun _ => 1) (after (closing ++ [.delete (.user 1), .inside, .inside, .other (.monDone 0)])) ∧
    (after (closing ++ [.delete (.user 1), .inside, .inside, .other (.monDone 0)])).base.mon 0 = .exited ∧
    (after (closing ++ [.delete (.user 1), .inside, .inside, .other (.monDone 0)])).base.lock = none := ⟨after_reachable (by decide), by decide, by decide⟩

/-- `C107_unsubscribe`: after `Unsubscribe` there is an update, of which the channel hears nothing. -/
def unsubscribing : List Action := subscribed ++ [.inside, .inside, .inside, .other (.call 2 (.unsubscribe 0)), .announce (.thread 2), .lock]

example : Reachable step (init fun _ => 1) (after unsubscribing) ∧ (after unsubscribing).held = some (.thread 2, .entered) ∧ (after unsubscribing).base.pc 2 = .unsubLock 0 ∧
    (after (unsubscribing ++ [.inside, .inside, .other (.userRecv 1), .other (.produce 8), .other (.monTake 0), .announce (.monitor 0), .lock, .inside,
      .other (.monNotify 0 (.user 1)), .other (.monLock 0)])).base.delivered (.user 0) = [7] ∧
    (after (unsubscribing ++ [.inside, .inside, .other (.userRecv 1), .other (.produce 8), .other (.monTake 0), .announce (.monitor 0), .lock, .inside,
      .other (.monNotify 0 (.user 1)), .other (.monLock 0)])).base.delivered (.user 1) = [7, 8] := by
  refine ⟨after_reachable (by decide), rfl, rfl, by decide, by decide⟩

end Gevulot.DistributorLock
