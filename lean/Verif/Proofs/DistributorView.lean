import Verif.Proofs.Distributor

namespace Gevulot
namespace DistributorModel
open Spec

/-! ### What each channel was sent -/

theorem view_snoc (ch : ChanId) (h : List Ev) (e : Ev) : view ch (h ++ [e]) = observe ch (view ch h) e := by
  simp [view]

theorem updates_snoc (h : List Ev) (e : Ev) : updates (h ++ [e]) = updates h ++ (match e with | .update c => [c] | _ => []) := by
  simp only [updates, List.filterMap_append]
  cases e <;> rfl

structure ViewInv (s : State) (ch : ChanId) : Prop where
  current : (view ch s.hist).current = s.lastConfig
  sub : (view ch s.hist).sub = if ch ∈ s.keys then some (s.checks ch) else none
  got : (∀ i, s.lock ≠ some (.monitor i)) → (view ch s.hist).got = s.delivered ch
  pending : ∀ i old new rem, s.mon i = .notifying old new rem →
    (view ch s.hist).got = s.delivered ch ++ (if ch ∈ rem ∧ wants (s.checks ch) old new then [new] else [])

theorem viewInv_init (caps : Nat → Nat) (ch : ChanId) : ViewInv (init caps) ch := by
  constructor <;> simp [init, view]

theorem viewInv_frame {s s' : State} {ch : ChanId} (h : ViewInv s ch) (h1 : s'.hist = s.hist) (h2 : s'.lastConfig = s.lastConfig)
    (h3 : s'.keys = s.keys) (h4 : s'.checks = s.checks) (h5 : s'.delivered ch = s.delivered ch)
    (h6 : (∀ i, s'.lock ≠ some (.monitor i)) → ∀ i, s.lock ≠ some (.monitor i))
    (h7 : ∀ i old new rem, s'.mon i = .notifying old new rem → s.mon i = .notifying old new rem) : ViewInv s' ch := by
  obtain ⟨g1, g2, g3, g4⟩ := h
  constructor
  · rw [h1, h2]; exact g1
  · rw [h1, h3, h4]; exact g2
  · rw [h1, h5]; exact fun h => g3 (h6 h)
  · rw [h1, h4, h5]; exact fun i old new rem h => g4 i old new rem (h7 i old new rem h)

/-- After a subscription was registered. -/
theorem viewInv_sub {s : State} {ch : ChanId} (hl : LockInv s) (h : ViewInv s ch) {t : Nat} {ch' : ChanId} {ks : List Check}
    (hpc : s.pc t = .subLocked ch' ks) (ds : ChanId → List Config) (f : Nat → UserChan) (p : Nat → PC)
    (hd : ∀ x, ds x = s.delivered x ++ (if x = ch' then (match s.lastConfig with
          | some c => if wants ks none c then [c] else []
          | none => []) else [])) :
    ViewInv (finishSubscribe { s with pc := p, chans := f, delivered := ds } t ch' ks) ch := by
  have hlk : s.lock = some (.thread t) := (hl.thread t).mpr (by rw [hpc]; rfl)
  have hm : ∀ i, (s.mon i).locked = false := by
    intro i
    have := hl.monitor i
    rw [hlk] at this
    simpa using this
  obtain ⟨g1, g2, g3, g4⟩ := h
  have g3 := g3 (by simp [hlk])
  rw [finishSubscribe_eq]
  constructor
  · simp only [view_snoc, observe]
    split <;> exact g1
  · simp only [view_snoc, observe, upd_apply]
    grind
  · intro _
    simp only [view_snoc, observe, hd]
    grind
  · intro i old new rem hi
    exfalso
    have := hm i
    simp only at hi
    split at hi
    · rw [hi] at this; simp [MonPC.locked] at this
    · rw [upd_apply] at hi
      split at hi
      · simp at hi
      · rw [hi] at this; simp [MonPC.locked] at this

/-- After a monitor visited a channel. -/
theorem viewInv_notify {s : State} {ch : ChanId} (hl : LockInv s) (h : ViewInv s ch) {i : Nat} {old : Option Config}
    {new : Config} {rem : List ChanId} (hi : s.mon i = .notifying old new rem) {x : ChanId} (hx : x ∈ rem)
    (ds : ChanId → List Config) (f : Nat → UserChan) (p : Nat → PC)
    (hd : ∀ y, ds y = s.delivered y ++ (if y = x ∧ wants (s.checks x) old new then [new] else [])) :
    ViewInv { s with pc := p, chans := f, delivered := ds, mon := upd s.mon i (.notifying old new (rem.filter (· ≠ x))) } ch := by
  have hlk : s.lock = some (.monitor i) := (hl.monitor i).mpr (by rw [hi]; rfl)
  have hm : ∀ j, j ≠ i → (s.mon j).locked = false := by
    intro j hj
    have := hl.monitor j
    rw [hlk] at this
    simp at this
    cases hlj : (s.mon j).locked with
    | false => rfl
    | true => exact absurd (this.mpr hlj).symm hj
  obtain ⟨g1, g2, g3, g4⟩ := h
  have g4 := g4 i old new rem hi
  constructor
  · exact g1
  · exact g2
  · intro h; exact absurd hlk (h i)
  · intro j old' new' rem' hj
    simp only [upd_apply] at hj
    split at hj
    · simp only [MonPC.notifying.injEq] at hj
      obtain ⟨rfl, rfl, rfl⟩ := hj
      simp only [g4, hd]
      by_cases hxc : ch = x
      · subst hxc
        simp [hx]
      · simp [hxc, List.mem_filter]
    · have := hm j ‹_›
      rw [hj] at this; simp [MonPC.locked] at this

/-- After a configuration became the current one. -/
theorem viewInv_update {s : State} {ch : ChanId} (hl : LockInv s) (h : ViewInv s ch) {i : Nat} {c : Config} (hlk : s.lock = none) :
    ViewInv { s with lock := some (.monitor i), lastConfig := some c, hist := s.hist ++ [.update c], mon := upd s.mon i (.notifying s.lastConfig c s.keys) } ch := by
  have hm : ∀ j, (s.mon j).locked = false := by
    intro j
    have := hl.monitor j
    rw [hlk] at this
    simpa using this
  obtain ⟨g1, g2, g3, g4⟩ := h
  have g3 := g3 (by simp [hlk])
  constructor
  · simp [view_snoc, observe]
  · simp only [view_snoc, observe]; exact g2
  · intro h; exact absurd rfl (h i)
  · intro j old' new' rem' hj
    simp only [upd_apply] at hj
    split at hj
    · simp only [MonPC.notifying.injEq] at hj
      obtain ⟨rfl, rfl, rfl⟩ := hj
      simp only [view_snoc, observe, g3, g2, g1]
      by_cases hk : ch ∈ s.keys <;> simp [hk]
    · have := hm j
      rw [hj] at this; simp [MonPC.locked] at this

/-- After a subscription was cancelled, or all of them. -/
theorem viewInv_cancel {s : State} {ch : ChanId} (hl : LockInv s) (h : ViewInv s ch) (hlk : s.lock = none) (e : Ev)
    (ks : List ChanId) (p : Nat → PC) (m : Nat → MonPC) (hm' : ∀ i old new rem, m i = .notifying old new rem → s.mon i = .notifying old new rem)
    (he : (∃ x, e = .unsubscribe x ∧ ks = s.keys.filter (· ≠ x)) ∨ (e = .closeAll ∧ ks = [])) :
    ViewInv { s with keys := ks, hist := s.hist ++ [e], pc := p, mon := m } ch := by
  have hm : ∀ j, (s.mon j).locked = false := by
    intro j
    have := hl.monitor j
    rw [hlk] at this
    simpa using this
  obtain ⟨g1, g2, g3, g4⟩ := h
  have g3 := g3 (by simp [hlk])
  constructor
  · simp only [view_snoc]
    rcases he with ⟨x, rfl, rfl⟩ | ⟨rfl, rfl⟩
    · simp only [observe]; split <;> exact g1
    · exact g1
  · simp only [view_snoc]
    rcases he with ⟨x, rfl, rfl⟩ | ⟨rfl, rfl⟩
    · simp only [observe]
      split
      · rename_i hx; simp [hx]
      · rename_i hx
        rw [g2]
        have : (ch ∈ s.keys.filter (· ≠ x)) ↔ ch ∈ s.keys := by simp [List.mem_filter]; intro _ h; exact hx h.symm
        simp only [this]
    · simp [observe]
  · intro _
    simp only [view_snoc]
    rcases he with ⟨x, rfl, rfl⟩ | ⟨rfl, rfl⟩
    · simp only [observe]; split <;> exact g3
    · exact g3
  · intro j old new rem hj
    have := hm j
    rw [hm' j old new rem hj] at this
    simp [MonPC.locked] at this

set_option maxHeartbeats 1000000 in
theorem viewInv_step {s s' : State} {a : Action} (ch : ChanId) (hl : LockInv s) (h : ViewInv s ch)
    (hs : step s a = some s') : ViewInv s' ch := by
  have nm : ∀ (i : Nat) (x : MonPC), (∀ old new rem, x ≠ .notifying old new rem) → ∀ j old new rem,
      upd s.mon i x j = .notifying old new rem → s.mon j = .notifying old new rem := by
    intro i x hx j old new rem hj
    rw [upd_apply] at hj
    split at hj
    · exact absurd hj (hx _ _ _)
    · exact hj
  obtain ⟨hnp, htr⟩ := step_tr hs
  clear hs
  cases htr with
  | subSent t n ks c f hpc hc hw hcl hf =>
    refine viewInv_sub hl h hpc _ _ _ ?_
    intro x; simp only [hc, hw, if_true, upd_apply]; split
    · rename_i hx; rw [hx]
    · simp
  | subSentGetter t t' ks c hpc hc hw hsel =>
    refine viewInv_sub hl h hpc _ _ _ ?_
    intro x; simp only [hc, hw, if_true, upd_apply]; split
    · rename_i hx; rw [hx]
    · simp
  | subSilent t n ks hpc hc =>
    refine viewInv_sub hl h hpc s.delivered s.chans s.pc ?_
    intro x; cases hl : s.lastConfig with
    | none => simp
    | some c => simp [hc c hl]
  | subSilentGetter t t' ks hpc hc =>
    refine viewInv_sub hl h hpc s.delivered s.chans s.pc ?_
    intro x; cases hl : s.lastConfig with
    | none => simp
    | some c => simp [hc c hl]
  | getUnsub t r hpc hlk => exact viewInv_cancel hl h hlk _ _ _ s.mon (fun _ _ _ _ h => h) (.inl ⟨_, rfl, rfl⟩)
  | unsub t n hpc hlk => exact viewInv_cancel hl h hlk _ _ _ s.mon (fun _ _ _ _ h => h) (.inl ⟨_, rfl, rfl⟩)
  | closeLock t hpc hlk => exact viewInv_cancel hl h hlk _ _ _ s.mon (fun _ _ _ _ h => h) (.inr ⟨rfl, rfl⟩)
  | monClose i hi hlk => exact viewInv_cancel hl h hlk _ _ s.pc _ (nm i _ (by simp)) (.inr ⟨rfl, rfl⟩)
  | monUpdate i c hi hlk => exact viewInv_update hl h hlk
  | notify i n old new rem f hi hm hw hcl hf =>
    refine viewInv_notify hl h hi hm _ f s.pc ?_
    intro y; simp only [hw, and_true, upd_apply]; split
    · rename_i hx; rw [hx]
    · simp
  | notifyGetter i t old new rem hi hm hw hsel =>
    refine viewInv_notify hl h hi hm _ s.chans _ ?_
    intro y; simp only [hw, and_true, upd_apply]; split
    · rename_i hx; rw [hx]
    · simp
  | notifySkip i x old new rem hi hm hw =>
    refine viewInv_notify hl h hi hm s.delivered s.chans s.pc ?_
    intro y; simp [hw]
  | monUnlock i old new hi =>
    have hlk : s.lock = some (.monitor i) := (hl.monitor i).mpr (by rw [hi]; rfl)
    refine ⟨h.current, h.sub, fun _ => ?_, fun j old' new' rem' hj => h.pending j _ _ _ (nm i .select (by simp) j _ _ _ hj)⟩
    have := h.pending i old new [] hi
    simpa using this
  | subLock t ch' ks hpc hlk =>
    exact viewInv_frame h rfl rfl rfl rfl rfl (by simp [hlk]) (fun _ _ _ _ h => h)
  | monTake i c rest hi hsrc => exact viewInv_frame h rfl rfl rfl rfl rfl id (nm i _ (by simp))
  | monEndAgain i hi hsrc he hc => exact viewInv_frame h rfl rfl rfl rfl rfl id (nm i _ (by simp))
  | monEnd i hi hsrc he hc => exact viewInv_frame h rfl rfl rfl rfl rfl id (nm i _ (by simp))
  | monDone i hi hc => exact viewInv_frame h rfl rfl rfl rfl rfl id (nm i _ (by simp))
  | _ => exact viewInv_frame h rfl rfl rfl rfl rfl id (fun _ _ _ _ h => h)

/-! ### Where the configurations come from -/

def MonPC.inflight : MonPC → List Config
  | .gotten c => [c]
  | _ => []

structure SourceInv (s : State) : Prop where
  produced : s.produced = updates s.hist ++ (s.mon 0).inflight ++ s.source
  last : s.lastConfig = (updates s.hist).getLast?

theorem sourceInv_init (caps : Nat → Nat) : SourceInv (init caps) := by
  constructor <;> simp [init, updates, MonPC.inflight]

theorem sourceInv_step {s s' : State} {a : Action} (hl : LockInv s) (h : SourceInv s)
    (hs : step s a = some s') : SourceInv s' := by
  obtain ⟨h1, h2⟩ := h
  have l3 := hl.count
  have l4 := hl.mons
  have hz : ∀ i, s.mon i ≠ .notStarted → i = 0 := by
    intro i hi
    have := (l4 i).mp hi
    split at l3 <;> omega
  have hn : s.started = false → s.mon 0 = .notStarted := by
    intro hst
    rw [hst] at l3
    have := l4 0
    rw [l3] at this
    simpa using this
  have hif : ((if s.started then s.mon else upd s.mon s.monCount .select) 0).inflight = (s.mon 0).inflight := by
    cases hst : s.started with
    | true => simp
    | false =>
      rw [hn hst]
      simp only [Bool.false_eq_true, if_false, upd_apply]
      split
      · rfl
      · rw [hn hst]
  clear hl l3 l4
  dist_cases hs <;> constructor <;> grind [upd_apply, updates_snoc, MonPC.inflight, List.getLast?_append]

end DistributorModel
end Gevulot
