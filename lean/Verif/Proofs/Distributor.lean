import Verif.Spec.Distributor
import Verif.Proofs.Trans

namespace Gevulot
namespace DistributorModel

theorem shouldSend_eq (ks : List Check) (old : Option Config) (new : Config) :
    shouldSend ks old new = decide (Spec.wants ks old new) := by
  unfold shouldSend Spec.wants
  cases ks with
  | nil => simp
  | cons k ks => simp; rw [Bool.eq_iff_iff]; simp

theorem send_cases {s s1 : State} {ch : ChanId} {c : Config} (h : send s ch c = some s1) :
    (s1 = { s with panicked := true } ∧ ((∃ n, ch = .user n ∧ (s.chans n).closed = true) ∨ ∃ t r, ch = .getter t ∧ s.pc t = .returned r)) ∨
    (∃ n f, ch = .user n ∧ (s.chans n).closed = false ∧ (∀ n, (f n).closed = (s.chans n).closed) ∧
      s1 = { s with chans := f, delivered := upd s.delivered ch (s.delivered ch ++ [c]) }) ∨
    (∃ t, ch = .getter t ∧ s.pc t = .getSelect ∧
      s1 = { s with pc := upd s.pc t (.getUnsub (.config c)), delivered := upd s.delivered ch (s.delivered ch ++ [c]) }) := by
  unfold send at h
  split at h
  · rename_i n
    split at h
    · simp only [Option.some.injEq] at h
      exact .inl ⟨h.symm, .inl ⟨n, rfl, ‹_›⟩⟩
    · rename_i hc
      split at h
      · simp only [Option.some.injEq] at h
        refine .inr (.inl ⟨n, _, rfl, by simpa using hc, ?_, h.symm⟩)
        grind [upd_apply]
      · split at h
        · simp only [Option.some.injEq] at h
          refine .inr (.inl ⟨n, _, rfl, by simpa using hc, ?_, h.symm⟩)
          grind [upd_apply]
        · simp at h
  · rename_i t
    split at h
    · simp only [Option.some.injEq] at h
      exact .inr (.inr ⟨t, rfl, ‹_›, h.symm⟩)
    · simp only [Option.some.injEq] at h
      exact .inl ⟨h.symm, .inr ⟨t, _, rfl, ‹_›⟩⟩
    · simp at h

theorem finishSubscribe_eq (s : State) (t : Nat) (ch : ChanId) (ks : List Check) : finishSubscribe s t ch ks =
    { s with lock := none, pc := upd s.pc t (afterSubscribe ch), started := true, mon := if s.started then s.mon else upd s.mon s.monCount .select, monCount := if s.started then s.monCount else s.monCount + 1, keys := if ch ∈ s.keys then s.keys else ch :: s.keys, checks := upd s.checks ch ks, hist := s.hist ++ [.subscribe ch ks] } := by
  cases hst : s.started <;> simp [finishSubscribe, startMonitor, register, hst]

/-- The transitions, one by one. -/
inductive Tr (s : State) : Action → State → Prop where
  | produce (c) (h : s.sourceClosed = false) : Tr s (.produce c) { s with source := s.source ++ [c], produced := s.produced ++ [c] }
  | closeSource (h : s.sourceClosed = false) : Tr s .closeSource { s with sourceClosed := true }
  | callGet (t) (h : s.pc t = .idle) : Tr s (.call t .get) { s with pc := upd s.pc t .getEnter }
  | callSub (t n ks) (h : s.pc t = .idle) : Tr s (.call t (.subscribe n ks)) { s with pc := upd s.pc t (.subCheck (.user n) ks) }
  | callUnsub (t n) (h : s.pc t = .idle) : Tr s (.call t (.unsubscribe n)) { s with pc := upd s.pc t (.unsubLock n) }
  | callClose (t) (h : s.pc t = .idle) : Tr s (.call t .close) { s with pc := upd s.pc t .closeFire }
  | getClosed (t) (h : s.pc t = .getEnter) (hc : s.closed = true) : Tr s (.thread t) { s with pc := upd s.pc t (.returned .errClosed) }
  | getOpen (t) (h : s.pc t = .getEnter) (hc : s.closed = false) : Tr s (.thread t) { s with pc := upd s.pc t .getSnapshot }
  | getCached (t c) (h : s.pc t = .getSnapshot) (hl : s.lock = none) (hc : s.lastConfig = some c) : Tr s (.thread t) { s with pc := upd s.pc t (.returned (.config c)) }
  | getWait (t) (h : s.pc t = .getSnapshot) (hl : s.lock = none) (hc : s.lastConfig = none) : Tr s (.thread t) { s with pc := upd s.pc t (.subCheck (.getter t) []) }
  | subClosed (t ch ks) (h : s.pc t = .subCheck ch ks) (hc : s.closed = true) : Tr s (.thread t) { s with pc := upd s.pc t (.returned .errClosed) }
  | subOpen (t ch ks) (h : s.pc t = .subCheck ch ks) (hc : s.closed = false) : Tr s (.thread t) { s with pc := upd s.pc t (.subLock ch ks) }
  | subLock (t ch ks) (h : s.pc t = .subLock ch ks) (hl : s.lock = none) : Tr s (.thread t) { s with lock := some (.thread t), pc := upd s.pc t (.subLocked ch ks) }
  | subPanic (t ch ks c) (h : s.pc t = .subLocked ch ks) (hc : s.lastConfig = some c) (hw : Spec.wants ks none c) (hp : (∃ n, ch = .user n ∧ (s.chans n).closed = true) ∨ ∃ t r, ch = .getter t ∧ s.pc t = .returned r) : Tr s (.thread t) { s with panicked := true }
  | subSent (t n ks c f) (h : s.pc t = .subLocked (.user n) ks) (hc : s.lastConfig = some c) (hw : Spec.wants ks none c) (hcl : (s.chans n).closed = false) (hf : ∀ n, (f n).closed = (s.chans n).closed) : Tr s (.thread t) (finishSubscribe { s with chans := f, delivered := upd s.delivered (.user n) (s.delivered (.user n) ++ [c]) } t (.user n) ks)
  | subSentGetter (t t' ks c) (h : s.pc t = .subLocked (.getter t') ks) (hc : s.lastConfig = some c) (hw : Spec.wants ks none c) (hsel : s.pc t' = .getSelect) : Tr s (.thread t) (finishSubscribe { s with pc := upd s.pc t' (.getUnsub (.config c)), delivered := upd s.delivered (.getter t') (s.delivered (.getter t') ++ [c]) } t (.getter t') ks)
  | subSilent (t n ks) (h : s.pc t = .subLocked (.user n) ks) (hc : ∀ c, s.lastConfig = some c → ¬ Spec.wants ks none c) : Tr s (.thread t) (finishSubscribe s t (.user n) ks)
  | subSilentGetter (t t' ks) (h : s.pc t = .subLocked (.getter t') ks) (hc : ∀ c, s.lastConfig = some c → ¬ Spec.wants ks none c) : Tr s (.thread t) (finishSubscribe s t (.getter t') ks)
  | getUnsub (t r) (h : s.pc t = .getUnsub r) (hl : s.lock = none) : Tr s (.thread t) { s with keys := s.keys.filter (· ≠ .getter t), hist := s.hist ++ [.unsubscribe (.getter t)], pc := upd s.pc t (.returned r) }
  | unsub (t n) (h : s.pc t = .unsubLock n) (hl : s.lock = none) : Tr s (.thread t) { s with keys := s.keys.filter (· ≠ .user n), hist := s.hist ++ [.unsubscribe (.user n)], pc := upd s.pc t (.returned .ok) }
  | closeAgain (t) (h : s.pc t = .closeFire) (hc : s.closed = true) : Tr s (.thread t) { s with pc := upd s.pc t (.returned .ok) }
  | closeFire (t) (h : s.pc t = .closeFire) (hc : s.closed = false) : Tr s (.thread t) { s with closed := true, pc := upd s.pc t .closeLock }
  | closeLock (t) (h : s.pc t = .closeLock) (hl : s.lock = none) : Tr s (.thread t) { s with keys := [], hist := s.hist ++ [.closeAll], pc := upd s.pc t (.returned .ok) }
  | cancel (t) (h : s.pc t = .getSelect) (hc : s.closed = true) : Tr s (.cancel t) { s with pc := upd s.pc t (.getUnsub .errClosed) }
  | monTake (i c rest) (h : s.mon i = .select) (hsrc : s.source = c :: rest) : Tr s (.monTake i) { s with source := rest, mon := upd s.mon i (.gotten c) }
  | monEndAgain (i) (h : s.mon i = .select) (hsrc : s.source = []) (he : s.sourceClosed = true) (hc : s.closed = true) : Tr s (.monTake i) { s with mon := upd s.mon i .exited }
  | monEnd (i) (h : s.mon i = .select) (hsrc : s.source = []) (he : s.sourceClosed = true) (hc : s.closed = false) : Tr s (.monTake i) { s with closed := true, mon := upd s.mon i .closeLock }
  | monDone (i) (h : s.mon i = .select) (hc : s.closed = true) : Tr s (.monDone i) { s with mon := upd s.mon i .exited }
  | monUpdate (i c) (h : s.mon i = .gotten c) (hl : s.lock = none) : Tr s (.monLock i) { s with lock := some (.monitor i), lastConfig := some c, hist := s.hist ++ [.update c], mon := upd s.mon i (.notifying s.lastConfig c s.keys) }
  | monUnlock (i old new) (h : s.mon i = .notifying old new []) : Tr s (.monLock i) { s with lock := none, mon := upd s.mon i .select }
  | monClose (i) (h : s.mon i = .closeLock) (hl : s.lock = none) : Tr s (.monLock i) { s with keys := [], hist := s.hist ++ [.closeAll], mon := upd s.mon i .exited }
  | notifyPanic (i ch old new rem) (h : s.mon i = .notifying old new rem) (hm : ch ∈ rem) (hw : Spec.wants (s.checks ch) old new) (hp : (∃ n, ch = .user n ∧ (s.chans n).closed = true) ∨ ∃ t r, ch = .getter t ∧ s.pc t = .returned r) : Tr s (.monNotify i ch) { s with panicked := true }
  | notify (i n old new rem f) (h : s.mon i = .notifying old new rem) (hm : .user n ∈ rem) (hw : Spec.wants (s.checks (.user n)) old new) (hcl : (s.chans n).closed = false) (hf : ∀ n, (f n).closed = (s.chans n).closed) : Tr s (.monNotify i (.user n)) { s with chans := f, delivered := upd s.delivered (.user n) (s.delivered (.user n) ++ [new]), mon := upd s.mon i (.notifying old new (rem.filter (· ≠ .user n))) }
  | notifyGetter (i t old new rem) (h : s.mon i = .notifying old new rem) (hm : .getter t ∈ rem) (hw : Spec.wants (s.checks (.getter t)) old new) (hsel : s.pc t = .getSelect) : Tr s (.monNotify i (.getter t)) { s with pc := upd s.pc t (.getUnsub (.config new)), delivered := upd s.delivered (.getter t) (s.delivered (.getter t) ++ [new]), mon := upd s.mon i (.notifying old new (rem.filter (· ≠ .getter t))) }
  | notifySkip (i ch old new rem) (h : s.mon i = .notifying old new rem) (hm : ch ∈ rem) (hw : ¬ Spec.wants (s.checks ch) old new) : Tr s (.monNotify i ch) { s with mon := upd s.mon i (.notifying old new (rem.filter (· ≠ ch))) }
  | userChan (a f) (ha : ∃ n, a = .userRecv n ∨ a = .userLeave n) (hf : ∀ n, (f n).closed = (s.chans n).closed) : Tr s a { s with chans := f }
  | userClose (n f) (hf : ∀ m, (f m).closed = (if m = n then true else (s.chans m).closed)) : Tr s (.userClose n) { s with chans := f }
  | userCloseAgain (n) (h : (s.chans n).closed = true) : Tr s (.userClose n) { s with panicked := true }

theorem Tr.silent {s : State} (t ch ks) (h : s.pc t = .subLocked ch ks)
    (hc : ∀ c, s.lastConfig = some c → ¬ Spec.wants ks none c) : Tr s (.thread t) (finishSubscribe s t ch ks) := by
  cases ch with
  | user n => exact .subSilent t n ks h hc
  | getter t' => exact .subSilentGetter t t' ks h hc

theorem step_tr {s s' : State} {a : Action} (hs : step s a = some s') : s.panicked = false ∧ Tr s a s' := by
  unfold step at hs
  split at hs
  · simp at hs
  rename_i hp
  refine ⟨by simpa using hp, ?_⟩
  have keep : ∀ (x : UserChan) n, x.closed = (s.chans n).closed → ∀ m, (upd s.chans n x m).closed = (s.chans m).closed := by
    intro x n hx m
    rw [upd_apply]; split
    · rename_i h; rw [h, hx]
    · rfl
  cases a with
  | produce c => simp only at hs; split at hs <;> simp only [Option.some.injEq, reduceCtorEq] at hs; subst hs; exact .produce _ (eq_false_of_ne_true ‹_›)
  | closeSource => simp only at hs; split at hs <;> simp only [Option.some.injEq, reduceCtorEq] at hs; subst hs; exact .closeSource (eq_false_of_ne_true ‹_›)
  | call t op =>
    simp only at hs
    split at hs
    · split at hs <;> simp only [Option.some.injEq] at hs <;> subst hs
      · exact .callGet t ‹_›
      · exact .callSub t _ _ ‹_›
      · exact .callUnsub t _ ‹_›
      · exact .callClose t ‹_›
    · simp at hs
  | thread t =>
    simp only at hs
    split at hs
    · simp only [Option.some.injEq] at hs; subst hs
      split
      · exact .getClosed t ‹_› ‹_›
      · exact .getOpen t ‹_› (eq_false_of_ne_true ‹_›)
    · split at hs
      · split at hs <;> simp only [Option.some.injEq] at hs <;> subst hs
        · exact .getCached t _ ‹_› ‹_› ‹_›
        · exact .getWait t ‹_› ‹_› ‹_›
      · simp at hs
    · simp only [Option.some.injEq] at hs; subst hs
      split
      · exact .subClosed t _ _ ‹_› ‹_›
      · exact .subOpen t _ _ ‹_› (eq_false_of_ne_true ‹_›)
    · split at hs
      · simp only [Option.some.injEq] at hs; subst hs
        exact .subLock t _ _ ‹_› ‹_›
      · simp at hs
    · rename_i ch ks hpc
      split at hs
      · rename_i c hc
        split at hs
        · rename_i hw
          rw [shouldSend_eq] at hw
          have hw := of_decide_eq_true hw
          split at hs
          · simp at hs
          · rename_i s1 h1
            rcases send_cases h1 with ⟨rfl, hcl⟩ | ⟨n, f, rfl, h2, h3, rfl⟩ | ⟨t', rfl, h2, rfl⟩
            · rw [if_pos rfl] at hs
              simp only [Option.some.injEq] at hs; subst hs
              exact .subPanic t ch ks c hpc hc hw hcl
            · rw [if_neg hp] at hs
              simp only [Option.some.injEq] at hs; subst hs
              exact .subSent t n ks c f hpc hc hw h2 h3
            · rw [if_neg hp] at hs
              simp only [Option.some.injEq] at hs; subst hs
              exact .subSentGetter t t' ks c hpc hc hw h2
        · rename_i hw
          rw [shouldSend_eq] at hw
          simp only [Option.some.injEq] at hs; subst hs
          refine .silent t ch ks hpc ?_
          intro c' hc'
          rw [hc] at hc'
          simp only [Option.some.injEq] at hc'; subst hc'
          simpa using hw
      · simp only [Option.some.injEq] at hs; subst hs
        refine .silent t ch ks hpc ?_
        intro c' hc'
        simp_all
    · split at hs
      · simp only [Option.some.injEq] at hs; subst hs
        exact .getUnsub t _ ‹_› ‹_›
      · simp at hs
    · split at hs
      · simp only [Option.some.injEq] at hs; subst hs
        exact .unsub t _ ‹_› ‹_›
      · simp at hs
    · split at hs <;> simp only [Option.some.injEq] at hs <;> subst hs
      · exact .closeAgain t ‹_› ‹_›
      · exact .closeFire t ‹_› (eq_false_of_ne_true ‹_›)
    · split at hs
      · simp only [Option.some.injEq] at hs; subst hs
        exact .closeLock t ‹_› ‹_›
      · simp at hs
    · simp at hs
  | cancel t =>
    simp only at hs
    split at hs
    · split at hs
      · simp only [Option.some.injEq] at hs; subst hs
        exact .cancel t ‹_› ‹_›
      · simp at hs
    · simp at hs
  | monTake i =>
    simp only at hs
    split at hs
    · split at hs
      · simp only [Option.some.injEq] at hs; subst hs
        exact .monTake i _ _ ‹_› ‹_›
      · split at hs
        · split at hs <;> simp only [Option.some.injEq] at hs <;> subst hs
          · exact .monEndAgain i ‹_› ‹_› ‹_› ‹_›
          · exact .monEnd i ‹_› ‹_› ‹_› (eq_false_of_ne_true ‹_›)
        · simp at hs
    · simp at hs
  | monDone i =>
    simp only at hs
    split at hs
    · split at hs
      · simp only [Option.some.injEq] at hs; subst hs
        exact .monDone i ‹_› ‹_›
      · simp at hs
    · simp at hs
  | monLock i =>
    simp only at hs
    split at hs
    · split at hs
      · simp only [Option.some.injEq] at hs; subst hs
        exact .monUpdate i _ ‹_› ‹_›
      · simp at hs
    · simp only [Option.some.injEq] at hs; subst hs
      exact .monUnlock i _ _ ‹_›
    · split at hs
      · simp only [Option.some.injEq] at hs; subst hs
        exact .monClose i ‹_› ‹_›
      · simp at hs
    · simp at hs
  | monNotify i ch =>
    simp only at hs
    split at hs
    · rename_i old new rem hm
      split at hs
      · rename_i hin
        split at hs
        · rename_i hw
          rw [shouldSend_eq] at hw
          have hw := of_decide_eq_true hw
          split at hs
          · simp at hs
          · rename_i s1 h1
            rcases send_cases h1 with ⟨rfl, hcl⟩ | ⟨n, f, rfl, h2, h3, rfl⟩ | ⟨t', rfl, h2, rfl⟩
            · rw [if_pos rfl] at hs
              simp only [Option.some.injEq] at hs; subst hs
              exact .notifyPanic i ch old new rem hm hin hw hcl
            · rw [if_neg hp] at hs
              simp only [Option.some.injEq] at hs; subst hs
              exact .notify i n old new rem f hm hin hw h2 h3
            · rw [if_neg hp] at hs
              simp only [Option.some.injEq] at hs; subst hs
              exact .notifyGetter i t' old new rem hm hin hw h2
        · rename_i hw
          rw [shouldSend_eq] at hw
          simp only [Option.some.injEq] at hs; subst hs
          exact .notifySkip i ch old new rem hm hin (by simpa using hw)
      · simp at hs
    · simp at hs
  | userRecv n =>
    simp only at hs
    split at hs
    · simp only [Option.some.injEq] at hs; subst hs
      exact .userChan _ _ ⟨n, .inl rfl⟩ (keep _ n rfl)
    · split at hs <;> simp only [Option.some.injEq] at hs <;> subst hs
      · exact .userChan _ s.chans ⟨n, .inl rfl⟩ (fun _ => rfl)
      · exact .userChan _ _ ⟨n, .inl rfl⟩ (keep _ n rfl)
  | userLeave n =>
    simp only at hs
    split at hs
    · simp only [Option.some.injEq] at hs; subst hs
      exact .userChan _ _ ⟨n, .inr rfl⟩ (keep _ n rfl)
    · simp at hs
  | userClose n =>
    simp only at hs
    split at hs <;> simp only [Option.some.injEq] at hs <;> subst hs
    · exact .userCloseAgain n ‹_›
    · refine .userClose n _ ?_
      intro m
      rw [upd_apply]; split <;> rfl

/-- Case distinction over the transitions. -/
macro "dist_cases" hs:ident : tactic => `(tactic| (
  obtain ⟨hnp, htr⟩ := step_tr $hs
  clear $hs:ident
  cases htr <;> (try simp only [finishSubscribe_eq])))

/-! ### The lock and the goroutines -/

def PC.locked : PC → Bool
  | .subLocked _ _ => true
  | _ => false

def MonPC.locked : MonPC → Bool
  | .notifying _ _ _ => true
  | _ => false

/-- The channel that a `Subscribe` in progress is for. -/
def PC.sub : PC → Option ChanId
  | .subCheck ch _ => some ch
  | .subLock ch _ => some ch
  | .subLocked ch _ => some ch
  | _ => none

/-- The call is a `Get` that is subscribed. -/
def PC.waits : PC → Bool
  | .getSelect => true
  | .getUnsub _ => true
  | _ => false

structure LockInv (s : State) : Prop where
  thread : ∀ t, s.lock = some (.thread t) ↔ (s.pc t).locked = true
  monitor : ∀ i, s.lock = some (.monitor i) ↔ (s.mon i).locked = true
  count : s.monCount = if s.started then 1 else 0
  mons : ∀ i, s.mon i ≠ .notStarted ↔ i < s.monCount
  exited : ∀ i, s.mon i = .exited ∨ s.mon i = .closeLock → s.closed = true
  own : ∀ t t', (s.pc t).sub = some (.getter t') → t' = t
  getterKeys : ∀ t, .getter t ∈ s.keys → (s.pc t).waits = true
  remaining : ∀ i old new rem, s.mon i = .notifying old new rem → (∀ ch ∈ rem, ch ∈ s.keys) ∧ s.lastConfig = some new
  closing : ∀ t, s.pc t = .closeLock → s.closed = true

theorem lockInv_init (caps : Nat → Nat) : LockInv (init caps) := by
  constructor <;> simp [init, PC.locked, MonPC.locked, PC.sub]

set_option maxHeartbeats 1000000 in
theorem lockInv_step {s s' : State} {a : Action} (h : LockInv s) (hs : step s a = some s') : LockInv s' := by
  obtain ⟨h1, h2, h3, h4, h5, h6, h7, h8, h9⟩ := h
  dist_cases hs <;> constructor <;>
    grind [upd_apply, PC.locked, MonPC.locked, PC.sub, PC.waits, afterSubscribe]

end DistributorModel
end Gevulot
