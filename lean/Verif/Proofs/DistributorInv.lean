import Verif.Proofs.DistributorView

/-!
The rest of what is always true of the distributor, and facts about executions that start in any state.
-/

namespace Gevulot
namespace DistributorModel
open Spec

/-! ### Calls of `Get` subscribe without checks; panics -/

def PC.subChecks : PC → List Check
  | .subCheck _ ks => ks
  | .subLock _ ks => ks
  | .subLocked _ ks => ks
  | _ => []

structure GetterInv (s : State) : Prop where
  noChecks : ∀ t t', (s.pc t).sub = some (.getter t') → (s.pc t).subChecks = []
  keyChecks : ∀ t, .getter t ∈ s.keys → s.checks (.getter t) = []
  panic : s.panicked = true → ∃ n, (s.chans n).closed = true

theorem getterInv_init (caps : Nat → Nat) : GetterInv (init caps) := by
  constructor <;> simp [init, PC.sub]

set_option maxHeartbeats 1000000 in
theorem getterInv_step {s s' : State} {a : Action} (hl : LockInv s) (h : GetterInv s) (hs : step s a = some s') : GetterInv s' := by
  obtain ⟨h1, h2, h3⟩ := h
  have l6 := hl.own
  have l7 := hl.getterKeys
  have l8 := hl.remaining
  clear hl
  dist_cases hs <;> constructor <;>
    grind [upd_apply, PC.sub, PC.subChecks, PC.waits, afterSubscribe]

/-! ### Together -/

structure Inv (s : State) : Prop where
  lock : LockInv s
  views : ∀ ch, ViewInv s ch
  src : SourceInv s
  getter : GetterInv s

theorem inv_init (caps : Nat → Nat) : Inv (init caps) :=
  ⟨lockInv_init _, viewInv_init _, sourceInv_init _, getterInv_init _⟩

theorem inv_step {s s' : State} {a : Action} (h : Inv s) (hs : step s a = some s') : Inv s' :=
  ⟨lockInv_step h.lock hs, fun ch => viewInv_step ch h.lock (h.views ch) hs, sourceInv_step h.lock h.src hs,
    getterInv_step h.lock h.getter hs⟩

theorem inv_of_reachable {caps : Nat → Nat} {s : State} (h : Reachable step (init caps) s) : Inv s :=
  h.invariant Inv (inv_init caps) (fun _ _ _ h hs => inv_step h hs)

/-! ### Histories grow -/

theorem hist_grows {s s' : State} {a : Action} (hs : step s a = some s') : ∃ h, s'.hist = s.hist ++ h := by
  dist_cases hs <;> first | exact ⟨[], (List.append_nil _).symm⟩ | exact ⟨_, rfl⟩

theorem produced_grows {s s' : State} {a : Action} (hs : step s a = some s') : ∃ h, s'.produced = s.produced ++ h := by
  dist_cases hs <;> first | exact ⟨[], (List.append_nil _).symm⟩ | exact ⟨_, rfl⟩

theorem updates_append (h1 h2 : List Ev) : updates (h1 ++ h2) = updates h1 ++ updates h2 := by
  simp [updates]

/-! ### What `Get` returns -/

def Ret.result : Ret → Option Config
  | .config c => some c
  | _ => none

def PC.result : PC → Option Config
  | .getUnsub r => r.result
  | .returned r => r.result
  | _ => none

/-- A call that has not got its result by the time `n` updates have happened gets one of the later ones, or the last. -/
structure Fresh (n : Nat) (t : Nat) (s : State) : Prop where
  len : n ≤ (updates s.hist).length
  fresh : ∀ c, (s.pc t).result = some c → ∃ k, (updates s.hist)[k]? = some c ∧ n ≤ k + 1

theorem fresh_step {n t : Nat} {s s' : State} {a : Action} (hi : Inv s) (h : Fresh n t s) (hs : step s a = some s') :
    Fresh n t s' := by
  obtain ⟨h1, h2⟩ := h
  obtain ⟨x, hx⟩ := hist_grows hs
  refine ⟨by rw [hx, updates_append, List.length_append]; omega, ?_⟩
  have mono : ∀ c, (∃ k, (updates s.hist)[k]? = some c ∧ n ≤ k + 1) → ∃ k, (updates s'.hist)[k]? = some c ∧ n ≤ k + 1 := by
    rintro c ⟨k, hk, hn⟩
    refine ⟨k, ?_, hn⟩
    rw [hx, updates_append]
    rw [List.getElem?_append_left]
    · exact hk
    · exact (List.getElem?_eq_some_iff.mp hk).1
  have last : ∀ c, s.lastConfig = some c → ∃ k, (updates s.hist)[k]? = some c ∧ n ≤ k + 1 := by
    intro c hc
    rw [hi.src.last, List.getLast?_eq_getElem?] at hc
    refine ⟨_, hc, ?_⟩
    have := (List.getElem?_eq_some_iff.mp hc).1
    omega
  have l8 := hi.lock.remaining
  intro c hc
  apply mono
  by_cases hold : (s.pc t).result = some c
  · exact h2 c hold
  apply last
  clear mono last h2 hi h1 hx
  revert hc
  dist_cases hs <;> grind [upd_apply, PC.result, Ret.result, afterSubscribe]

/-- Everything that was sent or returned was the current configuration before. -/
structure Seen (s : State) : Prop where
  delivered : ∀ ch, ∀ c ∈ s.delivered ch, c ∈ updates s.hist
  returned : ∀ t c, (s.pc t).result = some c → c ∈ updates s.hist

theorem seen_init (caps : Nat → Nat) : Seen (init caps) := by
  constructor <;> simp [init, PC.result]

theorem seen_step {s s' : State} {a : Action} (hi : Inv s) (h : Seen s) (hs : step s a = some s') : Seen s' := by
  obtain ⟨h1, h2⟩ := h
  have last : ∀ c, s.lastConfig = some c → c ∈ updates s.hist := by
    intro c hc
    rw [hi.src.last] at hc
    exact List.mem_of_getLast? hc
  obtain ⟨x, hx⟩ := hist_grows hs
  have mono : ∀ c, c ∈ updates s.hist → c ∈ updates s'.hist := by
    intro c hc
    rw [hx, updates_append]
    exact List.mem_append_left _ hc
  have l8 := hi.lock.remaining
  constructor
  · intro ch c hc
    apply mono
    by_cases hold : c ∈ s.delivered ch
    · exact h1 ch c hold
    apply last
    clear mono last h2 h1 hi hx
    revert hc
    dist_cases hs <;> grind [upd_apply]
  · intro t c hc
    apply mono
    by_cases hold : (s.pc t).result = some c
    · exact h2 t c hold
    apply last
    clear mono last h2 h1 hi hx
    revert hc
    dist_cases hs <;> grind [upd_apply, PC.result, Ret.result, afterSubscribe]

theorem seen_of_reachable {caps : Nat → Nat} {s : State} (h : Reachable step (init caps) s) : Seen s := by
  have : Inv s ∧ Seen s := h.invariant (fun s => Inv s ∧ Seen s) ⟨inv_init caps, seen_init caps⟩
    (fun _ _ _ h hs => ⟨inv_step h.1 hs, seen_step h.1 h.2 hs⟩)
  exact this.2

/-! ### What calls do to the history -/

/-- The call of `Subscribe` by `t` is in progress, has failed, or has been recorded since `h0`. -/
inductive SubCall (t n : Nat) (ks : List Check) (h0 : List Ev) (s : State) : Prop where
  | check (h : s.pc t = .subCheck (.user n) ks)
  | lock (h : s.pc t = .subLock (.user n) ks)
  | locked (h : s.pc t = .subLocked (.user n) ks)
  | failed (h : s.pc t = .returned .errClosed)
  | done (h : s.pc t = .returned .ok) (x y : List Ev) (hh : s.hist = h0 ++ x ++ .subscribe (.user n) ks :: y)

theorem subCall_step {t n : Nat} {ks : List Check} {h0 : List Ev} {s s' : State} {a : Action}
    (hg : ∃ x, s.hist = h0 ++ x) (h : SubCall t n ks h0 s) (hs : step s a = some s') : SubCall t n ks h0 s' := by
  obtain ⟨x, hx⟩ := hg
  cases h with
  | done h x y hh =>
    obtain ⟨z, hz⟩ := hist_grows hs
    refine .done ?_ x (y ++ z) (by rw [hz, hh]; simp)
    clear hz hh hx
    dist_cases hs <;> grind [upd_apply]
  | check h =>
    have : s'.pc t = .subCheck (.user n) ks ∨ s'.pc t = .subLock (.user n) ks ∨ s'.pc t = .returned .errClosed := by
      dist_cases hs <;> grind [upd_apply]
    rcases this with h | h | h
    · exact .check h
    · exact .lock h
    · exact .failed h
  | lock h =>
    have : s'.pc t = .subLock (.user n) ks ∨ s'.pc t = .subLocked (.user n) ks := by
      dist_cases hs <;> grind [upd_apply]
    rcases this with h | h
    · exact .lock h
    · exact .locked h
  | locked h =>
    have : s'.pc t = .subLocked (.user n) ks ∨ (s'.pc t = .returned .ok ∧ s'.hist = s.hist ++ [.subscribe (.user n) ks]) := by
      dist_cases hs <;> grind [upd_apply, afterSubscribe]
    rcases this with h | ⟨h, h'⟩
    · exact .locked h
    · exact .done h x [] (by rw [h', hx])
  | failed h =>
    refine .failed ?_
    dist_cases hs <;> grind [upd_apply]

/-- The same for `Unsubscribe`. -/
inductive UnsubCall (t n : Nat) (h0 : List Ev) (s : State) : Prop where
  | lock (h : s.pc t = .unsubLock n)
  | done (h : s.pc t = .returned .ok) (x y : List Ev) (hh : s.hist = h0 ++ x ++ .unsubscribe (.user n) :: y)

theorem unsubCall_step {t n : Nat} {h0 : List Ev} {s s' : State} {a : Action}
    (hg : ∃ x, s.hist = h0 ++ x) (h : UnsubCall t n h0 s) (hs : step s a = some s') : UnsubCall t n h0 s' := by
  obtain ⟨x, hx⟩ := hg
  cases h with
  | done h x y hh =>
    obtain ⟨z, hz⟩ := hist_grows hs
    refine .done ?_ x (y ++ z) (by rw [hz, hh]; simp)
    clear hz hh hx
    dist_cases hs <;> grind [upd_apply]
  | lock h =>
    have : s'.pc t = .unsubLock n ∨ (s'.pc t = .returned .ok ∧ s'.hist = s.hist ++ [.unsubscribe (.user n)]) := by
      dist_cases hs <;> grind [upd_apply, afterSubscribe]
    rcases this with h | ⟨h, h'⟩
    · exact .lock h
    · exact .done h x [] (by rw [h', hx])

/-- The channel has been subscribed with these checks, or is about to be. -/
def Asked (n : Nat) (ks : List Check) (s : State) : Prop :=
  .subscribe (.user n) ks ∈ s.hist ∨ ∃ t, (s.pc t).sub = some (.user n) ∧ (s.pc t).subChecks = ks

theorem asked_step {n : Nat} {ks : List Check} {s s' : State} {a : Action} (hs : step s a = some s') (h : Asked n ks s') :
    Asked n ks s ∨ ∃ t, a = .call t (.subscribe n ks) := by
  unfold Asked at *
  revert h
  dist_cases hs
  case callSub t n' ks' h =>
    rintro (h1 | ⟨w, h1, h2⟩)
    · exact .inl (.inl h1)
    · by_cases hw : w = t
      · subst hw
        simp only [upd_same, PC.sub, PC.subChecks, Option.some.injEq, ChanId.user.injEq] at h1 h2
        subst h1; subst h2
        exact .inr ⟨w, rfl⟩
      · rw [upd_other _ _ hw] at h1 h2
        exact .inl (.inr ⟨w, h1, h2⟩)
  all_goals grind [upd_apply, PC.sub, PC.subChecks, afterSubscribe]

theorem asked_run {n : Nat} {ks : List Check} {s s' : State} {acts : List Action} (hr : run step s acts = some s')
    (h : Asked n ks s') : Asked n ks s ∨ ∃ t, .call t (.subscribe n ks) ∈ acts := by
  induction acts generalizing s with
  | nil => simp only [run, Option.some.injEq] at hr; subst hr; exact .inl h
  | cons a as ih =>
    simp only [run] at hr
    split at hr
    · rename_i s1 hs
      rcases ih hr with h1 | ⟨t, ht⟩
      · rcases asked_step hs h1 with h | ⟨t, rfl⟩
        · exact .inl h
        · exact .inr ⟨t, by simp⟩
      · exact .inr ⟨t, by simp [ht]⟩
    · simp at hr

/-! ### Channels without a subscription -/

/-- A channel that is not subscribed and does not become so receives nothing. -/
theorem unsubscribed_step {ch : ChanId} {s s' : State} {a : Action} (hl : LockInv s) (hk : ch ∉ s.keys) (hs : step s a = some s') :
    (∃ ks, s'.hist = s.hist ++ [.subscribe ch ks]) ∨ (ch ∉ s'.keys ∧ s'.delivered ch = s.delivered ch) := by
  have l8 := hl.remaining
  clear hl
  dist_cases hs
  case subSent t n ks c f h hc hw hcl hf =>
    by_cases hx : .user n = ch
    · exact .inl ⟨ks, by rw [hx]⟩
    · right; grind [upd_apply]
  case subSentGetter t t' ks c h hc hw hsel =>
    by_cases hx : .getter t' = ch
    · exact .inl ⟨ks, by rw [hx]⟩
    · right; grind [upd_apply]
  case subSilent t n ks h hc =>
    by_cases hx : .user n = ch
    · exact .inl ⟨ks, by rw [hx]⟩
    · right; grind [upd_apply]
  case subSilentGetter t t' ks h hc =>
    by_cases hx : .getter t' = ch
    · exact .inl ⟨ks, by rw [hx]⟩
    · right; grind [upd_apply]
  all_goals grind [upd_apply]

theorem unsubscribed_run {ch : ChanId} {s s' : State} {acts : List Action} (hi : Inv s) (hk : ch ∉ s.keys)
    (hr : run step s acts = some s') (hn : ∀ ks, .subscribe ch ks ∉ s'.hist.drop s.hist.length) :
    s'.delivered ch = s.delivered ch := by
  induction acts generalizing s with
  | nil => simp only [run, Option.some.injEq] at hr; rw [hr]
  | cons a as ih =>
    simp only [run] at hr
    split at hr
    · rename_i s1 hs
      obtain ⟨x, hx⟩ := hist_grows hs
      have hg : ∃ y, s'.hist = s1.hist ++ y :=
        run_invariant (fun s' => ∃ y, s'.hist = s1.hist ++ y) ⟨[], by simp⟩
          (fun s2 s3 a h hs => by obtain ⟨y, hy⟩ := h; obtain ⟨z, hz⟩ := hist_grows hs; exact ⟨y ++ z, by rw [hz, hy]; simp⟩) hr
      obtain ⟨y, hy⟩ := hg
      have hd : s'.hist.drop s.hist.length = x ++ y := by rw [hy, hx]; simp
      have hd1 : s'.hist.drop s1.hist.length = y := by rw [hy]; simp
      rcases unsubscribed_step hi.lock hk hs with ⟨ks, h⟩ | ⟨h1, h2⟩
      · exfalso
        apply hn ks
        rw [hd]
        rw [hx] at h
        have := List.append_cancel_left h
        rw [this]; simp
      · rw [← h2]
        refine ih (inv_step hi hs) h1 hr ?_
        intro ks h
        apply hn ks
        rw [hd1] at h
        rw [hd]
        exact List.mem_append_right _ h
    · simp at hr

end DistributorModel
end Gevulot
