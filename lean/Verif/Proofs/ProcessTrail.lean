import Verif.Proofs.ProcessUse

/-!
# The addresses that `Start` is told of

Supports C85 (Props/Listening.lean).
-/

namespace Gevulot.Process

open ServerModel (Tid PC)
open DistributorModel (ChanId)

variable {parse : Bytes → Option ConnectionParams} {bytes : Nat → Bytes} {path : Option Nat} {text : Nat → CliModel.Text}

/-- The addresses tried, the one being tried, and those not yet taken. -/
def trail (v : ServerModel.State) : List ServerModel.Addr :=
  v.tried.map (·.2.1) ++ (match v.pc (.user 0) with | .startListen a => [a] | _ => []) ++ v.updates

/-- The configurations with which the monitor has got to `Start`. -/
def told (d : DistributorModel.State) : List DistributorModel.Config :=
  match d.mon 0 with
  | .notifying _ _ (_ :: _) => (Spec.updates d.hist).dropLast
  | _ => Spec.updates d.hist

theorem updates_snoc (h : List DistributorModel.Ev) (e : DistributorModel.Ev) :
    Spec.updates (h ++ [e]) = Spec.updates h ++ (match e with | .update c => [c] | _ => []) := by
  unfold Spec.updates
  cases e <;> simp

theorem told_step {d d' : DistributorModel.State} {a : DistributorModel.Action} (hi : DistributorModel.LockInv d) (ha : ∀ i ch, a ≠ .monNotify i ch)
    (hk : d.started = true → d.keys ≠ []) (hs : DistributorModel.step d a = some d') : told d' = told d := by
  have hmon := fun i => mon_zero hi (i := i)
  obtain ⟨hp, htr⟩ := DistributorModel.step_tr hs
  clear hs hi
  cases htr
  case monUpdate i c h hl =>
    obtain ⟨rfl, hst⟩ := hmon i (by rw [h]; simp)
    have hk := hk hst
    unfold told
    cases hx : d.keys with
    | nil => exact absurd hx hk
    | cons k ks => simp [h, updates_snoc]
  all_goals first
    | rfl
    | ((try rw [DistributorModel.finishSubscribe_eq]); unfold told; grind [upd_apply, updates_snoc, List.dropLast_concat])

/-- The monitor gets to `Start`. -/
theorem told_notify {d d' : DistributorModel.State} {i n : Nat} {old : Option DistributorModel.Config} {new : DistributorModel.Config} {rem : List ChanId}
    (hi : DistributorModel.LockInv d) (hsrc : d.lastConfig = (Spec.updates d.hist).getLast?) (hk : d.keys = [.user 0]) (hm : d.mon i = .notifying old new rem)
    (hn : d'.panicked = false) (hs : DistributorModel.step d (.monNotify i (.user n)) = some d') : told d' = told d ++ [new] := by
  obtain ⟨rfl, -⟩ := mon_zero hi (i := i) (by rw [hm]; simp)
  obtain ⟨hrem, hlast⟩ := hi.remaining 0 old new rem hm
  obtain ⟨l, hl⟩ : ∃ l, Spec.updates d.hist = l ++ [new] := by
    rw [hlast] at hsrc
    exact ⟨_, (List.getLast?_eq_some_iff.mp hsrc.symm).choose_spec⟩
  have hall : ∀ ch ∈ rem, ch = .user 0 := fun ch hc => by have := hrem ch hc; rw [hk] at this; simpa using this
  have hf : ∀ ch ∈ rem, rem.filter (· ≠ ch) = [] := fun ch hc => by rw [hall ch hc]; exact filter_keys hall
  have key : ∀ ch ∈ rem, ∀ h', h' = d.hist → d'.hist = h' → d'.mon 0 = .notifying old new (rem.filter (· ≠ ch)) → told d' = told d ++ [new] := by
    intro ch hc h' e1 e2 e3
    rw [hf ch hc] at e3
    unfold told
    cases rem with
    | nil => simp at hc
    | cons x xs => simp [e3, hm, e2, e1, hl]
  obtain ⟨hp, htr⟩ := DistributorModel.step_tr hs
  clear hs
  cases htr
  case notifyPanic => simp at hn
  case notify old' new' rem' f hf' h hx hw hcl =>
    rw [hm] at h
    simp only [DistributorModel.MonPC.notifying.injEq] at h
    obtain ⟨rfl, rfl, rfl⟩ := h
    exact key _ hx _ rfl rfl (by simp)
  case notifySkip old' new' rem' h hx hw =>
    rw [hm] at h
    simp only [DistributorModel.MonPC.notifying.injEq] at h
    obtain ⟨rfl, rfl, rfl⟩ := h
    exact key _ hx _ rfl rfl (by simp)
  case userChan ha => obtain ⟨_, ha | ha⟩ := ha <;> simp at ha

/-! ### The server -/

/-- What a configuration does. -/
theorem trail_config {v v' : ServerModel.State} {a : ServerModel.Addr} (hs : ServerModel.step v (.config a) = some v') (hp : v'.sendPanic = false)
    (hsub : v.subscribed = true) : trail v' = trail v ++ (if v.current = some a then [] else [a]) := by
  unfold trail
  simp only [ServerModel.step] at hs
  have hch : ServerModel.addressChanged v.current a = true ↔ v.current ≠ some a := by
    unfold ServerModel.addressChanged
    split <;> simp_all
  grind

/-- Nothing else does that. -/
theorem trail_other {v v' : ServerModel.State} {b : ServerModel.Action} (hi : ServerModel.Inv v) (hu : ∀ t, v.op t = some .start → t = .user 0)
    (hsub : ∀ t, v.pc t = .startSubscribe → v.updates = [] ∧ v.current = none) (hb : ∀ a, b ≠ .config a) (hs : ServerModel.step v b = some v') : trail v' = trail v := by
  have hf := hi.fit
  have d4 : ∀ t a, v.pc t = .startListen a → t = .user 0 := fun t a ht => hu t (by have := hf t; rw [ht] at this; exact this)
  have d3 : ∀ t, v.pc t = .startLoop → t = .user 0 := fun t ht => hu t (by have := hf t; rw [ht] at this; exact this)
  have hg := hi.go.fresh v.spawned
  simp only [Nat.le_refl, iff_true] at hg
  have hen : ∀ op a, ServerModel.entry op ≠ .startListen a := fun op a => by cases op <;> simp [ServerModel.entry]
  clear hi hf hu
  unfold trail
  server_cases hs <;> grind [upd_apply]

theorem trail_last {v : ServerModel.State} (hi : ServerModel.Inv v) (ha : ServerModel.AddrInv v) (hl : late (v.pc (.user 0)) = true) :
    (trail v).getLast? = v.current := by
  have h1 := ha.wanted (.user 0) (by revert hl; unfold late PC.looping; cases v.pc (.user 0) <;> simp)
  rw [← h1]
  have hcap := hi.config.cap
  unfold trail ServerModel.wanted
  match hx : v.updates, hcap with
  | [a], _ => simp
  | [], _ =>
    cases hp : v.pc (.user 0) <;> simp [PC.listenAddr, ServerModel.lastTried]

/-! ### The program -/

theorem changes_snoc (l : List Nat) (x : Nat) :
    Spec.changes (l ++ [x]) = Spec.changes l ++ (if (Spec.changes l).getLast? = some x then [] else [x]) := by
  unfold Spec.changes
  rw [List.foldl_append]
  simp only [List.foldl_cons, List.foldl_nil]
  split <;> simp

/-- What `Start` has been told, and what it has made of it. -/
def Trail (s : State) : Prop := trail s.sys.server = Spec.changes ((told s.dist).map fun n => (decode n).listen)

theorem trail_step {s s' : State} {a : Action} (h : Reachable (step parse bytes) (init path text) s) (ht : Trail s)
    (hs : step parse bytes s a = some s') : Trail s' := by
  have hl := linked_of_reachable h
  have hl' := (linked_of_reachable (h.next hs)).link
  obtain ⟨-, hrd, hrs⟩ := parts_reachable h
  have hid := DistributorModel.inv_of_reachable hrd
  have hrv := System.server_reachable hrs
  have hiv := ServerModel.inv_of_reachable hrv
  have hu : ∀ t, s.sys.server.op t = some .start → t = .user 0 := fun t => (noClose hl.link t).2
  have hst : ∀ t, s.sys.server.pc t = .startSubscribe → t = .user 0 := fun t hx => hu t (by have := hiv.fit t; rw [hx] at this; exact this)
  have hk : s.dist.started = true → s.dist.keys ≠ [] := by
    intro hx
    cases hy : s.sys.server.subscribed with
    | false => rw [(hl.link.before hy).2.1] at hx; simp at hx
    | true => rw [(hl.link.after hy).1]; simp
  have hsub : ∀ t, s.sys.server.pc t = .startSubscribe → s.sys.server.updates = [] ∧ s.sys.server.current = none := by
    intro t hx
    have hn : s.sys.server.subscribed = false := by rw [hl.link.loop]; rw [hst t hx] at hx; rw [hx]; rfl
    obtain ⟨-, h1, h2, h3⟩ := hl.link.before hn
    refine ⟨h3, ?_⟩
    rw [hl.link.current]
    have : s.dist.mon 0 = .notStarted := Classical.byContradiction fun hx => by
      have := (mon_zero hid.lock hx).2
      rw [h1] at this; simp at this
    simp [shown, this, h2]
  have hd : ∀ {b dist}, (∀ i ch, b ≠ .monNotify i ch) → DistributorModel.step s.dist b = some dist → told dist = told s.dist :=
    fun hb h2 => told_step hid.lock hb hk h2
  have hv : ∀ {b sys}, (∀ x, b ≠ .config x) → System.step parse s.sys (.server b) = some sys → trail sys.server = trail s.sys.server :=
    fun hb h3 => trail_other hiv hu hsub hb (sys_server h3)
  unfold Trail at ht ⊢
  cases move_of_step h hl hs with
  | cli hr hc hs hm hh h1 => exact ht
  | send ha hc hs h1 h2 => simp only; rw [hd (by simp) h2]; exact ht
  | dist ha h2 =>
    simp only
    rcases ha with ⟨t, rfl, -⟩ | ⟨i, rfl⟩ | ⟨i, rfl⟩ | ⟨t, rfl⟩ | ⟨i, t, rfl⟩
    · rw [hd (by simp) h2]; exact ht
    · rw [hd (by simp) h2]; exact ht
    · rw [hd (by simp) h2]; exact ht
    · rw [hd (by simp) h2]; exact ht
    · exfalso
      obtain ⟨hp, htr⟩ := DistributorModel.step_tr h2
      have hx : ∃ old new rem, s.dist.mon i = .notifying old new rem ∧ .getter t ∈ rem := by
        cases htr
        case userChan ha => obtain ⟨_, ha | ha⟩ := ha <;> simp at ha
        all_goals exact ⟨_, _, _, ‹_›, ‹_›⟩
      obtain ⟨old, new, rem, hm, hx⟩ := hx
      have hx := (hid.lock.remaining i old new rem hm).1 _ hx
      cases hy : s.sys.server.subscribed with
      | false => rw [(hl.link.before hy).1] at hx; simp at hx
      | true => rw [(hl.link.after hy).1] at hx; simp at hx
  | subscribed hpc h2 h3 => simp only; rw [hd (by simp) h2, hv (by simp) h3]; exact ht
  | take h1 h2 => simp only; rw [hd (by simp) h2]; exact ht
  | @notify i n old new rem dist sys hm h2 h3 =>
    simp only
    obtain ⟨hi0, hstarted⟩ := mon_zero hid.lock (i := i) (by rw [hm]; simp)
    have hsubd : s.sys.server.subscribed = true := by
      cases hy : s.sys.server.subscribed with
      | true => rfl
      | false => rw [(hl.link.before hy).2.1] at hstarted; simp at hstarted
    rw [told_notify hid.lock hid.src.last (hl.link.after hsubd).1 hm hl'.distUp.2.2 h2, List.map_append, List.map_singleton, changes_snoc, ← ht,
      trail_config (sys_server h3) hl'.up.2.2.2.2 hsubd, trail_last hiv (ServerModel.addrInv_of_reachable hrv) (by rw [← hl.link.loop]; exact hsubd)]
  | server hb h3 =>
    simp only
    rw [hv (fun x hx => by subst hx; simp [Alone] at hb) h3]; exact ht
  | takeConfig h2 h3 => simp only; rw [hd (by simp) h2, hv (by simp) h3]; exact ht
  | session hb hg hv h3 => simp only; rw [hv]; exact ht
  | start hm hc h3 => simp only; rw [hv (by simp) h3]; exact ht
  | exit hm hc => exact ht
  | subscribe hpc h2 => simp only; rw [hd (by simp) h2]; exact ht
  | get hh hconn h2 => simp only; rw [hd (by simp) h2]; exact ht
  | gotten hpc hv h3 => simp only; rw [hv]; exact ht

theorem trail_of_reachable {s : State} (h : Reachable (step parse bytes) (init path text) s) : Trail s :=
  (h.invariant (fun s => Reachable (step parse bytes) (init path text) s ∧ Trail s) ⟨Reachable.refl _, rfl⟩
    fun _ _ _ hk hs => ⟨hk.1.next hs, trail_step hk.1 hk.2 hs⟩).2

end Gevulot.Process
