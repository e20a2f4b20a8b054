import Verif.Model.Process
import Verif.Proofs.Cli
import Verif.Proofs.DistributorRest
import Verif.Props.System

/-!
The whole program: how its parts are tied together.
-/

namespace Gevulot.Process

open ServerModel (Tid PC)
open DistributorModel (ChanId)

variable {parse : Bytes → Option ConnectionParams} {bytes : Nat → Bytes}

@[simp] theorem decode_encode (c : CliModel.Config) : decode (encode c) = c := by
  simp [decode, encode]

/-! ### The parts -/

theorem step_plan {s s' : State} {a : Action} (h : step parse bytes s a = some s') :
    s.over = false ∧ ∃ p, plan bytes s a = some p ∧ also CliModel.step s.cli p.cli = some s'.cli ∧
      also DistributorModel.step s.dist p.dist = some s'.dist ∧ also (System.step parse) s.sys p.sys = some s'.sys ∧ s'.main = p.main := by
  unfold step at h
  split at h
  · simp at h
  rename_i ho
  refine ⟨by simpa using ho, ?_⟩
  split at h
  · simp at h
  rename_i p hp
  split at h
  · rename_i h1 h2 h3
    simp only [Option.some.injEq] at h
    subst h
    exact ⟨p, hp, h1, h2, h3, rfl⟩
  · simp at h

theorem also_reachable {σ α : Type} {st : σ → α → Option σ} {s0 s s' : σ} {a : Option α} (h : Reachable st s0 s) (hs : also st s a = some s') :
    Reachable st s0 s' := by
  cases a with
  | none => simp only [also, Option.some.injEq] at hs; exact hs ▸ h
  | some a => exact h.next hs

/-- Each part makes the steps of its own model. -/
theorem parts_reachable {path : Option Nat} {text : Nat → CliModel.Text} {s : State} (h : Reachable (step parse bytes) (init path text) s) :
    Reachable CliModel.step (CliModel.init path text) s.cli ∧ Reachable DistributorModel.step (DistributorModel.init fun _ => 1) s.dist ∧
    Reachable (System.step parse) (System.init none) s.sys :=
  h.invariant (fun s => Reachable CliModel.step (CliModel.init path text) s.cli ∧
    Reachable DistributorModel.step (DistributorModel.init fun _ => 1) s.dist ∧ Reachable (System.step parse) (System.init none) s.sys)
    ⟨Reachable.refl _, Reachable.refl _, Reachable.refl _⟩ fun s a s' hi hs => by
      obtain ⟨-, p, -, h1, h2, h3, -⟩ := step_plan hs
      exact ⟨also_reachable hi.1 h1, also_reachable hi.2.1 h2, also_reachable hi.2.2 h3⟩

theorem sys_cases {s s' : System.State} {a : System.Action} (h : System.step parse s a = some s') :
    (∃ b, a = .server b ∧ ServerModel.step s.server b = some s'.server) ∨ ((∀ b, a ≠ .server b) ∧ s'.server = s.server) := by
  obtain ⟨-, ⟨b, srv, rfl, -, h1, rfl⟩ | ⟨t, x, rfl, -, -, -, rfl⟩ | ⟨t, b, x, rfl, -, -, rfl⟩⟩ := System.step_cases h
  · exact .inl ⟨b, rfl, h1⟩
  · exact .inr ⟨by simp, rfl⟩
  · exact .inr ⟨by simp, rfl⟩

/-! ### How they are tied together -/

/-- The configuration that the server knows of. -/
def shown (d : DistributorModel.State) : Option DistributorModel.Config :=
  match d.mon 0 with
  | .notifying old _ (_ :: _) => old
  | _ => d.lastConfig

/-- `Start` before it listens. -/
def early : PC → Bool
  | .idle | .startCheck | .startFire | .startSubscribe | .startLoop => true
  | _ => false

/-- `Start` in its loop. -/
def late : PC → Bool
  | .startLoop | .startListen _ | .startDo _ => true
  | _ => false

structure Link (c : CliModel.State) (d : DistributorModel.State) (v : ServerModel.State) (m : MainPC) : Prop where
  main : m = .prepare ∨ m = .start ∨ (m = .exited ∧ c.main = .failed)
  up : v.shutdown = false ∧ v.configClosed = false ∧ v.updatesClosed = false ∧ v.watchdogPanic = false ∧ v.sendPanic = false
  distUp : d.closed = false ∧ d.sourceClosed = false ∧ d.panicked = false
  users : ∀ n op, v.op (.user n) = some op → n = 0 ∧ op = .start ∧ m = .start
  called : m = .start → v.op (.user 0) = some .start
  goes : ∀ n op, v.op (.go n) = some op → op ≠ .start ∧ op ≠ .close
  source : d.source = c.chan.map encode
  produced : d.produced = c.sent.map encode
  idle : d.pc 1 = .idle
  sub : (v.subscribed = false ∧ d.pc 0 = .idle) ∨
    (v.subscribed = false ∧ v.pc (.user 0) = .startSubscribe ∧
      (d.pc 0 = .subCheck (.user 0) [listenChanged] ∨ d.pc 0 = .subLock (.user 0) [listenChanged] ∨ d.pc 0 = .subLocked (.user 0) [listenChanged])) ∨
    (v.subscribed = true ∧ d.pc 0 = .returned .ok)
  before : v.subscribed = false → d.keys = [] ∧ d.started = false ∧ d.lastConfig = none ∧ v.updates = []
  after : v.subscribed = true → d.keys = [.user 0] ∧ d.checks (.user 0) = [listenChanged] ∧ d.started = true
  chan : ∃ buf, d.chans 0 = ⟨1, buf, 0, false⟩ ∧ v.updates = buf.map fun n => (decode n).listen
  current : v.current = (shown d).map fun n => (decode n).listen
  getters : ∀ t, d.pc (getter t) = .idle ∨
    ((d.pc (getter t) = .getEnter ∨ d.pc (getter t) = .getSnapshot ∨ ∃ x, d.pc (getter t) = .returned (.config x)) ∧ d.lastConfig ≠ none)
  fresh : d.lastConfig = none → v.updates = [] ∧ v.spawned = 0 ∧ early (v.pc (.user 0)) = true
  first : v.pc (.user 0) = .idle ∨ v.pc (.user 0) = .startCheck ∨ v.pc (.user 0) = .startFire → v.start = false
  runs : ∀ r, v.pc (.user 0) ≠ .returned r
  loop : v.subscribed = late (v.pc (.user 0))

theorem link_init {path : Option Nat} {text : Nat → CliModel.Text} :
    Link (CliModel.init path text) (DistributorModel.init fun _ => 1) (ServerModel.init none) .prepare := by
  constructor <;> simp [CliModel.init, DistributorModel.init, ServerModel.init, shown, early, late]

theorem link_cli {c c' : CliModel.State} {d : DistributorModel.State} {v : ServerModel.State} {m : MainPC} (h : Link c d v m) (hm : m ≠ .exited)
    (h1 : c'.chan = c.chan) (h2 : c'.sent = c.sent) : Link c' d v m := by
  obtain ⟨k1, k2, k3, k4, k5, k6, k7, k8, k9, k10, k11, k12, k13, k14, k15, k16, k17, k18, k19⟩ := h
  exact ⟨by simp_all, k2, k3, k4, k5, k6, by rw [h1]; exact k7, by rw [h2]; exact k8, k9, k10, k11, k12, k13, k14, k15, k16, k17, k18, k19⟩

theorem link_produce {c c' : CliModel.State} {d d' : DistributorModel.State} {v : ServerModel.State} {m : MainPC} {x : CliModel.Config}
    (h : Link c d v m) (hm : m ≠ .exited) (h1 : c'.chan = c.chan ++ [x]) (h2 : c'.sent = c.sent ++ [x])
    (hd : DistributorModel.step d (.produce (encode x)) = some d') : Link c' d' v m := by
  obtain ⟨k1, k2, k3, k4, k5, k6, k7, k8, k9, k10, k11, k12, k13, k14, k15, k16, k17, k18, k19⟩ := h
  simp only [DistributorModel.step, k3, Bool.false_eq_true, if_false, Option.some.injEq] at hd
  subst hd
  exact ⟨by simp_all, k2, ⟨rfl, rfl, rfl⟩, k4, k5, k6, by simp [h1, k7], by simp [h2, k8], k9, k10, k11, k12, k13, k14, k15, k16, k17, k18, k19⟩

/-- The steps the server makes alone. -/
def Alone (v : ServerModel.State) : ServerModel.Action → Prop
  | .thread t => v.pc t ≠ .startSubscribe
  | .listen _ _ | .accept _ _ | .sessionEnd _ _ | .watchdog _ => True
  | _ => False

theorem noClose {c : CliModel.State} {d : DistributorModel.State} {v : ServerModel.State} {m : MainPC} (h : Link c d v m) (t : Tid) :
    v.op t ≠ some .close ∧ (v.op t = some .start → t = .user 0) := by
  cases t with
  | user n =>
    refine ⟨fun hx => ?_, fun hx => ?_⟩
    · have := (h.users n _ hx).2.1; simp at this
    · rw [(h.users n _ hx).1]
  | go n =>
    refine ⟨fun hx => ?_, fun hx => ?_⟩
    · exact (h.goes n _ hx).2 rfl
    · exact absurd rfl (h.goes n _ hx).1

set_option maxHeartbeats 4000000 in
theorem link_server {c : CliModel.State} {d : DistributorModel.State} {v v' : ServerModel.State} {m : MainPC} {b : ServerModel.Action}
    (hi : ServerModel.Inv v) (h : Link c d v m) (hk : Alone v b) (hb : ServerModel.step v b = some v') : Link c d v' m := by
  have hnc := noClose h
  have hf := hi.fit
  have hg := hi.go.fresh
  have hop := hi.go.opIdle
  have c1 : ∀ t, v.pc t ≠ .closeFire ∧ v.pc t ≠ .closeLock ∧ ∀ r, v.pc t ≠ .closeWait r := by
    intro t
    have h1 := hf t
    refine ⟨fun hx => ?_, fun hx => ?_, fun r hx => ?_⟩ <;> rw [hx] at h1
    · exact (hnc t).1 h1
    · exact (hnc t).1 h1
    · exact (hnc t).1 h1.1
  have c2 : ∀ t, v.pc t = .startCheck ∨ v.pc t = .startFire ∨ v.pc t = .startSubscribe ∨ v.pc t = .startLoop ∨ (∃ a, v.pc t = .startListen a) ∨ (∃ ln, v.pc t = .startDo ln) → t = .user 0 := by
    intro t ht
    have h1 := hf t
    rcases ht with hx | hx | hx | hx | ⟨a, hx⟩ | ⟨ln, hx⟩ <;> rw [hx] at h1 <;> exact (hnc t).2 h1
  have d1 : ∀ t, v.pc t = .startCheck → t = .user 0 := fun t ht => c2 t (.inl ht)
  have d2 : ∀ t, v.pc t = .startFire → t = .user 0 := fun t ht => c2 t (.inr (.inl ht))
  have d3 : ∀ t, v.pc t = .startLoop → t = .user 0 := fun t ht => c2 t (.inr (.inr (.inr (.inl ht))))
  have d4 : ∀ t a, v.pc t = .startListen a → t = .user 0 := fun t a ht => c2 t (.inr (.inr (.inr (.inr (.inl ⟨a, ht⟩)))))
  have d5 : ∀ t a, v.pc t = .startDo a → t = .user 0 := fun t a ht => c2 t (.inr (.inr (.inr (.inr (.inr ⟨a, ht⟩)))))
  have c3 := hg v.spawned
  simp only [Nat.le_refl, iff_true] at c3
  have c4 : ∀ op, v.op (.user 0) = some op → op = .start := fun op hx => (h.users 0 op hx).2.1
  have c5 : ∀ n, v.pc (.user n) ≠ .idle → n = 0 := by
    intro n hn
    cases hx : v.op (.user n) with
    | none => exact absurd ((hop _).mp hx) hn
    | some op => exact (h.users n op hx).1
  have c8 : ∀ t, v.pc t ≠ .idle → t ≠ .user 0 → 0 < v.spawned := by
    intro t ht hn
    cases t with
    | user n => exact absurd (congrArg Tid.user (c5 n ht)) hn
    | go n => exact Nat.lt_of_le_of_lt (Nat.zero_le n) (Nat.lt_of_not_le fun hx => ht ((hg n).mpr hx))
  have c6 : ∀ ln, v.pc (.user 0) ≠ .serveCheck ln ∧ v.pc (.user 0) ≠ .serveLock ln ∧ v.pc (.user 0) ≠ .serveAccept ln := by
    intro ln
    have h1 := hf (.user 0)
    refine ⟨fun hx => ?_, fun hx => ?_, fun hx => ?_⟩ <;> rw [hx] at h1 <;> have := c4 _ h1 <;> simp at this
  have c7 : v.pc (.user 0) ≠ .connCheck ∧ v.pc (.user 0) ≠ .connRegCheck ∧ v.pc (.user 0) ≠ .connRegLock ∧ v.pc (.user 0) ≠ .connRun ∧ ∀ r, v.pc (.user 0) ≠ .connRemove r := by
    have h1 := hf (.user 0)
    refine ⟨fun hx => ?_, fun hx => ?_, fun hx => ?_, fun hx => ?_, fun r hx => ?_⟩ <;> rw [hx] at h1 <;>
      first | (obtain ⟨k, h1⟩ := h1; have := c4 _ h1; simp at this) | (obtain ⟨⟨k, h1⟩, -⟩ := h1; have := c4 _ h1; simp at this)
  obtain ⟨k1, k2, k3, k4, k5, k6, k7, k8, k9, k10, k11, k12, k13, k14, k15, k16, k17, k18, k19⟩ := h
  clear hi hf hnc c2
  server_cases hb <;> simp only [Alone] at hk
  all_goals constructor <;> grind [upd_apply, early, late]

theorem link_take {c : CliModel.State} {d d' : DistributorModel.State} {v v' : ServerModel.State} {m : MainPC} {t : Tid}
    (hi : ServerModel.Inv v) (h : Link c d v m) (hb : ServerModel.step v (.takeConfig t) = some v')
    (hd : DistributorModel.step d (.userRecv 0) = some d') : Link c d' v' m := by
  obtain ⟨buf, hbuf, hup⟩ := h.chan
  have hnc := noClose h
  have hf := hi.fit t
  obtain ⟨k1, k2, k3, k4, k5, k6, k7, k8, k9, k10, k11, k12, k13, k14, k15, k16, k17, k18, k19⟩ := h
  obtain ⟨hnp, htr⟩ := ServerModel.step_tr hb
  cases htr
  rename_i a rest hu hpc
  rw [hpc] at hf
  have := (hnc t).2 hf
  subst this
  cases buf with
  | nil => rw [hup] at hu; simp at hu
  | cons x buf =>
    simp only [DistributorModel.step, k3, Bool.false_eq_true, if_false, hbuf, Option.some.injEq] at hd
    subst hd
    rw [hup] at hu
    simp only [List.map_cons, List.cons.injEq] at hu
    refine ⟨k1, by simp [k2], by simp [k3], k4, k5, k6, k7, k8, k9, ?_, ?_, k12, ⟨buf, by simp, hu.2.symm⟩, k14, k15, ?_, ?_, ?_, ?_⟩
    · simp only [upd_same]
      rcases k10 with k | k | k
      · exact .inl k
      · rw [hpc] at k; simp at k
      · exact .inr (.inr k)
    · intro hx
      have := (k11 hx).2.2.2
      rw [hup] at this; simp at this
    · intro hx
      have := (k16 hx).1
      rw [hup] at this; simp at this
    · simp
    · simp
    · rw [k19, hpc]; simp [late]

theorem thread_cases (t : Nat) : t = 0 ∨ t = 1 ∨ ∃ u, t = getter u := by
  by_cases h0 : t = 0
  · exact .inl h0
  by_cases h1 : t = 1
  · exact .inr (.inl h1)
  refine .inr (.inr ?_)
  by_cases h2 : t % 2 = 0
  · exact ⟨.go (t / 2 - 1), by simp only [getter]; omega⟩
  · exact ⟨.user (t / 2 - 1), by simp only [getter]; omega⟩

theorem getter_inj {t u : Tid} (h : getter t = getter u) : t = u := by
  cases t <;> cases u <;> simp only [getter] at h <;> first | (congr 1; omega) | omega

theorem getter_ge (t : Tid) : 2 ≤ getter t := by cases t <;> simp only [getter] <;> omega

theorem mon_zero {d : DistributorModel.State} (hi : DistributorModel.LockInv d) {i : Nat} (h : d.mon i ≠ .notStarted) : i = 0 ∧ d.started = true := by
  have h1 := (hi.mons i).mp h
  have h2 := hi.count
  split at h2
  · exact ⟨by omega, ‹_›⟩
  · omega

/-- The distributor, apart from sending. -/
theorem link_dist {c : CliModel.State} {d d' : DistributorModel.State} {v : ServerModel.State} {m : MainPC}
    {a : DistributorModel.Action} (hi : DistributorModel.LockInv d) (h : Link c d v m)
    (ha : (∃ t, a = .thread t ∧ (∀ ch ks, d.pc t ≠ .subLocked ch ks)) ∨ (∃ i, a = .monLock i) ∨ (∃ i, a = .monDone i) ∨ (∃ t, a = .cancel t) ∨
      (∃ i t, a = .monNotify i (.getter t)))
    (hd : DistributorModel.step d a = some d') : Link c d' v m := by
  have hmon := fun i => mon_zero hi (i := i)
  have g1 := hi.remaining
  have g2 := hi.exited
  have hge := getter_ge
  have hinj := @getter_inj
  obtain ⟨k1, k2, k3, k4, k5, k6, k7, k8, k9, k10, k11, k12, k13, k14, k15, k16, k17, k18, k19⟩ := h
  have hks : v.subscribed = false ∨ v.subscribed = true := by cases v.subscribed <;> simp
  rcases ha with ⟨t, rfl, ht⟩ | ⟨i, rfl⟩ | ⟨i, rfl⟩ | ⟨t, rfl⟩ | ⟨i, t, rfl⟩
  · rcases thread_cases t with rfl | rfl | ⟨u, rfl⟩
    · obtain ⟨hp, htr⟩ := DistributorModel.step_tr hd
      clear hd hmon g1 g2 hi
      cases htr
      all_goals first | (exfalso; grind) | (constructor <;> grind [upd_apply, shown])
    · obtain ⟨hp, htr⟩ := DistributorModel.step_tr hd
      clear hd hmon g1 g2 hi
      cases htr
      all_goals (exfalso; grind)
    · obtain ⟨hp, htr⟩ := DistributorModel.step_tr hd
      have := hge u
      clear hd hmon g1 g2 hi
      cases htr
      all_goals first | (exfalso; grind) | (constructor <;> grind [upd_apply, shown])
  · obtain ⟨hp, htr⟩ := DistributorModel.step_tr hd
    clear hd hi
    cases htr
    all_goals first | (exfalso; grind) | (constructor <;> grind [upd_apply, shown])
  all_goals
    obtain ⟨hp, htr⟩ := DistributorModel.step_tr hd
    clear hd hi
    cases htr
    all_goals (exfalso; grind)

theorem link_monTake {c c' : CliModel.State} {d d' : DistributorModel.State} {v : ServerModel.State} {m : MainPC} {i : Nat}
    (hi : DistributorModel.LockInv d) (h : Link c d v m) (hm : m ≠ .exited) (hc : CliModel.step c .recv = some c')
    (hd : DistributorModel.step d (.monTake i) = some d') : Link c' d' v m := by
  have hmon := fun i => mon_zero hi (i := i)
  obtain ⟨k1, k2, k3, k4, k5, k6, k7, k8, k9, k10, k11, k12, k13, k14, k15, k16, k17, k18, k19⟩ := h
  simp only [CliModel.step] at hc
  split at hc
  · rename_i x rest hx
    simp only [Option.some.injEq] at hc
    subst hc
    rw [hx] at k7
    obtain ⟨hp, htr⟩ := DistributorModel.step_tr hd
    clear hd hi
    cases htr
    all_goals first | (exfalso; grind) | (constructor <;> grind [upd_apply, shown])
  · simp at hc

end Gevulot.Process
