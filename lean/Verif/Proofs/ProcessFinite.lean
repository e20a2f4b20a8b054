import Verif.Proofs.ProcessRest
import Verif.Proofs.ProcessMove

/-!
The whole program comes to rest: its own steps are finitely many.
-/

namespace Gevulot.Process

open ServerModel (Tid PC)
open DistributorModel (ChanId)

variable {parse : Bytes → Option ConnectionParams} {bytes : Nat → Bytes} {path : Option Nat} {text : Nat → CliModel.Text}

/-! ### Weights

A configuration that is going to be read costs 18, 14 of which are still to be spent when it is in the channel, and 10 when it
has reached the server. -/

def cliMainW : CliModel.MainPC → Nat
  | .read => 18
  | .send _ => 17
  | .add => 2
  | .watching => 1
  | _ => 0

def handlerW : CliModel.HandlerPC → Nat
  | .read => 17
  | .send _ => 16
  | _ => 0

def cliW (c : CliModel.State) : Nat := cliMainW c.main + handlerW c.handler + 18 * c.queue.length

def mainW : MainPC → Nat
  | .prepare => 20
  | _ => 0

def monW : DistributorModel.MonPC → Nat
  | .gotten _ => 13
  | .notifying _ _ rem => 11 * rem.length + 1
  | _ => 0

def subW : DistributorModel.PC → Nat
  | .idle => 4
  | .subCheck _ _ => 3
  | .subLock _ _ => 2
  | .subLocked _ _ => 1
  | _ => 0

def distW (d : DistributorModel.State) : Nat := 14 * d.source.length + monW (d.mon 0) + subW (d.pc 0)

def getW : DistributorModel.PC → Nat
  | .idle => 3
  | .getEnter => 2
  | .getSnapshot => 1
  | _ => 0

/-- The calls of `Get` that sessions have not made yet, or that have not returned, if no goroutine is started from number `n` on. -/
def gettersW (n : Nat) (d : DistributorModel.State) : Nat := ServerModel.total (fun t => getW (d.pc (getter t))) 1 n

/-- Without the sessions. -/
def baseW (s : State) : Nat := cliW s.cli + mainW s.main + distW s.dist + ServerModel.weight 1 s.sys.server

def weight (n : Nat) (s : State) : Nat := cliW s.cli + mainW s.main + distW s.dist + gettersW n s.dist + System.weight 1 n s.sys

/-! ### The command line -/

theorem cli_own {c c' : CliModel.State} {a : CliModel.Action} (ha : (∃ ok, a = .add ok) ∨ a = .event ∨ a = .lost) (hs : CliModel.step c a = some c') :
    cliW c' < cliW c := by
  have := CliModel.step_tr hs
  unfold cliW
  rcases ha with ⟨ok, rfl⟩ | rfl | rfl <;> cases this <;> simp_all [cliMainW, handlerW] <;> omega

theorem cli_main_weight {c c' : CliModel.State} (ho : c.main = .read ∨ (∃ x, c.main = .send x) → c.handler = .idle) (hs : CliModel.step c .main = some c') :
    cliW c' + (match c.main with | .send _ => 14 | _ => 0) < cliW c := by
  have := CliModel.step_tr hs
  unfold cliW
  cases this <;> simp_all [cliMainW, handlerW] <;> omega

theorem cli_handle_weight {c c' : CliModel.State} (hs : CliModel.step c .handle = some c') :
    cliW c' + (match c.handler with | .send _ => 14 | _ => 0) < cliW c := by
  have := CliModel.step_tr hs
  unfold cliW
  cases this <;> simp_all [cliMainW, handlerW] <;> omega

theorem cli_recv {c c' : CliModel.State} (hs : CliModel.step c .recv = some c') : cliW c' = cliW c := by
  have := CliModel.step_tr hs
  unfold cliW
  cases this <;> simp_all

/-! ### The distributor -/

theorem dist_weight {c : CliModel.State} {d d' : DistributorModel.State} {v : ServerModel.State} {m : MainPC}
    {a : DistributorModel.Action} (hi : DistributorModel.LockInv d) (h : Link c d v m)
    (ha : (∃ t, a = .thread t ∧ (∀ ch ks, d.pc t ≠ .subLocked ch ks)) ∨ (∃ i, a = .monLock i) ∨ (∃ i, a = .monDone i) ∨ (∃ t, a = .cancel t) ∨
      (∃ i t, a = .monNotify i (.getter t)))
    (hd : DistributorModel.step d a = some d') :
    (distW d' < distW d ∧ ∀ t, d'.pc (getter t) = d.pc (getter t)) ∨
    (distW d' = distW d ∧ ∃ u p, d.pc (getter u) ≠ .idle ∧ (∀ t, d'.pc (getter t) = if t = u then p else d.pc (getter t)) ∧ getW p < getW (d.pc (getter u))) := by
  have hmon := fun i => mon_zero hi (i := i)
  have g1 := hi.remaining
  have g2 := hi.exited
  have hge := getter_ge
  have hge0 : ∀ u, getter u ≠ 0 := fun u hu => by have := hge u; omega
  have hinj := @getter_inj
  obtain ⟨k1, k2, k3, k4, k5, k6, k7, k8, k9, k10, k11, k12, k13, k14, k15, k16, k17, k18, k19⟩ := h
  have hkeys : d.keys.length ≤ 1 := by
    cases hs : v.subscribed with
    | false => rw [(k11 hs).1]; simp
    | true => rw [(k12 hs).1]; simp
  rcases ha with ⟨t, rfl, ht⟩ | ⟨i, rfl⟩ | ⟨i, rfl⟩ | ⟨t, rfl⟩ | ⟨i, t, rfl⟩
  · rcases thread_cases t with rfl | rfl | ⟨u, rfl⟩
    · left
      obtain ⟨hp, htr⟩ := DistributorModel.step_tr hd
      clear hd hmon g1 g2 hi k1 k2 k4 k5 k6 k7 k8 k11 k12 k13 k14 k16 k17 k18 k19
      cases htr
      all_goals first | (exfalso; grind) | (refine ⟨?_, ?_⟩ <;> grind [upd_apply, distW, subW])
    · obtain ⟨hp, htr⟩ := DistributorModel.step_tr hd
      clear hd hmon g1 g2 hi
      cases htr
      all_goals (exfalso; grind)
    · right
      obtain ⟨hp, htr⟩ := DistributorModel.step_tr hd
      have h0 := hge0 u
      have k15 := k15 u
      have hne : (0 : Nat) ≠ getter u := fun h => h0 h.symm
      have hupd : ∀ (p : DistributorModel.PC) (t : Tid), upd d.pc (getter u) p (getter t) = if t = u then p else d.pc (getter t) := by
        intro p t
        simp only [upd_apply]
        by_cases hx : t = u
        · simp [hx]
        · rw [if_neg (fun h => hx (hinj h)), if_neg hx]
      clear hd hmon g1 g2 hi k1 k2 k4 k5 k6 k7 k8 k10 k11 k12 k13 k14 k16 k17 k18 k19 hge hge0 hinj
      cases htr
      all_goals first
        | (exfalso; grind)
        | (rename_i hpc
           refine ⟨?_, u, _, by rw [hpc]; simp, hupd _, by rw [hpc]; simp [getW]⟩
           simp [distW, upd_other _ _ hne])
  · left
    obtain ⟨hp, htr⟩ := DistributorModel.step_tr hd
    clear hd hi
    cases htr
    all_goals first | (exfalso; grind) | (refine ⟨?_, ?_⟩ <;> grind [upd_apply, distW, monW])
  all_goals
    obtain ⟨hp, htr⟩ := DistributorModel.step_tr hd
    clear hd hi
    cases htr
    all_goals (exfalso; grind)

theorem dist_produce {d d' : DistributorModel.State} {x : DistributorModel.Config} (hd : DistributorModel.step d (.produce x) = some d') :
    distW d' = distW d + 14 ∧ d'.pc = d.pc := by
  obtain ⟨-, htr⟩ := DistributorModel.step_tr hd
  cases htr <;> simp_all [distW] <;> omega

theorem dist_take {d d' : DistributorModel.State} {i : Nat} (hi : DistributorModel.LockInv d) (hc : d.sourceClosed = false) (hd : DistributorModel.step d (.monTake i) = some d') :
    distW d' < distW d ∧ d'.pc = d.pc := by
  have hmon := fun i => mon_zero hi (i := i)
  obtain ⟨-, htr⟩ := DistributorModel.step_tr hd
  clear hd hi
  cases htr <;> first | (exfalso; grind) | (refine ⟨?_, ?_⟩ <;> grind [upd_apply, distW, monW])

theorem dist_notify {c : CliModel.State} {d d' : DistributorModel.State} {v : ServerModel.State} {m : MainPC} {i n : Nat}
    (hi : DistributorModel.LockInv d) (h : Link c d v m) (hd : DistributorModel.step d (.monNotify i (.user n)) = some d') :
    distW d' + 11 ≤ distW d ∧ d'.pc = d.pc := by
  have hmon := fun i => mon_zero hi (i := i)
  have g1 := hi.remaining
  have hkeys : ∀ ch ∈ d.keys, ch = .user 0 := by
    cases hs : v.subscribed with
    | false => rw [(h.before hs).1]; simp
    | true => rw [(h.after hs).1]; simp
  have hnp := h.distUp
  obtain ⟨buf, hbuf, -⟩ := h.chan
  have hfil : ∀ (rem : List ChanId), (∀ ch ∈ rem, ch ∈ d.keys) → rem.filter (· ≠ .user 0) = [] := fun rem hr => filter_keys fun ch hc => hkeys ch (hr ch hc)
  simp only [DistributorModel.step, hnp, Bool.false_eq_true, if_false] at hd
  split at hd
  · rename_i old new rem hm
    obtain ⟨rfl, -⟩ := hmon i (by rw [hm]; simp)
    have hr := (g1 0 _ _ _ hm).1
    split at hd
    · rename_i hmem
      have hz := hkeys _ (hr _ hmem)
      simp only [ChanId.user.injEq] at hz
      subst hz
      have hlen : 1 ≤ rem.length := by cases rem with | nil => simp at hmem | cons => simp
      have hf := hfil rem hr
      split at hd
      · simp only [DistributorModel.send, hbuf, Bool.false_eq_true, if_false, Nat.lt_irrefl] at hd
        split at hd
        · simp at hd
        · rename_i s1 hs1
          split at hs1
          · simp only [Option.some.injEq] at hs1
            subst hs1
            simp only [hnp, Bool.false_eq_true, if_false, Option.some.injEq] at hd
            subst hd
            simp only [distW, upd_same, hm, monW, hf, List.length_nil]
            exact ⟨by omega, trivial⟩
          · simp at hs1
      · simp only [Option.some.injEq] at hd
        subst hd
        simp only [distW, upd_same, hm, monW, hf, List.length_nil]
        exact ⟨by omega, trivial⟩
    · simp at hd
  · simp at hd

theorem dist_subscribed {c : CliModel.State} {d d' : DistributorModel.State} {v : ServerModel.State} {m : MainPC} {t : Nat} {ch : ChanId}
    {ks : List DistributorModel.Check} (hi : DistributorModel.LockInv d) (h : Link c d v m) (hpc : d.pc t = .subLocked ch ks)
    (hd : DistributorModel.step d (.thread t) = some d') : distW d' ≤ distW d ∧ ∀ u, d'.pc (getter u) = d.pc (getter u) := by
  have hge0 : ∀ u, getter u ≠ 0 := fun u hu => by have := getter_ge u; omega
  rcases dist_thread h t with ⟨rfl, ht⟩ | ⟨-, ht⟩
  · rcases ht with ⟨-, hx⟩ | ⟨hs, -, hx | hx | hx⟩ | ⟨-, hx⟩ <;> rw [hx] at hpc <;> simp at hpc
    obtain ⟨rfl, rfl⟩ := hpc
    obtain ⟨b1, b2, b3, b4⟩ := h.before hs
    have hm0 : d.mon 0 = .notStarted := by
      refine Decidable.byContradiction fun hn => ?_
      have := (mon_zero hi hn).2
      rw [b2] at this; simp at this
    have hmc : d.monCount = 0 := by rw [hi.count, b2]; simp
    simp only [DistributorModel.step, h.distUp, Bool.false_eq_true, if_false, hx, b3, Option.some.injEq] at hd
    rw [DistributorModel.finishSubscribe_eq] at hd
    subst hd
    simp [distW, b2, hmc, hm0, monW, subW, hx, DistributorModel.afterSubscribe, upd_apply, hge0]
  · rcases ht with hx | hx | hx | ⟨y, hx⟩ <;> rw [hx] at hpc <;> simp at hpc

theorem dist_recv {d d' : DistributorModel.State} (hd : DistributorModel.step d (.userRecv 0) = some d') : distW d' = distW d ∧ d'.pc = d.pc := by
  obtain ⟨-, htr⟩ := DistributorModel.step_tr hd
  cases htr <;> simp [distW]

/-! ### The getters -/

theorem getters_same {n : Nat} {d d' : DistributorModel.State} (h : ∀ t, d'.pc (getter t) = d.pc (getter t)) : gettersW n d' = gettersW n d :=
  ServerModel.total_congr fun t => by rw [h t]

theorem getters_one {n : Nat} {d d' : DistributorModel.State} {v : ServerModel.State} {u : Tid} {p : DistributorModel.PC} (hi : ServerModel.GoInv v)
    (hm : ServerModel.Callers 1 v) (hn : v.spawned ≤ n) (hu : System.isConn (v.op u) = true)
    (h : ∀ t, d'.pc (getter t) = if t = u then p else d.pc (getter t)) (hp : getW p < getW (d.pc (getter u))) :
    gettersW n d' < gettersW n d := by
  have hb : u.below 1 n := by
    have := System.below_of_conn hi hm hu
    cases u <;> simp only [Tid.below] at this ⊢ <;> omega
  have := ServerModel.total_change (m := 1) (f := fun t => getW (d.pc (getter t))) (g := fun t => getW (d'.pc (getter t))) hb
    (fun t ht => by simp only [h t, if_neg ht])
  simp only [h u, if_true] at this
  unfold gettersW
  omega

/-! ### The server -/

theorem config_weight {v v' : ServerModel.State} {a : Nat} {m : Nat} (hs : ServerModel.step v (.config a) = some v') :
    ServerModel.weight m v' ≤ ServerModel.weight m v + 10 ∧ v'.spawned = v.spawned := by
  obtain ⟨-, htr⟩ := ServerModel.step_tr hs
  cases htr <;> simp [ServerModel.weight] <;> omega

theorem call_weight {v v' : ServerModel.State} (hs : ServerModel.step v (.call 0 .start) = some v') :
    ServerModel.weight 1 v' = ServerModel.weight 1 v + 16 ∧ v'.spawned = v.spawned := by
  obtain ⟨-, htr⟩ := ServerModel.step_tr hs
  clear hs
  cases htr with
  | call _ _ h he =>
    refine ⟨?_, rfl⟩
    simp only [ServerModel.weight]
    have := ServerModel.total_change (m := 1) (n := v.spawned) (t := .user 0) (f := fun t => (v.pc t).weight) (g := fun t => (upd v.pc (.user 0) .startCheck t).weight)
      (by simp [ServerModel.Tid.below]) (fun u hu => by simp [upd_other _ _ hu])
    have e : ServerModel.entry .start = .startCheck := rfl
    simp only [h, upd_same] at this
    simp only [PC.weight] at this
    rw [e]
    simp only [PC.weight]
    omega

theorem sys_config {n : Nat} {s s' : System.State} {a : Nat} (hs : System.step parse s (.server (.config a)) = some s') :
    System.weight 1 n s' ≤ System.weight 1 n s + 10 ∧ ServerModel.weight 1 s'.server ≤ ServerModel.weight 1 s.server + 10 ∧
    s'.server.spawned = s.server.spawned := by
  obtain ⟨hc, ⟨b, srv, he, hal, hb, rfl⟩ | ⟨t, x, he, _⟩ | ⟨t, b, x, he, _⟩⟩ := System.step_cases hs <;> simp at he
  subst he
  obtain ⟨h1, h3⟩ := config_weight (m := 1) hb
  refine ⟨?_, h1, h3⟩
  simp only [System.weight, System.nextToClose]
  omega

theorem sys_call {n : Nat} {s s' : System.State} (hs : System.step parse s (.server (.call 0 .start)) = some s') :
    System.weight 1 n s' = System.weight 1 n s + 16 ∧ ServerModel.weight 1 s'.server = ServerModel.weight 1 s.server + 16 ∧
    s'.server.spawned = s.server.spawned := by
  obtain ⟨hc, ⟨b, srv, he, hal, hb, rfl⟩ | ⟨t, x, he, _⟩ | ⟨t, b, x, he, _⟩⟩ := System.step_cases hs <;> simp at he
  subst he
  obtain ⟨h1, h3⟩ := call_weight hb
  refine ⟨?_, h1, h3⟩
  simp only [System.weight, System.nextToClose]
  omega

/-! ### All together -/

theorem callers {s : State} (hi : ServerModel.GoInv s.sys.server) (hl : Linked s) : ServerModel.Callers 1 s.sys.server := by
  intro n hn
  refine (hi.opIdle _).mp ?_
  cases hx : s.sys.server.op (.user n) with
  | none => rfl
  | some op => have := (hl.link.users n op hx).1; omega

theorem weight_step {n : Nat} {s s' : State} {a : Action} (h : Reachable (step parse bytes) (init path text) s) (hown : Own a)
    (hn : s.sys.server.spawned ≤ n) (hst : step parse bytes s a = some s') :
    weight n s' < weight n s ∧ s'.sys.server.spawned + baseW s' ≤ s.sys.server.spawned + baseW s := by
  have hl := linked_of_reachable h
  obtain ⟨hrc, hrd, hrs⟩ := parts_reachable h
  have hid := (DistributorModel.inv_of_reachable hrd).lock
  have hiv := ServerModel.inv_of_reachable (System.server_reachable hrs)
  have hcal := callers hiv.go hl
  have hge0 : ∀ u, getter u ≠ 0 := fun u hu => by have := getter_ge u; omega
  have hsys : ∀ {b sys}, System.Own b → System.step parse s.sys b = some sys →
      System.weight 1 n sys < System.weight 1 n s.sys ∧
      sys.server.spawned + ServerModel.weight 1 sys.server ≤ s.sys.server.spawned + ServerModel.weight 1 s.sys.server :=
    fun hb h3 => ⟨System.weight_step hrs hl.served hcal hn hb h3, (System.spawned_step hiv.go hcal hb h3).2⟩
  have hunsent := cli_unsent hrc
  have hmove := move_of_step h hl hst
  clear hst
  unfold weight baseW
  cases hmove with
  | cli hr hc hs hm hh h1 =>
    rename_i a cli
    have : cliW cli < cliW s.cli := by
      rcases hown with rfl | ⟨ok, rfl⟩ | rfl | rfl | rfl
      · have := cli_main_weight (fun hx => (hunsent hx).2.2) h1; omega
      · exact cli_own (.inl ⟨ok, rfl⟩) h1
      · exact cli_own (.inr (.inl rfl)) h1
      · have := cli_handle_weight h1; omega
      · exact cli_own (.inr (.inr rfl)) h1
    simp only
    omega
  | send ha hc hs h1 h2 =>
    rename_i a c cli dist
    have : cliW cli + 14 < cliW s.cli := by
      rcases ha with ⟨rfl, hx⟩ | ⟨rfl, hx⟩
      · have := cli_main_weight (fun hx => (hunsent hx).2.2) h1; rw [hx] at this; exact this
      · have := cli_handle_weight h1; rw [hx] at this; exact this
    obtain ⟨h3, h4⟩ := dist_produce h2
    have := getters_same (n := n) (d := s.dist) (d' := dist) (fun t => by rw [h4])
    simp only
    omega
  | dist ha h2 =>
    rename_i a dist
    simp only
    rcases dist_weight hid hl.link ha h2 with ⟨h3, h4⟩ | ⟨h3, u, p, h4, h5, h6⟩
    · have := getters_same (n := n) h4
      omega
    · have := getters_one hiv.go hcal hn (asked_of_reachable h u h4) h5 h6
      omega
  | subscribed hpc h2 h3 =>
    obtain ⟨h4, h5⟩ := dist_subscribed hid hl.link hpc h2
    obtain ⟨h6, h7⟩ := hsys (by simp [System.Own, ServerModel.Action.own, ServerModel.Action.inner]) h3
    simp only [getters_same h5]
    omega
  | take h1 h2 =>
    obtain ⟨h3, h4⟩ := dist_take hid hl.link.distUp.2.1 h2
    simp only [cli_recv h1, getters_same (n := n) (fun t => congrFun h4 (getter t))]
    omega
  | notify hm h2 h3 =>
    obtain ⟨h4, h5⟩ := dist_notify hid hl.link h2
    obtain ⟨h6, h7, h8⟩ := sys_config (n := n) h3
    simp only [getters_same (fun t => congrFun h5 (getter t))]
    omega
  | server hb h3 =>
    obtain ⟨h6, h7⟩ := hsys (b := .server _) hown h3
    simp only
    omega
  | takeConfig h2 h3 =>
    obtain ⟨h4, h5⟩ := dist_recv h2
    obtain ⟨h6, h7⟩ := hsys (b := .server _) hown h3
    simp only [h4, getters_same (n := n) (fun t => congrFun h5 (getter t))]
    omega
  | session hb hg hv h3 =>
    obtain ⟨h6, h7⟩ := hsys hown h3
    simp only
    omega
  | start hm hc h3 =>
    obtain ⟨h6, h7, h8⟩ := sys_call (n := n) h3
    simp only [hm, mainW]
    omega
  | exit hm hc => simp only [hm, mainW]; omega
  | subscribe hpc h2 =>
    rename_i dist
    obtain ⟨-, htr⟩ := DistributorModel.step_tr h2
    have h3 : distW dist < distW s.dist ∧ ∀ t, dist.pc (getter t) = s.dist.pc (getter t) := by
      clear h2
      cases htr <;> (refine ⟨?_, ?_⟩ <;> grind [upd_apply, distW, subW])
    simp only [getters_same (n := n) h3.2]
    omega
  | get hh hconn h2 =>
    rename_i u m dist
    obtain ⟨-, htr⟩ := DistributorModel.step_tr h2
    have h3 : distW dist = distW s.dist ∧ (∀ t, dist.pc (getter t) = if t = u then .getEnter else s.dist.pc (getter t)) ∧ s.dist.pc (getter u) = .idle := by
      clear h2
      have hinj := @getter_inj
      have := hge0 u
      cases htr <;> (refine ⟨?_, ?_, ?_⟩ <;> grind [upd_apply, distW])
    have := getters_one hiv.go hcal hn hconn h3.2.1 (by rw [h3.2.2]; simp [getW])
    simp only
    omega
  | gotten hpc hv h3 =>
    obtain ⟨h6, h7⟩ := hsys (by simp [System.Own, FullSession.Internal]) h3
    simp only
    omega

end Gevulot.Process
