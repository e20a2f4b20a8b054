import Verif.Proofs.Process

/-!
The whole program: how its parts are tied together, continued.
-/

namespace Gevulot.Process

open ServerModel (Tid PC)
open DistributorModel (ChanId)

variable {parse : Bytes → Option ConnectionParams} {bytes : Nat → Bytes}

theorem filter_keys {l : List ChanId} (h : ∀ ch ∈ l, ch = .user 0) : l.filter (· ≠ .user 0) = [] := by
  rw [List.filter_eq_nil_iff]
  intro ch hc
  simp [h ch hc]

/-- The monitor gets to the server. -/
theorem link_notify {c : CliModel.State} {d d' : DistributorModel.State} {v v' : ServerModel.State} {m : MainPC} {i n : Nat} {old : Option DistributorModel.Config}
    {new : DistributorModel.Config} {rem : List ChanId} (hi : DistributorModel.LockInv d) (h : Link c d v m)
    (hmon : d.mon i = .notifying old new rem) (hb : ServerModel.step v (.config (decode new).listen) = some v')
    (hd : DistributorModel.step d (.monNotify i (.user n)) = some d') : Link c d' v' m := by
  obtain ⟨rfl, hst⟩ := mon_zero hi (i := i) (by rw [hmon]; simp)
  obtain ⟨hrem, hlast⟩ := hi.remaining 0 old new rem hmon
  obtain ⟨buf, hbuf, hup⟩ := h.chan
  obtain ⟨k1, k2, k3, k4, k5, k6, k7, k8, k9, k10, k11, k12, k13, k14, k15, k16, k17, k18, k19⟩ := h
  have hsub : v.subscribed = true := by
    cases hx : v.subscribed with
    | true => rfl
    | false => rw [(k11 hx).2.1] at hst; simp at hst
  obtain ⟨hk, hch, -⟩ := k12 hsub
  have hret : d.pc 0 = .returned .ok := by simpa [hsub] using k10
  rw [hk] at hrem
  simp only [List.mem_singleton] at hrem
  simp only [DistributorModel.step, k3, Bool.false_eq_true, if_false, hmon] at hd
  split at hd
  · rename_i hmem
    have hn := hrem _ hmem
    simp only [ChanId.user.injEq] at hn
    subst hn
    have hfil := filter_keys hrem
    have hne : ∃ x xs, rem = x :: xs := by cases rem with | nil => simp at hmem | cons x xs => exact ⟨x, xs, rfl⟩
    obtain ⟨x, xs, rfl⟩ := hne
    have hcur : v.current = old.map fun n => (decode n).listen := by rw [k14]; simp [shown, hmon]
    have hadr : ServerModel.addressChanged v.current (decode new).listen = DistributorModel.shouldSend [listenChanged] old new := by
      rw [hcur]
      cases old <;> simp [ServerModel.addressChanged, DistributorModel.shouldSend, listenChanged]
    rw [hch] at hd
    simp only [ServerModel.step, k2, hsub, hadr, Bool.or_self, Bool.false_eq_true, if_false, Bool.true_and] at hb
    split at hd
    · rename_i hs
      simp only [hs, if_true] at hb
      split at hb
      · rename_i hl
        have hnil : buf = [] := by
          cases buf with
          | nil => rfl
          | cons => rw [hup] at hl; simp at hl
        subst hnil
        simp only [Option.some.injEq] at hb
        subst hb
        simp only [DistributorModel.send, hbuf, Bool.false_eq_true, if_false, Nat.lt_irrefl, List.length_nil, Nat.zero_lt_one, if_true, List.nil_append] at hd
        simp only [k3, Bool.false_eq_true, if_false, Option.some.injEq, hfil] at hd
        subst hd
        refine ⟨k1, by simp [k2], by simp [k3], k4, k5, k6, k7, k8, k9, .inr (.inr ⟨by simp [hsub], hret⟩), by simp [hsub], fun _ => k12 hsub, ⟨[new], by simp, by simp [hup]⟩, ?_, k15, ?_, k17, k18, by simpa [hsub] using k19⟩
        · simp [shown, hlast]
        · intro hx; simp [hlast] at hx
      · simp at hb
    · rename_i hs
      simp only [hs, Bool.false_eq_true, if_false, Option.some.injEq] at hb
      simp only [Option.some.injEq, hfil] at hd
      subst hb hd
      refine ⟨k1, by simp [k2], by simp [k3], k4, k5, k6, k7, k8, k9, .inr (.inr ⟨by simp [hsub], hret⟩), by simp [hsub], fun _ => k12 hsub, ⟨buf, hbuf, hup⟩, ?_, k15, ?_, k17, k18, by simpa [hsub] using k19⟩
      · simp [shown, hlast]
      · intro hx; simp [hlast] at hx
  · simp at hd

/-- `Subscribe` registers the channel of the server. -/
theorem link_subscribed {c : CliModel.State} {d d' : DistributorModel.State} {v v' : ServerModel.State} {m : MainPC} {t : Nat} {ch : ChanId}
    {ks : List DistributorModel.Check} (hi : DistributorModel.LockInv d) (h : Link c d v m) (hpc : d.pc t = .subLocked ch ks)
    (hb : ServerModel.step v (.thread (.user 0)) = some v') (hd : DistributorModel.step d (.thread t) = some d') : Link c d' v' m := by
  have hge := getter_ge
  have ht : t = 0 := by
    rcases thread_cases t with rfl | rfl | ⟨u, rfl⟩
    · rfl
    · rw [h.idle] at hpc; simp at hpc
    · rcases h.getters u with hx | ⟨hx | hx | ⟨y, hx⟩, -⟩ <;> rw [hx] at hpc <;> simp at hpc
  subst ht
  obtain ⟨k1, k2, k3, k4, k5, k6, k7, k8, k9, k10, k11, k12, k13, k14, k15, k16, k17, k18, k19⟩ := h
  rcases k10 with ⟨-, hx⟩ | ⟨hs, hv, hx | hx | hx⟩ | ⟨-, hx⟩ <;> rw [hx] at hpc <;> simp at hpc
  obtain ⟨rfl, rfl⟩ := hpc
  obtain ⟨b1, b2, b3, b4⟩ := k11 hs
  have hcur : v.current = none := by
    rw [k14]
    have : d.mon 0 = .notStarted := by
      refine Decidable.byContradiction fun hn => ?_
      have := (mon_zero hi hn).2
      rw [b2] at this; simp at this
    simp [shown, this, b3]
  have hmc : d.monCount = 0 := by rw [hi.count, b2]; simp
  simp only [ServerModel.step, k2, Bool.or_self, Bool.false_eq_true, if_false, hv, Option.some.injEq] at hb
  simp only [DistributorModel.step, k3, Bool.false_eq_true, if_false, hx, b3, Option.some.injEq] at hd
  rw [DistributorModel.finishSubscribe_eq] at hd
  subst hb hd
  obtain ⟨buf, hbuf, hup⟩ := k13
  rw [b4] at hup
  have hge0 : ∀ u, getter u ≠ 0 := fun u hu => by have := hge u; omega
  constructor <;> first | assumption | simp_all [upd_apply, shown, DistributorModel.afterSubscribe, early, late]

/-- A thread of the distributor is `Start`'s call of `Subscribe`, or a call of `Get`. -/
theorem dist_thread {c : CliModel.State} {d : DistributorModel.State} {v : ServerModel.State} {m : MainPC} (h : Link c d v m) (t : Nat) :
    (t = 0 ∧ ((v.subscribed = false ∧ d.pc t = .idle) ∨
      (v.subscribed = false ∧ v.pc (.user 0) = .startSubscribe ∧
        (d.pc t = .subCheck (.user 0) [listenChanged] ∨ d.pc t = .subLock (.user 0) [listenChanged] ∨ d.pc t = .subLocked (.user 0) [listenChanged])) ∨
      (v.subscribed = true ∧ d.pc t = .returned .ok))) ∨
    (t ≠ 0 ∧ (d.pc t = .idle ∨ d.pc t = .getEnter ∨ d.pc t = .getSnapshot ∨ ∃ x, d.pc t = .returned (.config x))) := by
  rcases thread_cases t with rfl | rfl | ⟨u, rfl⟩
  · exact .inl ⟨rfl, h.sub⟩
  · exact .inr ⟨by simp, .inl h.idle⟩
  · have := getter_ge u
    refine .inr ⟨by omega, ?_⟩
    rcases h.getters u with hx | ⟨hx | hx | hx, -⟩
    · exact .inl hx
    · exact .inr (.inl hx)
    · exact .inr (.inr (.inl hx))
    · exact .inr (.inr (.inr hx))

/-- `Start` calls `Subscribe`. -/
theorem link_subscribe {c : CliModel.State} {d d' : DistributorModel.State} {v : ServerModel.State} {m : MainPC} (h : Link c d v m)
    (hv : v.pc (.user 0) = .startSubscribe) (hd : DistributorModel.step d (.call 0 (.subscribe 0 [listenChanged])) = some d') : Link c d' v m := by
  have hge0 : ∀ u, getter u ≠ 0 := fun u hu => by have := getter_ge u; omega
  obtain ⟨k1, k2, k3, k4, k5, k6, k7, k8, k9, k10, k11, k12, k13, k14, k15, k16, k17, k18, k19⟩ := h
  obtain ⟨hp, htr⟩ := DistributorModel.step_tr hd
  clear hd
  cases htr
  all_goals (constructor <;> grind [upd_apply, shown])

/-- A session calls `Get`. -/
theorem link_get {c : CliModel.State} {d d' : DistributorModel.State} {v : ServerModel.State} {m : MainPC} {t : Tid} (h : Link c d v m)
    (hc : d.lastConfig ≠ none) (hd : DistributorModel.step d (.call (getter t) .get) = some d') : Link c d' v m := by
  have hge := getter_ge t
  have hinj := @getter_inj
  obtain ⟨k1, k2, k3, k4, k5, k6, k7, k8, k9, k10, k11, k12, k13, k14, k15, k16, k17, k18, k19⟩ := h
  obtain ⟨hp, htr⟩ := DistributorModel.step_tr hd
  clear hd
  cases htr
  all_goals (constructor <;> grind [upd_apply, shown])

/-- `main` calls `Start`. -/
theorem link_start {c : CliModel.State} {d : DistributorModel.State} {v v' : ServerModel.State} {m : MainPC} (h : Link c d v m) (hm : m = .prepare)
    (hb : ServerModel.step v (.call 0 .start) = some v') : Link c d v' .start := by
  obtain ⟨k1, k2, k3, k4, k5, k6, k7, k8, k9, k10, k11, k12, k13, k14, k15, k16, k17, k18, k19⟩ := h
  subst hm
  obtain ⟨hp, htr⟩ := ServerModel.step_tr hb
  cases htr
  constructor <;> grind [upd_apply, early, late, ServerModel.entry]

theorem cli_main {c c' : CliModel.State} (hs : CliModel.step c .main = some c') :
    (∃ x, c.main = .send x ∧ c'.chan = c.chan ++ [x] ∧ c'.sent = c.sent ++ [x]) ∨ ((∀ x, c.main ≠ .send x) ∧ c'.chan = c.chan ∧ c'.sent = c.sent) := by
  have := CliModel.step_tr hs
  cases this <;> simp_all

theorem cli_handle {c c' : CliModel.State} (hs : CliModel.step c .handle = some c') :
    (∃ x, c.handler = .send x ∧ c'.chan = c.chan ++ [x] ∧ c'.sent = c.sent ++ [x]) ∨ ((∀ x, c.handler ≠ .send x) ∧ c'.chan = c.chan ∧ c'.sent = c.sent) := by
  have := CliModel.step_tr hs
  cases this <;> simp_all

theorem cli_other {c c' : CliModel.State} {a : CliModel.Action} (h1 : a ≠ .main) (h2 : a ≠ .handle) (h3 : a ≠ .recv) (hs : CliModel.step c a = some c') :
    c'.chan = c.chan ∧ c'.sent = c.sent := by
  have := CliModel.step_tr hs
  cases this <;> simp_all [CliModel.relink]

theorem sys_server {s s' : System.State} {b : ServerModel.Action} (h : System.step parse s (.server b) = some s') : ServerModel.step s.server b = some s'.server := by
  rcases sys_cases h with ⟨b', hb, hs⟩ | ⟨hb, -⟩
  · simp only [System.Action.server.injEq] at hb; exact hb ▸ hs
  · exact absurd rfl (hb b)

theorem no_notice {v v' : ServerModel.State} {t : Tid} (h : v.shutdown = false) : ¬ ServerModel.step v (.noticeShutdown t) = some v' := by
  intro hs
  obtain ⟨-, htr⟩ := ServerModel.step_tr hs
  cases htr <;> simp_all

/-- The invariant of the whole program. -/
structure Linked (s : State) : Prop where
  link : Link s.cli s.dist s.sys.server s.main
  served : System.Served s.sys

theorem served_init : System.Served (System.init none) := by
  constructor <;> simp [System.init, FullSession.init, SessionModel.init]

theorem linked_step {path : Option Nat} {text : Nat → CliModel.Text} {s s' : State} {a : Action} (h : Reachable (step parse bytes) (init path text) s)
    (hl : Linked s) (hs : step parse bytes s a = some s') : Linked s' := by
  obtain ⟨hrc, hrd, hrs⟩ := parts_reachable h
  have hid := (DistributorModel.inv_of_reachable hrd).lock
  have hiv := ServerModel.inv_of_reachable (System.server_reachable hrs)
  obtain ⟨hl, hv⟩ := hl
  obtain ⟨ho, p, hp, h1, h2, h3, h4⟩ := step_plan hs
  have hm : s.main ≠ .exited := by
    intro hx; simp [State.over, hx] at ho
  refine ⟨?_, ?_⟩
  swap
  · cases hq : p.sys with
    | none => rw [hq] at h3; simp only [also, Option.some.injEq] at h3; exact h3 ▸ hv
    | some b => rw [hq] at h3; exact System.served_step hiv hv h3
  obtain ⟨cli, dist, sys, main⟩ := s'
  simp only at h1 h2 h3 h4 ⊢
  subst h4
  clear hs
  cases a with
  | cli a =>
    simp only [plan] at hp
    unfold planCli at hp
    split at hp
    · split at hp <;> simp only [Option.some.injEq] at hp <;> subst hp <;> simp only [also, Option.some.injEq] at h1 h2 h3 <;> subst h3
      · rename_i c hc
        rcases cli_main h1 with ⟨x, hx, e1, e2⟩ | ⟨hx, -⟩
        · rw [hc] at hx
          simp only [CliModel.MainPC.send.injEq] at hx
          subst hx
          exact link_produce hl hm e1 e2 h2
        · exact absurd hc (hx c)
      · rename_i hc
        subst h2
        rcases cli_main h1 with ⟨x, hx, e1, e2⟩ | ⟨hx, e1, e2⟩
        · exact absurd hx (hc x)
        · exact link_cli hl hm e1 e2
    · split at hp <;> simp only [Option.some.injEq] at hp <;> subst hp <;> simp only [also, Option.some.injEq] at h1 h2 h3 <;> subst h3
      · rename_i c hc
        rcases cli_handle h1 with ⟨x, hx, e1, e2⟩ | ⟨hx, -⟩
        · rw [hc] at hx
          simp only [CliModel.HandlerPC.send.injEq] at hx
          subst hx
          exact link_produce hl hm e1 e2 h2
        · exact absurd hc (hx c)
      · rename_i hc
        subst h2
        rcases cli_handle h1 with ⟨x, hx, e1, e2⟩ | ⟨hx, e1, e2⟩
        · exact absurd hx (hc x)
        · exact link_cli hl hm e1 e2
    · simp at hp
    · rename_i hn1 hn2 hn3
      simp only [Option.some.injEq] at hp
      subst hp
      simp only [also, Option.some.injEq] at h1 h2 h3
      subst h2 h3
      obtain ⟨e1, e2⟩ := cli_other hn1 hn2 hn3 h1
      exact link_cli hl hm e1 e2
  | dist a =>
    simp only [plan] at hp
    unfold planDist at hp
    have hth := dist_thread hl
    have hup := hl.distUp
    split at hp
    · rename_i t
      have ht := hth t
      split at hp
      · rename_i n ks hpc
        simp only [Option.some.injEq] at hp
        subst hp
        simp only [also, Option.some.injEq] at h1 h2 h3
        subst h1
        exact link_subscribed hid hl hpc (sys_server h3) h2
      · rename_i n ks hpc
        simp only [hup.1, Bool.false_eq_true, if_false, Option.some.injEq] at hp
        subst hp
        simp only [also, Option.some.injEq] at h1 h2 h3
        subst h1 h3
        exact link_dist hid hl (.inl ⟨t, rfl, by simp [hpc]⟩) h2
      · rename_i hpc
        rw [hpc] at ht
        simp at ht
      · rename_i hn1 hn2 hn3
        simp only [Option.some.injEq] at hp
        subst hp
        simp only [also, Option.some.injEq] at h1 h2 h3
        subst h1 h3
        refine link_dist hid hl (.inl ⟨t, rfl, fun ch ks hpc => ?_⟩) h2
        cases ch with
        | user n => exact hn1 n ks hpc
        | getter n => rw [hpc] at ht; simp at ht
    · rename_i i
      split at hp
      · simp only [Option.some.injEq] at hp
        subst hp
        simp only [also, Option.some.injEq] at h1 h2 h3
        subst h3
        exact link_monTake hid hl hm h1 h2
      · rename_i hsrc
        simp only [hup.1, Bool.false_eq_true, if_false, Option.some.injEq] at hp
        subst hp
        simp only [also] at h2
        exfalso
        obtain ⟨-, htr⟩ := DistributorModel.step_tr h2
        cases htr <;> simp_all
    · split at hp
      · rename_i hmon
        simp only [Option.some.injEq] at hp
        subst hp
        simp only [also, Option.some.injEq] at h1 h2 h3
        subst h1
        exact link_notify hid hl hmon (sys_server h3) h2
      · simp at hp
    all_goals first
      | (simp only [Option.some.injEq] at hp
         subst hp
         simp only [also, Option.some.injEq] at h1 h2 h3
         subst h1 h3
         exact link_dist hid hl (by simp) h2)
      | simp at hp
  | sys a =>
    simp only [plan] at hp
    unfold planSys at hp
    split at hp
    · rename_i t
      split at hp
      · simp at hp
      · rename_i hpc
        simp only [Option.some.injEq] at hp
        subst hp
        simp only [also, Option.some.injEq] at h1 h2 h3
        subst h1 h2
        exact link_server (b := .thread t) hiv hl hpc (sys_server h3)
    · simp only [Option.some.injEq] at hp
      subst hp
      simp only [also, Option.some.injEq] at h1 h2 h3
      subst h1
      exact link_take hiv hl (sys_server h3) h2
    · simp only [Option.some.injEq] at hp
      subst hp
      simp only [also] at h3
      exact absurd (sys_server h3) (no_notice hl.up.1)
    all_goals first
      | (simp only [Option.some.injEq] at hp
         subst hp
         simp only [also, Option.some.injEq] at h1 h2 h3
         subst h1 h2
         first
         | exact link_server hiv hl (by simp [Alone]) (sys_server h3)
         | (rcases sys_cases h3 with ⟨b, hb, -⟩ | ⟨-, hb⟩
            · simp at hb
            · rw [hb]; exact hl))
      | simp at hp
  | main =>
    simp only [plan] at hp
    unfold planMain at hp
    split at hp
    · rename_i hmain
      split at hp
      · simp only [Option.some.injEq] at hp
        subst hp
        simp only [also, Option.some.injEq] at h1 h2 h3
        subst h1 h2
        exact link_start hl hmain (sys_server h3)
      · rename_i hf
        simp only [Option.some.injEq] at hp
        subst hp
        simp only [also, Option.some.injEq] at h1 h2 h3
        subst h1 h2 h3
        obtain ⟨k1, k2, k3, k4, k5, k6, k7, k8, k9, k10, k11, k12, k13, k14, k15, k16, k17, k18, k19⟩ := hl
        refine ⟨.inr (.inr ⟨rfl, hf⟩), k2, k3, fun n op hop => ?_, by simp, k6, k7, k8, k9, k10, k11, k12, k13, k14, k15, k16, k17, k18, k19⟩
        have := (k4 n op hop).2.2
        rw [hmain] at this; simp at this
      · simp at hp
    · split at hp
      · rename_i hx
        exact absurd hx (hl.runs _)
      · simp at hp
    · rename_i hx; have := hl.main; rw [hx] at this; simp at this
    · rename_i hx; have := hl.main; rw [hx] at this; simp at this
    · simp at hp
  | subscribe =>
    simp only [plan] at hp
    split at hp
    · rename_i hpc
      simp only [Option.some.injEq] at hp
      subst hp
      simp only [also, Option.some.injEq] at h1 h2 h3
      subst h1 h3
      exact link_subscribe hl hpc h2
    · simp at hp
  | get t =>
    simp only [plan] at hp
    split at hp
    · rename_i msg hhs
      simp only [Option.some.injEq] at hp
      subst hp
      simp only [also, Option.some.injEq] at h1 h2 h3
      subst h1 h3
      refine link_get hl (fun hn => ?_) h2
      have hst := (FullSession.hinv_of_reachable (System.session_reachable hrs t)).stage
      have hcall : (s.sys.sess t).base.start ≠ .notCalled := by
        unfold FullSession.Stage at hst
        rw [hhs] at hst
        intro hx
        rw [hx] at hst
        simp at hst
      have hconn := hv.called t hcall
      cases t with
      | user n =>
        cases hop : s.sys.server.op (.user n) with
        | none => rw [hop] at hconn; simp [System.isConn] at hconn
        | some op => rw [hop, (hl.users n op hop).2.1] at hconn; simp [System.isConn] at hconn
      | go n =>
        have h0 := (hl.fresh hn).2.1
        have hidle := (hiv.go.fresh n).mpr (by omega)
        rw [(hiv.go.opIdle _).mpr hidle] at hconn
        simp [System.isConn] at hconn
    · simp at hp
  | gotten t =>
    simp only [plan] at hp
    split at hp
    · simp only [Option.some.injEq] at hp
      subst hp
      simp only [also, Option.some.injEq] at h1 h2 h3
      subst h1 h2
      rcases sys_cases h3 with ⟨b, hb, -⟩ | ⟨-, hb⟩
      · simp at hb
      · rw [hb]; exact hl
    · simp at hp

theorem linked_of_reachable {path : Option Nat} {text : Nat → CliModel.Text} {s : State} (h : Reachable (step parse bytes) (init path text) s) : Linked s :=
  (h.invariant (fun s => Reachable (step parse bytes) (init path text) s ∧ Linked s) ⟨Reachable.refl _, link_init, served_init⟩
    fun _ _ _ hi hs => ⟨hi.1.next hs, linked_step hi.1 hi.2 hs⟩).2

end Gevulot.Process
