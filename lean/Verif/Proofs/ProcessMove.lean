import Verif.Proofs.ProcessLink

/-!
The steps of the whole program, one after the other: which parts move, given how the parts are linked.
-/

namespace Gevulot.Process

open ServerModel (Tid PC)
open DistributorModel (ChanId)

variable {parse : Bytes → Option ConnectionParams} {bytes : Nat → Bytes} {path : Option Nat} {text : Nat → CliModel.Text}

/-- The steps a reachable program can make. -/
inductive Move (parse : Bytes → Option ConnectionParams) (bytes : Nat → Bytes) (s : State) : Action → State → Prop
  | cli {a : CliModel.Action} {cli : CliModel.State} (hr : a ≠ .recv) (hc : cli.chan = s.cli.chan) (hs : cli.sent = s.cli.sent)
      (hm : a = .main → ∀ c, s.cli.main ≠ .send c) (hh : a = .handle → ∀ c, s.cli.handler ≠ .send c)
      (h1 : CliModel.step s.cli a = some cli) : Move parse bytes s (.cli a) { s with cli := cli }
  | send {a : CliModel.Action} {c : CliModel.Config} {cli : CliModel.State} {dist : DistributorModel.State}
      (ha : (a = .main ∧ s.cli.main = .send c) ∨ (a = .handle ∧ s.cli.handler = .send c))
      (hc : cli.chan = s.cli.chan ++ [c]) (hs : cli.sent = s.cli.sent ++ [c])
      (h1 : CliModel.step s.cli a = some cli) (h2 : DistributorModel.step s.dist (.produce (encode c)) = some dist) :
      Move parse bytes s (.cli a) { s with cli := cli, dist := dist }
  | dist {a : DistributorModel.Action} {dist : DistributorModel.State}
      (ha : (∃ t, a = .thread t ∧ (∀ ch ks, s.dist.pc t ≠ .subLocked ch ks)) ∨ (∃ i, a = .monLock i) ∨ (∃ i, a = .monDone i) ∨ (∃ t, a = .cancel t) ∨
        (∃ i t, a = .monNotify i (.getter t)))
      (h2 : DistributorModel.step s.dist a = some dist) : Move parse bytes s (.dist a) { s with dist := dist }
  | subscribed {t n : Nat} {ks : List DistributorModel.Check} {dist : DistributorModel.State} {sys : System.State} (hpc : s.dist.pc t = .subLocked (.user n) ks)
      (h2 : DistributorModel.step s.dist (.thread t) = some dist) (h3 : System.step parse s.sys (.server (.thread (.user 0))) = some sys) :
      Move parse bytes s (.dist (.thread t)) { s with dist := dist, sys := sys }
  | take {i : Nat} {cli : CliModel.State} {dist : DistributorModel.State} (h1 : CliModel.step s.cli .recv = some cli)
      (h2 : DistributorModel.step s.dist (.monTake i) = some dist) : Move parse bytes s (.dist (.monTake i)) { s with cli := cli, dist := dist }
  | notify {i n : Nat} {old : Option DistributorModel.Config} {new : DistributorModel.Config} {rem : List ChanId} {dist : DistributorModel.State} {sys : System.State}
      (hm : s.dist.mon i = .notifying old new rem) (h2 : DistributorModel.step s.dist (.monNotify i (.user n)) = some dist)
      (h3 : System.step parse s.sys (.server (.config (decode new).listen)) = some sys) :
      Move parse bytes s (.dist (.monNotify i (.user n))) { s with dist := dist, sys := sys }
  | server {b : ServerModel.Action} {sys : System.State} (hb : Alone s.sys.server b) (h3 : System.step parse s.sys (.server b) = some sys) :
      Move parse bytes s (.sys (.server b)) { s with sys := sys }
  | takeConfig {k : Tid} {dist : DistributorModel.State} {sys : System.State} (h2 : DistributorModel.step s.dist (.userRecv 0) = some dist)
      (h3 : System.step parse s.sys (.server (.takeConfig k)) = some sys) : Move parse bytes s (.sys (.server (.takeConfig k))) { s with dist := dist, sys := sys }
  | session {b : System.Action} {sys : System.State} (hb : ∀ b', b ≠ .server b') (hg : ∀ t r, b ≠ .session t (.getConfig r)) (hv : sys.server = s.sys.server)
      (h3 : System.step parse s.sys b = some sys) : Move parse bytes s (.sys b) { s with sys := sys }
  | start {sys : System.State} (hm : s.main = .prepare) (hc : s.cli.main = .running) (h3 : System.step parse s.sys (.server (.call 0 .start)) = some sys) :
      Move parse bytes s .main { s with sys := sys, main := .start }
  | exit (hm : s.main = .prepare) (hc : s.cli.main = .failed) : Move parse bytes s .main { s with main := .exited }
  | subscribe {dist : DistributorModel.State} (hpc : s.sys.server.pc (.user 0) = .startSubscribe)
      (h2 : DistributorModel.step s.dist (.call 0 (.subscribe 0 [listenChanged])) = some dist) : Move parse bytes s .subscribe { s with dist := dist }
  | get {t : Tid} {m : StartupMessage} {dist : DistributorModel.State} (hh : (s.sys.sess t).hs = .config m) (hconn : System.isConn (s.sys.server.op t) = true)
      (h2 : DistributorModel.step s.dist (.call (getter t) .get) = some dist) : Move parse bytes s (.get t) { s with dist := dist }
  | gotten {t : Tid} {c : DistributorModel.Config} {sys : System.State} (hpc : s.dist.pc (getter t) = .returned (.config c)) (hv : sys.server = s.sys.server)
      (h3 : System.step parse s.sys (.session t (.getConfig (some (bytes (decode c).databaseURL)))) = some sys) : Move parse bytes s (.gotten t) { s with sys := sys }

theorem move_of_step {s s' : State} {a : Action} (h : Reachable (step parse bytes) (init path text) s)
    (hl : Linked s) (hs : step parse bytes s a = some s') : Move parse bytes s a s' := by
  obtain ⟨hrc, hrd, hrs⟩ := parts_reachable h
  obtain ⟨hl, hv⟩ := hl
  obtain ⟨ho, p, hp, h1, h2, h3, h4⟩ := step_plan hs
  obtain ⟨cli, dist, sys, main⟩ := s'
  simp only at h1 h2 h3 h4 ⊢
  subst h4
  clear hs
  cases a with
  | cli a =>
    simp only [plan] at hp
    unfold planCli at hp
    split at hp
    · split at hp <;> simp only [Option.some.injEq] at hp <;> subst hp <;> simp only [also, Option.some.injEq] at h1 h2 h3 <;> subst h3
      · rename_i c hc
        rcases cli_main h1 with ⟨x, hx, e1, e2⟩ | ⟨hx, -⟩
        · rw [hc] at hx
          simp only [CliModel.MainPC.send.injEq] at hx
          subst hx
          exact .send (.inl ⟨rfl, hc⟩) e1 e2 h1 h2
        · exact absurd hc (hx c)
      · rename_i hc
        subst h2
        rcases cli_main h1 with ⟨x, hx, e1, e2⟩ | ⟨hx, e1, e2⟩
        · exact absurd hx (hc x)
        · exact .cli (by simp) e1 e2 (fun _ => hx) (by simp) h1
    · split at hp <;> simp only [Option.some.injEq] at hp <;> subst hp <;> simp only [also, Option.some.injEq] at h1 h2 h3 <;> subst h3
      · rename_i c hc
        rcases cli_handle h1 with ⟨x, hx, e1, e2⟩ | ⟨hx, -⟩
        · rw [hc] at hx
          simp only [CliModel.HandlerPC.send.injEq] at hx
          subst hx
          exact .send (.inr ⟨rfl, hc⟩) e1 e2 h1 h2
        · exact absurd hc (hx c)
      · rename_i hc
        subst h2
        rcases cli_handle h1 with ⟨x, hx, e1, e2⟩ | ⟨hx, e1, e2⟩
        · exact absurd hx (hc x)
        · exact .cli (by simp) e1 e2 (by simp) (fun _ => hx) h1
    · simp at hp
    · rename_i hn1 hn2 hn3
      simp only [Option.some.injEq] at hp
      subst hp
      simp only [also, Option.some.injEq] at h1 h2 h3
      subst h2 h3
      obtain ⟨e1, e2⟩ := cli_other hn1 hn2 hn3 h1
      exact .cli hn3 e1 e2 (fun h => absurd h hn1) (fun h => absurd h hn2) h1
  | dist a =>
    simp only [plan] at hp
    unfold planDist at hp
    have hth := dist_thread hl
    have hup := hl.distUp
    split at hp
    · rename_i t
      have ht := hth t
      split at hp
      · rename_i n ks hpc
        simp only [Option.some.injEq] at hp
        subst hp
        simp only [also, Option.some.injEq] at h1 h2 h3
        subst h1
        exact .subscribed hpc h2 h3
      · rename_i n ks hpc
        simp only [hup.1, Bool.false_eq_true, if_false, Option.some.injEq] at hp
        subst hp
        simp only [also, Option.some.injEq] at h1 h2 h3
        subst h1 h3
        exact .dist (.inl ⟨t, rfl, by simp [hpc]⟩) h2
      · rename_i hpc
        rw [hpc] at ht
        simp at ht
      · rename_i hn1 hn2 hn3
        simp only [Option.some.injEq] at hp
        subst hp
        simp only [also, Option.some.injEq] at h1 h2 h3
        subst h1 h3
        refine .dist (.inl ⟨t, rfl, fun ch ks hpc => ?_⟩) h2
        cases ch with
        | user n => exact hn1 n ks hpc
        | getter n => rw [hpc] at ht; simp at ht
    · rename_i i
      split at hp
      · simp only [Option.some.injEq] at hp
        subst hp
        simp only [also, Option.some.injEq] at h1 h2 h3
        subst h3
        exact .take h1 h2
      · rename_i hsrc
        simp only [hup.1, Bool.false_eq_true, if_false, Option.some.injEq] at hp
        subst hp
        simp only [also] at h2
        exfalso
        obtain ⟨-, htr⟩ := DistributorModel.step_tr h2
        cases htr <;> simp_all
    · split at hp
      · rename_i hmon
        simp only [Option.some.injEq] at hp
        subst hp
        simp only [also, Option.some.injEq] at h1 h2 h3
        subst h1
        exact .notify hmon h2 h3
      · simp at hp
    all_goals first
      | (simp only [Option.some.injEq] at hp
         subst hp
         simp only [also, Option.some.injEq] at h1 h2 h3
         subst h1 h3
         exact .dist (by simp) h2)
      | simp at hp
  | sys a =>
    simp only [plan] at hp
    unfold planSys at hp
    split at hp
    · rename_i t
      split at hp
      · simp at hp
      · rename_i hpc
        simp only [Option.some.injEq] at hp
        subst hp
        simp only [also, Option.some.injEq] at h1 h2 h3
        subst h1 h2
        exact .server (b := .thread t) hpc h3
    · simp only [Option.some.injEq] at hp
      subst hp
      simp only [also, Option.some.injEq] at h1 h2 h3
      subst h1
      exact .takeConfig h2 h3
    · simp only [Option.some.injEq] at hp
      subst hp
      simp only [also] at h3
      exact absurd (sys_server h3) (no_notice hl.up.1)
    all_goals first
      | (simp only [Option.some.injEq] at hp
         subst hp
         simp only [also, Option.some.injEq] at h1 h2 h3
         subst h1 h2
         first
         | exact .server (by simp [Alone]) h3
         | (rcases sys_cases h3 with ⟨b, hb, -⟩ | ⟨hb, hb'⟩
            · simp at hb
            · exact .session hb (by simp_all) hb' h3))
      | simp at hp
  | main =>
    simp only [plan] at hp
    unfold planMain at hp
    split at hp
    · rename_i hmain
      split at hp
      · rename_i hr
        simp only [Option.some.injEq] at hp
        subst hp
        simp only [also, Option.some.injEq] at h1 h2 h3
        subst h1 h2
        exact .start hmain hr h3
      · rename_i hf
        simp only [Option.some.injEq] at hp
        subst hp
        simp only [also, Option.some.injEq] at h1 h2 h3
        subst h1 h2 h3
        exact .exit hmain hf
      · simp at hp
    · split at hp
      · rename_i hx
        exact absurd hx (hl.runs _)
      · simp at hp
    · rename_i hx; have := hl.main; rw [hx] at this; simp at this
    · rename_i hx; have := hl.main; rw [hx] at this; simp at this
    · simp at hp
  | subscribe =>
    simp only [plan] at hp
    split at hp
    · rename_i hpc
      simp only [Option.some.injEq] at hp
      subst hp
      simp only [also, Option.some.injEq] at h1 h2 h3
      subst h1 h3
      exact .subscribe hpc h2
    · simp at hp
  | get t =>
    simp only [plan] at hp
    split at hp
    · rename_i msg hhs
      simp only [Option.some.injEq] at hp
      subst hp
      simp only [also, Option.some.injEq] at h1 h2 h3
      subst h1 h3
      refine .get hhs (hv.called t ?_) h2
      have hst := (FullSession.hinv_of_reachable (System.session_reachable hrs t)).stage
      unfold FullSession.Stage at hst
      rw [hhs] at hst
      intro hx
      rw [hx] at hst
      simp at hst
    · simp at hp
  | gotten t =>
    simp only [plan] at hp
    split at hp
    · rename_i r hr
      simp only [Option.some.injEq] at hp
      subst hp
      simp only [also, Option.some.injEq] at h1 h2 h3
      subst h1 h2
      have hg := hl.getters t
      rw [hr] at hg
      simp only [reduceCtorEq, false_or, DistributorModel.PC.returned.injEq] at hg
      obtain ⟨⟨x, rfl⟩, -⟩ := hg
      rcases sys_cases h3 with ⟨b, hb, -⟩ | ⟨-, hb⟩
      · simp at hb
      · exact .gotten hr hb h3
    · simp at hp

/-- Only a session calls `Get`. -/
theorem asked_of_reachable {s : State} (h : Reachable (step parse bytes) (init path text) s) (t : Tid) (ht : s.dist.pc (getter t) ≠ .idle) :
    System.isConn (s.sys.server.op t) = true := by
  revert t
  refine (h.invariant (fun s => Reachable (step parse bytes) (init path text) s ∧ ∀ t, s.dist.pc (getter t) ≠ .idle → System.isConn (s.sys.server.op t) = true)
    ⟨Reachable.refl _, by simp [init, DistributorModel.init]⟩ ?_).2
  rintro s a s' ⟨hr, hk⟩ hs
  refine ⟨hr.next hs, ?_⟩
  have hl := linked_of_reachable hr
  have hiv := ServerModel.inv_of_reachable (System.server_reachable (parts_reachable hr).2.2)
  have hge0 : ∀ u, getter u ≠ 0 := fun u hu => by have := getter_ge u; omega
  -- the server forgets no call
  have hsys : ∀ {b sys}, System.step parse s.sys b = some sys → ∀ t, System.isConn (s.sys.server.op t) = true → System.isConn (sys.server.op t) = true := by
    intro b sys h3 t ht
    rcases sys_cases h3 with ⟨b', -, hb⟩ | ⟨-, hb⟩
    · rw [System.op_step hiv.go hb t (by intro h; rw [h] at ht; simp [System.isConn] at ht)]
      exact ht
    · rw [hb]; exact ht
  -- the distributor begins no call
  have hdist : ∀ {b dist}, DistributorModel.step s.dist b = some dist → (∀ n op, b ≠ .call n op) → ∀ t, dist.pc (getter t) ≠ .idle → s.dist.pc (getter t) ≠ .idle := by
    intro b dist h2 hb t ht
    obtain ⟨-, htr⟩ := DistributorModel.step_tr h2
    clear h2
    cases htr <;> (try rw [DistributorModel.finishSubscribe_eq] at ht) <;> grind [upd_apply]
  cases move_of_step hr hl hs with
  | cli hr hc hs hm hh h1 => exact hk
  | send ha hc hs h1 h2 => exact fun t ht => hk t (hdist h2 (by simp) t ht)
  | dist ha h2 => exact fun t ht => hk t (hdist h2 (by rcases ha with ⟨t, rfl, -⟩ | ⟨i, rfl⟩ | ⟨i, rfl⟩ | ⟨t, rfl⟩ | ⟨i, t, rfl⟩ <;> simp) t ht)
  | subscribed hpc h2 h3 => exact fun t ht => hsys h3 t (hk t (hdist h2 (by simp) t ht))
  | take h1 h2 => exact fun t ht => hk t (hdist h2 (by simp) t ht)
  | notify hm h2 h3 => exact fun t ht => hsys h3 t (hk t (hdist h2 (by simp) t ht))
  | server hb h3 => exact fun t ht => hsys h3 t (hk t ht)
  | takeConfig h2 h3 => exact fun t ht => hsys h3 t (hk t (hdist h2 (by simp) t ht))
  | session hb hg hv h3 => exact fun t ht => hsys h3 t (hk t ht)
  | start hm hc h3 => exact fun t ht => hsys h3 t (hk t ht)
  | exit hm hc => exact hk
  | subscribe hpc h2 =>
    intro t ht
    refine hk t fun hx => ht ?_
    obtain ⟨-, htr⟩ := DistributorModel.step_tr h2
    have := hge0 t
    clear h2
    cases htr <;> grind [upd_apply]
  | get hh hconn h2 =>
    rename_i u m dist
    intro t ht
    by_cases hu : t = u
    · exact hu ▸ hconn
    · refine hk t fun hx => ht ?_
      obtain ⟨-, htr⟩ := DistributorModel.step_tr h2
      have : getter t ≠ getter u := fun h => hu (getter_inj h)
      clear h2
      cases htr <;> grind [upd_apply]
  | gotten hpc hv h3 => exact fun t ht => hsys h3 t (hk t ht)

end Gevulot.Process
