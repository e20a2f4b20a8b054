import Verif.Spec.WatchLog
import Verif.Props.CliWatch

namespace Gevulot.WatchLog

open CliModel (Config Text readServerConfig)
open Spec (bad)

/-- `OnWrite` is not called before `Watch` is. -/
theorem onWrite_idle {w : CliWatch.State} (h : CliWatch.Inv w) (hc : w.call.caller = .idle) : w.onWrite = .none := by
  have hi := CliWatch.callInv h
  have h1 := hi.idle.mp hc
  have h2 := (hi.fresh (.inl h1)).2
  have h3 := hi.handler.mpr (.inl h2)
  cases hx : w.onWrite with
  | none => rfl
  | _ => have := h.linked.callback.mp (by simp [hx]); simp [h3] at this

/-- What is in the log, and what is known of the first reading. -/
structure Inv (s : State) : Prop where
  base : CliWatch.Inv s.watch
  log : s.log = (s.watch.reads.drop 1).filter bad
  unread : s.watch.main = .read ↔ s.watch.reads = []
  first : ∀ r, s.watch.reads.head? = some r → bad r = true → s.watch.main = .failed ∧ s.watch.call.caller = .idle
  said : s.said = true → s.watch.main = .failed

theorem inv_init (path : Option Nat) (text : Nat → Text) : Inv (init path text) :=
  ⟨CliWatch.inv_init path text, by simp [init, CliWatch.init], by simp [init, CliWatch.init], by simp [init, CliWatch.init], by simp [init]⟩

/-- A step of the rest: the caller of `Watch` that is idle and has failed stays so, and nothing is read. -/
theorem idle_step {w w' : CliWatch.State} {a : CliWatch.Action} (h : CliWatch.Inv w) (hm : w.main = .failed) (hc : w.call.caller = .idle)
    (hs : CliWatch.step w a = some w') : w'.main = .failed ∧ w'.call.caller = .idle ∧ w'.reads = w.reads := by
  have hon := onWrite_idle h hc
  have hi := CliWatch.inv_step h hs
  have hl := h.linked
  have h1 : ∀ e, w.call.watcher = .opened → ((CliWatch.notify w e).call 0).caller = .idle := fun e ho => by
    obtain ⟨evs, hn⟩ := CliWatch.call_notify (e := e) h.sound ho
    rw [hn]; exact hc
  have h2 : ∀ b x, CliWatch.watcherStep w b = some x → b ≠ .watch → (x.call 0).caller = .idle := fun b x hw hb => by
    have hm := CliWatch.moves hw
    unfold CliWatch.Moves at hm
    generalize x.call 0 = c' at hm ⊢
    generalize w.call = c at hm hc
    cases hm <;> simp_all
  have htr := CliWatch.step_tr hs
  clear hs
  cases htr
  case created x e hw | added x e h hw | close x e hw | starter x e hw | enter x hw | event x hw hh | skip x hw hh | error e x hw =>
    exact ⟨hm, h2 _ _ hw (by simp), rfl⟩
  case writeSeen t f hp hw => exact ⟨hm, h1 _ (hl.opened (by simp [hw])), rfl⟩
  case other e hr ho => exact ⟨hm, h1 _ ho, rfl⟩
  case replace | remove =>
    refine ⟨hm, ?_, rfl⟩
    unfold CliWatch.State.call CliWatch.relink
    simp only
    split
    · rename_i hx
      exact h1 _ (hl.opened (by rw [hx.2]; exact hx.1))
    · exact hc
  all_goals first | exact ⟨hm, hc, rfl⟩ | simp_all

theorem reads_step {w w' : CliWatch.State} {a : CliWatch.Action} (hs : CliWatch.step w a = some w') :
    (a = .main ∧ w.main = .read ∧ w'.reads = w.reads ++ [w.current] ∧ lines w a = [] ∧ w'.main ≠ .read ∧
      (bad w.current = true → w'.main = .failed ∧ w'.call = w.call)) ∨
    (a = .handle ∧ w.onWrite = .read ∧ w'.reads = w.reads ++ [w.current] ∧ lines w a = [w.current].filter bad ∧ w'.main = w.main) ∨
    (w'.reads = w.reads ∧ lines w a = [] ∧ (w'.main = .read ↔ w.main = .read)) := by
  have htr := CliWatch.step_tr hs
  clear hs
  cases htr
  case readFailed h hr => exact .inl ⟨rfl, h, rfl, rfl, by simp, fun _ => ⟨rfl, rfl⟩⟩
  case readOk c h hr => exact .inl ⟨rfl, h, rfl, rfl, by simp, fun hb => by simp [bad, hr] at hb⟩
  case handleFailed h hr => exact .inr (.inl ⟨rfl, h, rfl, by simp [lines, h, hr, bad], rfl⟩)
  case handleOk c h hr => exact .inr (.inl ⟨rfl, h, rfl, by simp [lines, h, hr, bad], rfl⟩)
  all_goals exact .inr (.inr ⟨rfl, by simp_all [lines], by simp_all [CliWatch.relink]⟩)

theorem inv_step {s s' : State} {a : Action} (h : Inv s) (hs : step s a = some s') : Inv s' := by
  obtain ⟨h1, h2, h3, h4, h5⟩ := h
  unfold step at hs
  split at hs
  · simp at hs
  rename_i hsaid
  cases a with
  | run =>
    simp only at hs
    split at hs
    · simp only [Option.some.injEq] at hs; subst hs
      exact ⟨h1, h2, h3, h4, fun _ => ‹_›⟩
    · simp at hs
  | watch a =>
    simp only [Option.map_eq_some_iff] at hs
    obtain ⟨w, hw, rfl⟩ := hs
    have hi := CliWatch.inv_step h1 hw
    have hfirst : ∀ r, s.watch.reads.head? = some r → bad r = true → w.main = .failed ∧ w.call.caller = .idle ∧ w.reads = s.watch.reads :=
      fun r hr hb => idle_step h1 (h4 r hr hb).1 (h4 r hr hb).2 hw
    rcases reads_step hw with ⟨rfl, e1, e2, e3, e4, e5⟩ | ⟨rfl, e1, e2, e3, e4⟩ | ⟨e1, e2, e3⟩
    · have hn := h3.mp e1
      refine ⟨hi, ?_, ?_, ?_, fun hx => absurd hx hsaid⟩
      · simp [e3, h2, e2, hn]
      · simp [e4, e2]
      · intro r hr hb
        simp only [e2, hn, List.nil_append, List.head?_cons, Option.some.injEq] at hr
        subst hr
        exact ⟨(e5 hb).1, by rw [(e5 hb).2]; exact h1.linked.before (.inl e1)⟩
    · have hne : s.watch.reads ≠ [] := fun hn => by
        have hr := h3.mpr hn
        have := onWrite_idle h1 (h1.linked.before (.inl hr))
        simp [e1] at this
      refine ⟨hi, ?_, ?_, ?_, fun hx => absurd hx hsaid⟩
      · cases hx : s.watch.reads with
        | nil => exact absurd hx hne
        | cons r rs => simp [e3, h2, e2, hx, List.filter_append]
      · simp [e4, e2, h3, hne]
      · intro r hr hb
        have hr' : s.watch.reads.head? = some r := by
          cases hx : s.watch.reads with
          | nil => exact absurd hx hne
          | cons r rs => simpa [e2, hx] using hr
        have := hfirst r hr' hb
        exact ⟨this.1, this.2.1⟩
    · refine ⟨hi, ?_, ?_, ?_, fun hx => absurd hx hsaid⟩
      · simp [e2, h2, e1]
      · simp [e3, e1, h3]
      · intro r hr hb
        rw [e1] at hr
        have := hfirst r hr hb
        exact ⟨this.1, this.2.1⟩

theorem inv_of_reachable {path : Option Nat} {text : Nat → Text} {s : State} (h : Reachable step (init path text) s) : Inv s :=
  h.invariant Inv (inv_init path text) fun _ _ _ hi hs => inv_step hi hs

theorem first_step {s s' : State} {a : Action} (h : Inv s) (hf : ∀ r, s.watch.reads.head? = some r → bad r = true → s.watch.reads = [r])
    (hs : step s a = some s') : ∀ r, s'.watch.reads.head? = some r → bad r = true → s'.watch.reads = [r] := by
  intro r hr hb
  unfold step at hs
  split at hs
  · simp at hs
  cases a with
  | run =>
    simp only at hs
    split at hs
    · simp only [Option.some.injEq] at hs; subst hs; exact hf r hr hb
    · simp at hs
  | watch a =>
    simp only [Option.map_eq_some_iff] at hs
    obtain ⟨w, hw, rfl⟩ := hs
    cases hx : s.watch.reads with
    | nil =>
      rcases reads_step hw with ⟨-, -, e, -⟩ | ⟨-, -, e, -⟩ | ⟨e, -, -⟩
      · simpa [e, hx] using hr
      · simpa [e, hx] using hr
      · simp [e, hx] at hr
    | cons r' rs =>
      have hr' : r' = r := by
        rcases reads_step hw with ⟨-, -, e, -⟩ | ⟨-, -, e, -⟩ | ⟨e, -, -⟩ <;> simpa [e, hx] using hr
      subst hr'
      have h1 := h.first r' (by simp [hx]) hb
      show w.reads = _
      rw [(idle_step h.base h1.1 h1.2 hw).2.2]
      exact hf r' (by simp [hx]) hb

theorem watch_reachable {path : Option Nat} {text : Nat → Text} {s : State} (h : Reachable step (init path text) s) :
    Reachable CliWatch.step (CliWatch.init path text) s.watch :=
  h.invariant (fun s => Reachable CliWatch.step (CliWatch.init path text) s.watch) (.refl _) fun s a s' hr hs => by
    unfold step at hs
    split at hs
    · simp at hs
    cases a with
    | run =>
      simp only at hs
      split at hs
      · simp only [Option.some.injEq] at hs; subst hs; exact hr
      · simp at hs
    | watch a =>
      simp only [Option.map_eq_some_iff] at hs
      obtain ⟨w, hw, rfl⟩ := hs
      exact hr.next hw

theorem watch_all {path : Option Nat} {text : Nat → Text} {w : CliWatch.State} (h : Reachable CliWatch.step (CliWatch.init path text) w) :
    ∃ s, Reachable step (init path text) s ∧ s.watch = w ∧ s.said = false :=
  h.invariant (fun w => ∃ s, Reachable step (init path text) s ∧ s.watch = w ∧ s.said = false) ⟨_, .refl _, rfl, rfl⟩ fun w a w' hr hs => by
    obtain ⟨s, h1, rfl, h3⟩ := hr
    exact ⟨{ s with watch := w', log := s.log ++ lines s.watch a }, h1.next (a := .watch a) (by simp [step, h3, hs]), rfl, h3⟩

/-- When nothing is left to do the file has been read as it is. -/
theorem read_last {path : Option Nat} {text : Nat → Text} {s : CliWatch.State} (h : Reachable CliWatch.step (CliWatch.init path text) s)
    (hr : CliWatch.AtRest s) (hrun : s.main = .running) (hm : s.missed = false) (hh : s.call.handler ≠ .ended) : s.reads.getLast? = some s.current := by
  have hrest := CliWatch.C103_rest path text s h hr
  have hi := CliWatch.inv_of_reachable h
  obtain ⟨acts, hrun'⟩ := h
  obtain ⟨acts', s', h1, -, ⟨⟨s1, s2, s3, s4, s5, s6, s7, s8⟩, r1, r2, r3⟩⟩ := CliWatch.refines (CliWatch.inv_init path text) (CliWatch.rel_init path text) hrun'
  obtain ⟨r4, r5, r6⟩ := r3 hh
  have hreg : s.registered = some true := by
    have h1 := (CliWatch.callInv hi).value none (hi.linked.running.mp hrun)
    exact hi.linked.added none (h1.1 rfl)
  have hcur : s'.current = s.current := by unfold CliModel.State.current CliWatch.State.current; rw [s1, s2]
  have hsel : s'.handler = .select := by rw [r2, hreg, hrest.2.2.1]; simp [CliWatch.absHandler, hh]
  rcases CliModel.freshInv_of_reachable ⟨acts', h1⟩ (by rw [r1, hrun]; simp [CliWatch.absMain]) (r6.trans hm) with ⟨e, he, hd⟩ | h' | h'
  · rw [r4, hrest.2.2.2 hh] at he; simp at he
  · rw [hsel] at h'; simp at h'
  · rwa [s7, hcur] at h'

/-- If what was read last is no configuration, the last line is about it. -/
theorem last_line {path : Option Nat} {text : Nat → Text} {s : State} (h : Reachable step (init path text) s) (hrun : s.watch.main = .running)
    (hl : s.watch.reads.getLast? = some s.watch.current) (hc : readServerConfig s.watch.current = none) : s.log.getLast? = some s.watch.current := by
  have hi := inv_of_reachable h
  have hb : bad s.watch.current = true := by simpa [bad] using hc
  rw [hi.log]
  cases hx : s.watch.reads with
  | nil => rw [hx] at hl; simp at hl
  | cons r rs =>
    rw [hx] at hl
    cases rs with
    | nil =>
      simp only [List.getLast?_singleton, Option.some.injEq] at hl
      have := (hi.first r (by rw [hx]; rfl) (by rw [hl]; exact hb)).1
      rw [hrun] at this; simp at this
    | cons r' rs =>
      rw [List.getLast?_cons_cons] at hl
      obtain ⟨pre, hpre⟩ := List.getLast?_eq_some_iff.mp hl
      simp [hpre, hb]

end Gevulot.WatchLog
