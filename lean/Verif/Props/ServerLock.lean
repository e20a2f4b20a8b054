import Verif.Proofs.ServerLock
import Verif.Props.Server

/-!
# C106: the server with its mutex

`s` ranges over every state reachable when taking the mutex, giving it back, and each thing done in between are steps of their own,
interleaved with the steps of every other goroutine.
-/

namespace Gevulot.ServerLock

open ServerModel (Tid)

/-- C106: each state looks like a state of Model/Server.lean, and if the mutex is free it is one. So what is proved there is true at every moment
of the real thing, except for what the mutex guards while somebody has it. -/
theorem C106 (c : Option ServerModel.Addr) (s : State) (h : Reachable step (init c) s) :
    ∃ g, Reachable ServerModel.step (ServerModel.init c) g ∧ LooksLike s g :=
  ⟨abs s, abs_reachable h, looksLike_abs s⟩

/-- C106, and what follows looks like what follows there. -/
theorem C106_run (c : Option ServerModel.Addr) (s s' : State) (acts : List Action) (h : Reachable step (init c) s) (hr : run step s acts = some s') :
    ∃ g g', Reachable ServerModel.step (ServerModel.init c) g ∧ LooksLike s g ∧ Reachable ServerModel.step g g' ∧ LooksLike s' g' :=
  ⟨abs s, abs s', abs_reachable h, looksLike_abs s, abs_run (inv_of_reachable h) hr, looksLike_abs s'⟩

/-- C106, conversely each state of Model/Server.lean is one of these, so what is refuted there is refuted. -/
theorem C106_all (c : Option ServerModel.Addr) (g : ServerModel.State) (h : Reachable ServerModel.step (ServerModel.init c) g) :
    Reachable step (init c) { base := g, held := none } := fine_run h

/-- C106, the listener, the listeners ever installed and the sessions are changed by the thread which has the mutex, and by nobody else; -/
theorem C106_mutex (c : Option ServerModel.Addr) (s s' : State) (a : Action) (h : Reachable step (init c) s) (hs : step s a = some s')
    (hd : s'.base.listener ≠ s.base.listener ∨ s'.base.installed ≠ s.base.installed ∨ s'.base.sessions ≠ s.base.sessions) :
    a = .inside ∧ ∃ t x, s.held = some (t, x) ∧ locks (s.base.pc t) = true ∧ ∀ u, s'.held = some u → u.1 = t := by
  have hi := inv_of_reachable h
  have hlk : ∀ t x, s.held = some (t, x) → locks (s.base.pc t) = true := fun t x hx => locks_of_holds (hi.holds t x hx)
  clear h
  unfold step at hs
  split at hs
  · simp at hs
  cases a with
  | other b =>
    simp only at hs
    split at hs
    · simp at hs
    rename_i hl
    simp only [Option.map_eq_some_iff] at hs
    obtain ⟨g', hg, rfl⟩ := hs
    obtain ⟨k1, k2, k3, -⟩ := step_keeps (by simpa using hl) hg
    simp [k1, k2, k3] at hd
  | lock t =>
    simp only at hs
    split at hs
    · split at hs
      · simp only [Option.some.injEq] at hs; subst hs
        simp at hd
      · simp at hs
    · simp at hs
  | inside =>
    refine ⟨rfl, ?_⟩
    simp only at hs
    split at hs
    · rename_i t hh
      split at hs
      all_goals try (simp at hs; done)
      all_goals simp only [Option.some.injEq] at hs; subst hs; exact ⟨t, _, hh, hlk t _ hh, by simp⟩
    · rename_i t hh
      split at hs
      · simp only [Option.some.injEq] at hs; subst hs; exact ⟨t, _, hh, hlk t _ hh, by simp⟩
      · simp at hs
    all_goals first
      | (rename_i t _ hh; simp only [Option.some.injEq] at hs; subst hs; exact ⟨t, _, hh, hlk t _ hh, by simp⟩)
      | simp at hs
  | closeSession u =>
    simp only at hs
    split at hs
    · split at hs
      · simp only [Option.some.injEq] at hs; subst hs
        simp at hd
      · simp at hs
    · simp at hs

/-- who can always go on until it gives the mutex back, without waiting for anybody, -/
theorem C106_goes_on (c : Option ServerModel.Addr) (s : State) (h : Reachable step (init c) s) (hp : s.base.watchdogPanic = false ∧ s.base.sendPanic = false)
    (t : Tid) (x : Section) (hx : s.held = some (t, x)) :
    (∃ s', step s .inside = some s') ∨ ∃ u s', step s (.closeSession u) = some s' := holder_goes_on (inv_of_reachable h) hp hx

/-- after finitely many steps, however the goroutines take turns. -/
theorem C106_finite (c : Option ServerModel.Addr) (s : State) (h : Reachable step (init c) s) :
    ∃ n, ∀ acts s', (∀ a ∈ acts, a.own = true) → run step s acts = some s' → acts.length ≤ n := finite h

/-- C106, so when the server has nothing to do, the mutex is free and nobody waits for it: it is a state of Model/Server.lean which has nothing to do. -/
theorem C106_rest (c : Option ServerModel.Addr) (s : State) (h : Reachable step (init c) s) (hp : s.base.watchdogPanic = false ∧ s.base.sendPanic = false)
    (hr : AtRest s) : s.held = none ∧ ServerModel.AtRest s.base ∧ Reachable ServerModel.step (ServerModel.init c) s.base := by
  have hi := inv_of_reachable h
  have hf := rest_free hi hp hr
  refine ⟨hf, rest_base hi hp hr, ?_⟩
  have := abs_reachable h
  simpa [abs, hf] using this

/-- C106, C51 at every moment, also while the listener is being replaced: the only listener ever installed which may be open is the current one. -/
theorem C106_one (c : Option ServerModel.Addr) (s : State) (h : Reachable step (init c) s) (ln : Nat) (hi : ln ∈ s.base.installed) (ho : s.base.lnOpen ln = true) :
    s.base.listener = some ln := current_of_reachable h ln hi ho

/-- C106, C53 with the mutex: whatever else goes on, what was installed when `Close` got the mutex, every listener and the connection of every session, is closed
when `Close` has given it back, whatever the order in which the sessions were closed. -/
theorem C106_close (c : Option ServerModel.Addr) (s s' : State) (acts : List Action) (t : Tid) (h : Reachable step (init c) s) (hx : s.held = some (t, .entered))
    (hc : s.base.pc t = .closeLock) (hr : run step s acts = some s') (hf : s'.held = none) (ht : s'.base.pc t ≠ .closeLock) :
    (∀ ln ∈ s.base.installed, s'.base.lnOpen ln = false) ∧
      ∀ u, s.base.pc u = .connRun ∨ (∃ r, s.base.pc u = .connRemove r) → s'.base.connClosed u = true := by
  have h1 : abs s = s.base := by simp [abs, hx]
  have h2 : abs s' = s'.base := by simp [abs, hf]
  have h3 := abs_reachable h
  obtain ⟨bs, h4⟩ := abs_run (inv_of_reachable h) hr
  rw [h1] at h3 h4
  rw [h2] at h4
  exact ServerModel.C53_partial_before c s.base s'.base bs t h3 hc h4 ht

/-! ## Examples -/

/-- The state after these actions. -/
def after (acts : List Action) : State := (run step (init none) acts).getD (init none)

theorem after_run {acts : List Action} (h : (run step (init none) acts).isSome = true) : run step (init none) acts = some (after acts) := by
  unfold after
  cases hr : run step (init none) acts with
  | none => simp [hr] at h
  | some s => simp

theorem after_reachable {acts : List Action} (h : (run step (init none) acts).isSome = true) : Reachable step (init none) (after acts) :=
  ⟨acts, after_run h⟩

theorem after_append {as bs : List Action} (h : (run step (init none) (as ++ bs)).isSome = true) : run step (after as) bs = some (after (as ++ bs)) := by
  have h2 := after_run h
  rw [run_append] at h2
  cases hr : run step (init none) as with
  | none => simp [hr] at h2
  | some s =>
    have : after as = s := by unfold after; rw [hr]; rfl
    rw [this]
    simpa [hr] using h2

/-- Two connections are being served, and a listener was installed. -/
def busy : List Action :=
  [.other (.userListen 1), .other (.call 0 (.serve 0)), .other (.thread (.user 0)), .lock (.user 0), .inside, .inside, .inside,
   .other (.accept (.user 0) (.conn 5)), .other (.thread (.user 0)), .other (.accept (.user 0) (.conn 6)), .other (.thread (.user 0)),
   .other (.thread (.go 0)), .other (.thread (.go 0)), .lock (.go 0), .inside, .inside,
   .other (.thread (.go 1)), .other (.thread (.go 1)), .lock (.go 1), .inside, .inside]

/-- `Close` has the mutex. -/
def locking : List Action := busy ++ [.other (.call 1 .close), .other (.thread (.user 1)), .lock (.user 1)]

/-- `Close` has closed one of the two; meanwhile the other ends by itself and waits for the mutex, and `Accept` fails. -/
def closing : List Action := locking ++ [.inside, .inside, .closeSession (.go 0), .other (.sessionEnd (.go 1) none), .other (.accept (.user 0) (.err ⟨true, false⟩))]

def closed : List Action :=
  closing ++ [.closeSession (.go 1), .inside, .inside, .inside, .lock (.go 1), .inside, .inside]

-- C106, C106_run, C106_goes_on, C106_finite: in the middle of `Close`
example : Reachable step (init none) (after closing) ∧ (after closing).held = some (.user 1, .sessions .nil [.go 1]) ∧ (after closing).base.sessions = [.go 1, .go 0] ∧
    (after closing).base.listener = none ∧ (after closing).base.pc (.go 1) = .connRemove (.session none) ∧
    (after closing).base.watchdogPanic = false ∧ (after closing).base.sendPanic = false :=
  ⟨after_reachable (by decide), by rfl, by decide, by rfl, by rfl, by decide, by decide⟩

example : ((run step (after closing) [.lock (.go 1)]).isSome = false) ∧ (run step (after closing) [.inside]).isSome = false ∧
    (run step (after closing) [.closeSession (.go 1), .inside]).isSome = true := ⟨by decide, by decide, by decide⟩

-- C106_mutex: the sessions are forgotten
example : ∃ s', step (after (closing ++ [.closeSession (.go 1), .inside])) .inside = some s' ∧ s'.base.sessions ≠ (after (closing ++ [.closeSession (.go 1), .inside])).base.sessions := by
  have h := after_run (acts := closing ++ [.closeSession (.go 1), .inside, .inside]) (by decide)
  have h2 := after_append (as := closing ++ [.closeSession (.go 1), .inside]) (bs := [.inside]) (by decide)
  refine ⟨after (closing ++ [.closeSession (.go 1), .inside] ++ [.inside]), ?_, by decide⟩
  simp only [run] at h2
  split at h2
  · rename_i s1 h3; rw [h3]; exact h2
  · simp at h2

-- C106_close
example : Reachable step (init none) (after locking) ∧ (after locking).held = some (.user 1, .entered) ∧ (after locking).base.pc (.user 1) = .closeLock ∧
    run step (after locking) (closed.drop locking.length) = some (after closed) ∧ (after closed).held = none ∧ (after closed).base.pc (.user 1) ≠ .closeLock ∧
    (after locking).base.installed = [0] ∧ (after locking).base.lnOpen 0 = true ∧ (after locking).base.pc (.go 0) = .connRun ∧ (after locking).base.connClosed (.go 0) = false :=
  ⟨after_reachable (by decide), by rfl, by rfl, after_append (by decide), by rfl, by decide, by decide, by decide, by rfl, by decide⟩

/-- A second listener is about to be installed: the first one is closed. -/
def replacing : List Action := busy ++ [.other (.userListen 2), .other (.call 2 (.serve 1)), .other (.thread (.user 2)), .lock (.user 2), .inside]

-- C106_one
example : Reachable step (init none) (after replacing) ∧ (after replacing).base.installed = [0] ∧ (after replacing).base.listener = some 0 ∧
    (after replacing).base.lnOpen 0 = false ∧ (after busy).base.lnOpen 0 = true ∧ (after replacing).held = some (.user 2, .assign) :=
  ⟨after_reachable (by decide), by decide, by rfl, by decide, by decide, by rfl⟩

-- C106_all: the execution which refutes C53 in Model/Server.lean
example : Reachable step (init none) { base := ServerModel.after ServerModel.lateServe, held := none } :=
  C106_all none _ (ServerModel.after_reachable (by decide))

theorem busy_pc : (after busy).base.pc = fun t => if t = .user 0 then .serveAccept 0 else if t = .go 0 then .connRun else if t = .go 1 then .connRun else .idle := by
  funext t
  match t with
  | .user 0 => rfl
  | .user (n + 1) => rfl
  | .go 0 => rfl
  | .go 1 => rfl
  | .go (n + 2) => rfl

-- C106_rest: two sessions run, and `Serve` waits for connections
example : Reachable step (init none) (after busy) ∧ AtRest (after busy) ∧ (after busy).base.watchdogPanic = false ∧ (after busy).base.sendPanic = false := by
  refine ⟨after_reachable (by decide), fun a ha => ?_, by decide, by decide⟩
  have hh : (after busy).held = none := by rfl
  have key : ∀ t, (after busy).base.pc t = .idle ∨ (after busy).base.pc t = .connRun ∨ (after busy).base.pc t = .serveAccept 0 := by
    intro t
    rw [busy_pc]
    simp only
    repeat' split
    all_goals simp
  cases a with
  | other a =>
    cases a <;> simp [Action.inner, ServerModel.Action.inner] at ha
    case thread t => unfold step ServerModel.step; rcases key t with h | h | h <;> simp [h, locked, locks]
    case takeConfig t => unfold step ServerModel.step; rcases key t with h | h | h <;> simp [h, locked]
    case noticeShutdown t => unfold step ServerModel.step; rcases key t with h | h | h <;> simp [h, locked]
    case listen t o => unfold step ServerModel.step; rcases key t with h | h | h <;> simp [h, locked]
  | lock t => unfold step; rcases key t with h | h | h <;> simp [h, hh, locks]
  | inside => unfold step; simp [hh]
  | closeSession u => unfold step; simp [hh]

end Gevulot.ServerLock
