import Verif.Proofs.Cli

/-!
# C58–C61, C65, C66: the command line and the configuration file
-/

namespace Gevulot.CliModel

/-! ## C58 Exit code and side effects of the command line -/

/-- `--help` or `--version` was given. -/
def AsksHelp (w : World) : Prop := ∃ f, w.parse = .ok f ∧ (f.help = true ∨ f.version = true)

/-- The server gets to run with the configuration `c`. -/
def Starts (w : World) (c : Config) : Prop :=
  ∃ f, w.parse = .ok f ∧ f.help = false ∧ f.version = false ∧ w.read f.path = .ok c ∧ w.watch f.path = none

def Effect.isMessage : Effect → Bool
  | .stderrArgs _ => true
  | .stderrConfig _ => true
  | .stderrServer _ => true
  | _ => false

/-- C58: the exit code is 0 iff help was asked for or the server ran and returned no error, and 1 otherwise; -/
theorem C58 (w : World) :
    ((runCli w).1 = 0 ↔ AsksHelp w ∨ ∃ c, Starts w c ∧ w.server c = none) ∧ ((runCli w).1 = 0 ∨ (runCli w).1 = 1) := by
  unfold runCli parseArgs prepareConfigChan AsksHelp Starts
  cases hp : w.parse with
  | error e => simp
  | ok f =>
    cases hh : f.help <;> cases hv : f.version
    case false.false =>
      cases hr : w.read f.path with
      | error e => simp [hh, hv, hr]
      | ok c =>
        cases hw : w.watch f.path with
        | some e => simp [hh, hv, hr, hw]
        | none => cases hs : w.server c <;> simp [hh, hv, hr, hw, hs]
    all_goals simp [hh, hv]

/-- with help or version nothing is read, watched or run; -/
theorem C58_help (w : World) (h : AsksHelp w) : runCli w = (0, []) := by
  obtain ⟨f, hp, hf⟩ := h
  have : (f.help || f.version) = true := by rcases hf with hf | hf <;> simp [hf]
  simp [runCli, parseArgs, hp, this]

/-- the server is run, once, with the configuration that was read, iff the arguments parse, no help was asked for, and the
configuration can be read and watched; -/
theorem C58_server (w : World) (c : Config) :
    ((runCli w).2.filter (fun e => match e with | .runServer _ => true | _ => false) = [.runServer c] ↔ Starts w c) ∧
    ((∀ c, ¬ Starts w c) → ∀ c, .runServer c ∉ (runCli w).2) := by
  unfold runCli parseArgs prepareConfigChan Starts
  cases hp : w.parse with
  | error e => simp
  | ok f =>
    cases hh : f.help <;> cases hv : f.version
    case false.false =>
      cases hr : w.read f.path with
      | error e => simp [hh, hv, hr]
      | ok c' =>
        cases hw : w.watch f.path with
        | some e => simp [hh, hv, hr, hw]
        | none => cases hs : w.server c' <;> simp [hh, hv, hr, hw, hs]
    all_goals simp [hh, hv]

/-- and there is a message on stderr, one, iff the exit code is not 0. -/
theorem C58_message (w : World) :
    ((runCli w).2.filter Effect.isMessage).length = (runCli w).1 := by
  unfold runCli parseArgs prepareConfigChan
  cases hp : w.parse with
  | error e => rfl
  | ok f =>
    cases hh : f.help <;> cases hv : f.version
    case false.false =>
      cases hr : w.read f.path with
      | error e => simp [hh, hv, hr]; rfl
      | ok c' =>
        cases hw : w.watch f.path with
        | some e => simp [hh, hv, hr, hw]; rfl
        | none => cases hs : w.server c' <;> simp [hh, hv, hr, hw, hs] <;> first | rfl | exact ⟨rfl, rfl, rfl⟩
    all_goals simp [hh, hv]

/-- C58, with the real server, which never returns without an error (C50): the exit code is 0 iff help was asked for. -/
theorem C58_real (w : World) (h : ∀ c, w.server c ≠ none) : (runCli w).1 = 0 ↔ AsksHelp w := by
  rw [(C58 w).1]
  constructor
  · rintro (h' | ⟨c, -, h'⟩)
    · exact h'
    · exact absurd h' (h c)
  · exact .inl

example : runCli ⟨.ok ⟨false, false, true, 1⟩, fun _ => .ok ⟨5, 6⟩, fun _ => none, fun _ => some 7⟩ = (1, [.readConfig 1, .watch 1, .runServer ⟨5, 6⟩, .stderrServer 7]) := rfl
example : AsksHelp ⟨.ok ⟨false, true, true, 1⟩, fun _ => .ok ⟨5, 6⟩, fun _ => none, fun _ => some 7⟩ := ⟨_, rfl, .inr rfl⟩
example : Starts ⟨.ok ⟨false, false, true, 1⟩, fun _ => .ok ⟨5, 6⟩, fun _ => none, fun _ => some 7⟩ ⟨5, 6⟩ := ⟨_, rfl, rfl, rfl, rfl, rfl⟩

/-! ## C59 A bad configuration file never replaces a good one -/

/-- C59: what the server receives is, in order, what was sent; what was sent is, in order and starting with the first reading,
exactly what could be read as a configuration, apart from one that is about to be sent; and whatever was read was the content
of the file at some time. -/
theorem C59 (path : Option Nat) (text : Nat → Text) (s : State) (h : Reachable step (init path text) s) :
    s.received <+: s.sent ∧ (∃ next, next.length ≤ 1 ∧ s.sent ++ next = s.reads.filterMap readServerConfig) ∧ ∀ r ∈ s.reads, r ∈ s.history := by
  have inv := inv_of_reachable h
  refine ⟨⟨_, inv.received⟩, ⟨_, ?_, inv.sent⟩, inv.reads⟩
  have := inv.order
  cases hm : s.main <;> cases hh : s.handler <;> simp_all [MainPC.sending, HandlerPC.sending, MainPC.started]

/-- C59, a reading that fails sends nothing. -/
theorem C59_bad (s s' : State) (h : s.handler = .read) (hbad : readServerConfig s.current = none) (hs : step s .handle = some s') :
    s' = { s with handler := .select, reads := s.reads ++ [s.current] } := by
  simp only [step, h, hbad, Option.some.injEq] at hs
  exact hs.symm

/-! ## C60 The last configuration written is eventually in effect -/

/-- C60: if no change went without a notification, then when all notifications have been handled, the last configuration sent
is the current content of the file, provided it can be read. -/
theorem C60 (path : Option Nat) (text : Nat → Text) (s : State) (h : Reachable step (init path text) s) (hrun : s.main = .running)
    (hm : s.missed = false) (hh : s.handler = .select) (hq : ∀ e ∈ s.queue, e.write = false) (c : Config)
    (hc : readServerConfig s.current = some c) : s.sent.getLast? = some c := by
  have inv := inv_of_reachable h
  have h1 : s.reads.getLast? = some s.current := by
    rcases freshInv_of_reachable h (by simp [hrun]) hm with ⟨e, he, hd⟩ | h' | h'
    · have := hq e he
      have hd' : e.write = true := by
        revert hd
        unfold dispatch
        cases e.create <;> cases e.write <;> cases e.remove <;> simp
      simp [this] at hd'
    · rw [hh] at h'; simp at h'
    · exact h'
  have h2 := inv.sent
  simp only [hrun, hh, MainPC.sending, HandlerPC.sending, List.append_nil] at h2
  obtain ⟨pre, hpre⟩ := List.getLast?_eq_some_iff.mp h1
  rw [h2, hpre]
  simp [hc]

/-- C60, and they do get handled: as long as the watcher has not stopped, its steps and the server receiving lead to a state
in which none is left, the file being the same. -/
theorem C60_handled (path : Option Nat) (text : Nat → Text) (s : State) (h : Reachable step (init path text) s) (hrun : s.main = .running)
    (hm : s.missed = false) (h1 : s.handler ≠ .idle) (h2 : s.handler ≠ .stopped) (c : Config) (hc : readServerConfig s.current = some c) :
    ∃ acts s', run step s acts = some s' ∧ (∀ a ∈ acts, a.internal) ∧ s'.current = s.current ∧ s'.sent.getLast? = some c := by
  obtain ⟨acts, s', a1, a2, a3, a4, a5⟩ := handle_all h1 h2 (inv_of_reachable h).cap
  have hcur : s'.current = s.current := by unfold State.current; rw [a5.path, a5.text]
  refine ⟨acts, s', a1, a2, hcur, C60 path text s' (h.trans ⟨acts, a1⟩) (a5.main.trans hrun) (a5.missed.trans hm) a3 (by simp [a4]) c (by rw [hcur]; exact hc)⟩

/-! ## C61 Every write event reaches OnWrite -/

/-- C61 in full. -/
def C61_claim : Prop := ∀ e : Ev, e.write = true → dispatch e = some .onWrite

/-- C61, what is missing: an event that includes a write reaches `OnWrite` exactly if it does not include a creation; others
never do. -/
theorem C61_partial (e : Ev) : dispatch e = some .onWrite ↔ e.write = true ∧ e.create = false := by
  unfold dispatch
  cases e.create <;> cases e.write <;> cases e.remove <;> simp

/-- C61 is false: of an event that is both, only the creation is reported. -/
theorem C61_refuted : ¬ C61_claim := fun h => absurd (h ⟨true, true, false, false, false⟩ rfl) (by decide)

example : dispatch ⟨false, true, true, false, true⟩ = some .onWrite := rfl

/-! ## C65 Every change of the configuration file is noticed -/

/-- C65 in full: when the watcher runs and there is nothing left to handle, the last configuration sent is the content of the
file. -/
def C65_claim : Prop :=
  ∀ path text s, Reachable step (init path text) s → s.main = .running → s.handler = .select → s.queue = [] →
    ∀ c, readServerConfig s.current = some c → s.sent.getLast? = some c

/-- C65, what is missing: it holds if the file was not changed between the first reading and the start of the watch, and from
then on is written in place, never replaced or removed, and the watcher gets no error. -/
theorem C65_partial (path : Option Nat) (text : Nat → Text) (s s' : State) (h : Reachable step (init path text) s) (hrun : s.main = .running)
    (hm : s.missed = false) (hw : s.watched = s.path ∧ s.path ≠ none) (acts : List Action)
    (ha : ∀ a ∈ acts, a ≠ .remove ∧ a ≠ .error ∧ ∀ t, a ≠ .replace t) (hr : run step s acts = some s')
    (hh : s'.handler = .select) (hq : s'.queue = []) (c : Config) (hc : readServerConfig s'.current = some c) : s'.sent.getLast? = some c := by
  have hwat := run_invariant_of (fun a => a ≠ .remove ∧ a ≠ .error ∧ ∀ t, a ≠ .replace t) Watching ⟨hrun, hw.2, hw.1, hm⟩
    (fun _ _ _ ha h hs => watching_step h ha hs) ha hr
  exact C60 path text s' (h.trans ⟨acts, hr⟩) hwat.main hwat.missed hh (by simp [hq]) c hc

/-- The file at the beginning. -/
def oldText : Nat → Text := fun _ => some ⟨some 1, some 1⟩
def newText : Text := some ⟨some 2, some 2⟩

def after (acts : List Action) : State := (run step (init (some 0) oldText) acts).getD (init (some 0) oldText)

theorem after_reachable {acts : List Action} (h : (run step (init (some 0) oldText) acts).isSome = true) :
    Reachable step (init (some 0) oldText) (after acts) := by
  refine ⟨acts, ?_⟩
  unfold after
  cases hr : run step (init (some 0) oldText) acts with
  | none => rw [hr] at h; simp at h
  | some s => rfl

/-- The file is written after it has been read and before it is watched. -/
def early : List Action := [.main, .main, .write newText, .add true, .main]

/-- The file is replaced, as many editors and tools do. -/
def replaced : List Action := [.main, .main, .add true, .main, .replace newText, .event]

/-- C65 is false: a change between the first reading and the start of the watch goes unnoticed. -/
theorem C65_refuted : ¬ C65_claim := fun h =>
  absurd (h _ _ _ (after_reachable (acts := early) (by decide)) (by decide) (by decide) (by decide) ⟨2, 2⟩ (by decide)) (by decide)

/-- C65 is false also because the watch is on the file, not on the path: when the file is replaced, -/
theorem C65_refuted_replace : ¬ C65_claim := fun h =>
  absurd (h _ _ _ (after_reachable (acts := replaced) (by decide)) (by decide) (by decide) (by decide) ⟨2, 2⟩ (by decide)) (by decide)

/-- this and all later changes go unnoticed: whatever happens from then on, unless an event that reports a write comes from
elsewhere, nothing is ever sent again. -/
theorem C65_refuted_forever (acts : List Action) (s : State) (ha : ∀ a ∈ acts, ∀ e, a = .other e → e.write = false)
    (hr : run step (after replaced) acts = some s) : s.sent = [⟨1, 1⟩] := by
  have key := run_invariant_of (fun a => ∀ e, a = .other e → e.write = false)
    (fun x => x.sent = [⟨1, 1⟩] ∧ x.main = .running ∧ (x.handler = .select ∨ x.handler = .stopped) ∧ x.watched = none ∧ ∀ e ∈ x.queue, e.write = false)
    (s := after replaced) ⟨by decide, by decide, by decide, by decide, by decide⟩ (fun s a s' ha h hs => by
      obtain ⟨h1, h2, h3, h4, h5⟩ := h
      have hp : ∀ e x, x ∈ push s.queue e ↔ x ∈ s.queue ∨ x = e := fun e x => mem_push
      have hd : ∀ e, dispatch e = some .onWrite → e.write = true := fun e h => ((C61_partial e).mp h).1
      cli_cases hs
      all_goals grind [relink]) ha hr
  exact key.1

/-! ## C66 Configurations without the mandatory settings are rejected -/

/-- C66 in full: what is read as a configuration has both settings. -/
def C66_claim : Prop :=
  ∀ t c, readServerConfig (some t) = some c → ∃ l d, t = some ⟨some l, some d⟩

/-- C66, what is missing: any text that can be decoded is accepted; a setting that is present has its value, one that is
absent becomes the empty string. -/
theorem C66_partial (t : Text) (c : Config) : readServerConfig (some t) = some c ↔
    ∃ tab, t = some tab ∧ c.listen = tab.listen.getD 0 ∧ c.databaseURL = tab.databaseURL.getD 0 := by
  cases t with
  | none => simp [readServerConfig]
  | some tab =>
    obtain ⟨l, d⟩ := c
    simp only [readServerConfig, Option.some.injEq, Config.mk.injEq, exists_eq_left']
    constructor
    · rintro ⟨h1, h2⟩; exact ⟨h1.symm, h2.symm⟩
    · rintro ⟨h1, h2⟩; exact ⟨h1.symm, h2.symm⟩

/-- C66 is false, already for the empty file. -/
theorem C66_refuted : ¬ C66_claim := by
  intro h
  obtain ⟨l, d, hx⟩ := h (some ⟨none, none⟩) ⟨0, 0⟩ rfl
  simp at hx

/-- C66, with a consequence: when the file is truncated and then written, as `>` in a shell does, and the watcher reads it in
between, the server gets a configuration without an address. -/
theorem C66_refuted_truncate : ∃ acts, Reachable step (init (some 0) oldText) (after acts) ∧ (after acts).received = [⟨1, 1⟩, ⟨0, 0⟩, ⟨2, 2⟩] ∧
    ∀ a ∈ acts, ∀ t, a = .write t → t = some ⟨none, none⟩ ∨ t = newText :=
  ⟨[.main, .main, .add true, .main, .recv, .write (some ⟨none, none⟩), .event, .handle, .handle, .recv, .write newText, .event, .handle, .handle, .recv],
    after_reachable (by decide), by decide, by
      intro a ha t hat
      subst hat
      simpa using ha⟩

example : readServerConfig (some (some ⟨some 3, none⟩)) = some ⟨3, 0⟩ := rfl

/-! ## The hypotheses are met -/

/-- A bad text, then two good ones, the notifications of which are merged. -/
def edited : List Action :=
  [.main, .main, .add true, .main, .write none, .event, .handle, .write newText, .write (some ⟨some 3, some 3⟩), .event, .handle, .recv, .handle]

-- C59, C60
example : Reachable step (init (some 0) oldText) (after edited) ∧ (after edited).sent = [⟨1, 1⟩, ⟨3, 3⟩] ∧ (after edited).received = [⟨1, 1⟩] ∧
    (after edited).reads = [some (some ⟨some 1, some 1⟩), some none, some (some ⟨some 3, some 3⟩)] ∧ (after edited).main = .running ∧
    (after edited).missed = false ∧ (after edited).handler = .select ∧ (after edited).queue = [] ∧ readServerConfig (after edited).current = some ⟨3, 3⟩ :=
  ⟨after_reachable (by decide), by decide, by decide, by decide, by decide, by decide, by decide, by decide, by decide⟩

-- C59_bad
example : (after (edited.take 6)).handler = .read ∧ readServerConfig (after (edited.take 6)).current = none := ⟨by decide, by decide⟩

-- C60_handled
example : (after (edited.take 9)).main = .running ∧ (after (edited.take 9)).missed = false ∧ (after (edited.take 9)).handler = .select ∧
    (after (edited.take 9)).queue = [writeEv] := ⟨by decide, by decide, by decide, by decide⟩

-- C65_partial: the watch has been started
example : (after (edited.take 4)).main = .running ∧ (after (edited.take 4)).missed = false ∧ (after (edited.take 4)).watched = (after (edited.take 4)).path ∧
    (after (edited.take 4)).path ≠ none ∧ (run step (after (edited.take 4)) (edited.drop 4)).isSome = true := ⟨by decide, by decide, by decide, by decide, by decide⟩

end Gevulot.CliModel
