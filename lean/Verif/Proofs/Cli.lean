import Verif.Model.Cli
import Verif.Proofs.Trans

namespace Gevulot
namespace CliModel

/-- The transitions, one by one. -/
inductive Tr (s : State) : Action → State → Prop where
  | readFailed (h : s.main = .read) (hr : readServerConfig s.current = none) : Tr s .main { s with main := .failed, reads := s.reads ++ [s.current] }
  | readOk (c) (h : s.main = .read) (hr : readServerConfig s.current = some c) : Tr s .main { s with main := .send c, reads := s.reads ++ [s.current] }
  | mainSend (c) (h : s.main = .send c) (hl : s.chan.length < 1) : Tr s .main { s with main := .add, chan := s.chan ++ [c], sent := s.sent ++ [c] }
  | addOk (h : s.main = .add) (hp : s.path.isSome = true) : Tr s (.add true) { s with main := .watching, watched := s.path, handler := .select }
  | addFailed (ok) (h : s.main = .add) : Tr s (.add ok) { s with main := .failed, handler := .select }
  | watched (h : s.main = .watching) : Tr s .main { s with main := .running }
  | lost (h : s.main = .watching) (hh : s.handler = .stopped) : Tr s .lost { s with main := .failed }
  | write (e rest) (h : s.handler = .select) (hq : s.queue = e :: rest) (hd : dispatch e = some .onWrite) : Tr s .event { s with queue := rest, handler := .read }
  | skip (e rest) (h : s.handler = .select) (hq : s.queue = e :: rest) (hd : dispatch e ≠ some .onWrite) : Tr s .event { s with queue := rest }
  | handleFailed (h : s.handler = .read) (hr : readServerConfig s.current = none) : Tr s .handle { s with handler := .select, reads := s.reads ++ [s.current] }
  | handleOk (c) (h : s.handler = .read) (hr : readServerConfig s.current = some c) : Tr s .handle { s with handler := .send c, reads := s.reads ++ [s.current] }
  | handleSend (c) (h : s.handler = .send c) (hl : s.chan.length < 1) : Tr s .handle { s with handler := .select, chan := s.chan ++ [c], sent := s.sent ++ [c] }
  | error (h : s.handler = .select) : Tr s .error { s with handler := .stopped, watched := none }
  | recv (c rest) (h : s.chan = c :: rest) : Tr s .recv { s with chan := rest, received := s.received ++ [c] }
  | writeSeen (t f) (h : s.path = some f) (hw : s.watched = some f) : Tr s (.write t) { s with text := upd s.text f t, history := s.history ++ [some t], queue := push s.queue writeEv }
  | writeUnseen (t f m) (h : s.path = some f) (hw : s.watched ≠ some f) (hm : m = (s.missed || decide (s.main ≠ .read))) : Tr s (.write t) { s with text := upd s.text f t, history := s.history ++ [some t], missed := m }
  | replace (t) : Tr s (.replace t) (relink s (some s.files) (upd s.text s.files t) (s.files + 1))
  | remove (h : s.path.isSome = true) : Tr s .remove (relink s none s.text s.files)
  | other (e) : Tr s (.other e) { s with queue := push s.queue e }

theorem step_tr {s s' : State} {a : Action} (hs : step s a = some s') : Tr s a s' := by
  unfold step at hs
  cases a with
  | main =>
    simp only at hs
    split at hs
    · split at hs <;> simp only [Option.some.injEq] at hs <;> subst hs
      · exact .readFailed ‹_› ‹_›
      · exact .readOk _ ‹_› ‹_›
    · split at hs
      · simp only [Option.some.injEq] at hs; subst hs
        exact .mainSend _ ‹_› ‹_›
      · simp at hs
    · simp only [Option.some.injEq] at hs; subst hs
      exact .watched ‹_›
    · simp at hs
  | lost =>
    simp only at hs
    split at hs
    · rename_i hx
      simp only [Option.some.injEq] at hs; subst hs
      exact .lost hx.1 hx.2
    · simp at hs
  | add ok =>
    simp only at hs
    split at hs
    · split at hs
      · rename_i h
        simp only [Bool.and_eq_true] at h
        simp only [Option.some.injEq] at hs; subst hs
        rw [h.1]
        exact .addOk ‹_› h.2
      · simp only [Option.some.injEq] at hs; subst hs
        exact .addFailed _ ‹_›
    · simp at hs
  | event =>
    simp only at hs
    split at hs
    · split at hs
      · split at hs <;> simp only [Option.some.injEq] at hs <;> subst hs
        · exact .write _ _ ‹_› ‹_› ‹_›
        · rename_i hne
          exact .skip _ _ ‹_› ‹_› (fun h => hne h)
      · simp at hs
    · simp at hs
  | handle =>
    simp only at hs
    split at hs
    · split at hs <;> simp only [Option.some.injEq] at hs <;> subst hs
      · exact .handleFailed ‹_› ‹_›
      · exact .handleOk _ ‹_› ‹_›
    · split at hs
      · simp only [Option.some.injEq] at hs; subst hs
        exact .handleSend _ ‹_› ‹_›
      · simp at hs
    · simp at hs
  | error =>
    simp only at hs
    split at hs
    · simp only [Option.some.injEq] at hs; subst hs
      exact .error ‹_›
    · simp at hs
  | recv =>
    simp only at hs
    split at hs
    · simp only [Option.some.injEq] at hs; subst hs
      exact .recv _ _ ‹_›
    · simp at hs
  | write t =>
    simp only at hs
    split at hs
    · rename_i f hf
      simp only [Option.some.injEq] at hs; subst hs
      by_cases hw : s.watched = some f
      · have := Tr.writeSeen (s := s) t f hf hw
        simpa [hw] using this
      · have := Tr.writeUnseen (s := s) t f _ hf hw rfl
        simpa [hw] using this
    · simp at hs
  | replace t => simp only [Option.some.injEq] at hs; subst hs; exact .replace t
  | remove =>
    simp only at hs
    split at hs
    · simp only [Option.some.injEq] at hs; subst hs
      exact .remove ‹_›
    · simp at hs
  | other e => simp only [Option.some.injEq] at hs; subst hs; exact .other e

macro "cli_cases" hs:ident : tactic => `(tactic| (
  have htr := step_tr $hs
  clear $hs:ident
  cases htr))

def MainPC.sending : MainPC → List Config
  | .send c => [c]
  | _ => []

def HandlerPC.sending : HandlerPC → List Config
  | .send c => [c]
  | _ => []

/-- The handler runs only after `prepareConfigChan` has sent the first configuration. -/
def MainPC.started : MainPC → Bool
  | .watching => true
  | .running => true
  | .failed => true
  | _ => false

structure Inv (s : State) : Prop where
  order : s.handler ≠ .idle → s.main.started = true
  sent : s.sent ++ (s.main.sending ++ s.handler.sending) = s.reads.filterMap readServerConfig
  received : s.received ++ s.chan = s.sent
  cap : s.chan.length ≤ 1
  history : s.history.getLast? = some s.current
  reads : ∀ r ∈ s.reads, r ∈ s.history
  first : s.main ≠ .read → s.reads ≠ []
  unread : s.main = .read → s.reads = [] ∧ s.missed = false
  bound : ∀ f, s.path = some f → f < s.files

theorem inv_init (path : Option Nat) (text : Nat → Text) : Inv (init path text) := by
  constructor <;> simp [init, MainPC.sending, HandlerPC.sending, State.current]
  intro f hf; subst hf; simp

theorem inv_step (s : State) (a : Action) (s' : State) (h : Inv s) (hs : step s a = some s') : Inv s' := by
  obtain ⟨h1, h2, h3, h4, h5, h6, h7, h8, h9⟩ := h
  have h10 : s.current ∈ s.history := List.mem_of_getLast? h5
  have h11 : s.main.started = true → s.main.sending = [] := by cases s.main <;> simp [MainPC.started, MainPC.sending]
  have h12 : ∀ x, s.reads ++ [x] ≠ [] := by simp
  cli_cases hs
  all_goals constructor
  all_goals grind [MainPC.sending, HandlerPC.sending, MainPC.started, relink, State.current, upd_apply]

theorem inv_of_reachable {path : Option Nat} {text : Nat → Text} {s : State} (h : Reachable step (init path text) s) : Inv s :=
  h.invariant Inv (inv_init path text) inv_step

/-- A notification that the file was written is in the queue. -/
def Notified (s : State) : Prop := ∃ e ∈ s.queue, dispatch e = some .onWrite

theorem mem_push {q : List Ev} {e x : Ev} : x ∈ push q e ↔ x ∈ q ∨ x = e := by
  unfold push
  split
  · rename_i h
    constructor
    · exact .inl
    · rintro (hx | rfl)
      · exact hx
      · exact List.mem_of_getLast? h
  · simp

/-- Unless a change was missed, what was read last is still there, or it will be read again. -/
def FreshInv (s : State) : Prop :=
  s.main ≠ .read → s.missed = false → Notified s ∨ s.handler = .read ∨ s.reads.getLast? = some s.current

theorem freshInv_step {s s' : State} {a : Action} (hi : Inv s) (h : FreshInv s) (hs : step s a = some s') : FreshInv s' := by
  intro hm hmi
  have hpush : ∀ e, (∃ x ∈ s.queue, dispatch x = some .onWrite) → ∃ x ∈ push s.queue e, dispatch x = some .onWrite :=
    fun e ⟨x, hx, hd⟩ => ⟨x, mem_push.mpr (.inl hx), hd⟩
  have h1 := hi.order
  clear hi
  unfold FreshInv Notified at *
  revert hm hmi
  cli_cases hs
  case writeSeen t f hp hw =>
    intro _ _
    exact .inl ⟨writeEv, mem_push.mpr (.inr rfl), rfl⟩
  case writeUnseen t f m hp hw hmm =>
    intro hm hmi
    simp only at hm hmi
    rw [hmm] at hmi
    simp [hm] at hmi
  case replace t =>
    intro hm hmi
    simp [relink] at hm hmi
    exact absurd hmi.2 hm
  case remove hp =>
    intro hm hmi
    simp [relink] at hm hmi
    exact absurd hmi.2 hm
  case other e =>
    intro hm hmi
    rcases h hm hmi with h | h
    · exact .inl (hpush e h)
    · exact .inr h
  all_goals intro hm hmi
  all_goals simp only [State.current] at *
  all_goals grind [MainPC.started]

theorem freshInv_of_reachable {path : Option Nat} {text : Nat → Text} {s : State} (h : Reachable step (init path text) s) : FreshInv s :=
  (h.invariant (fun s => Inv s ∧ FreshInv s) ⟨inv_init path text, by intro h; simp [init] at h⟩ (fun _ _ _ h hs => ⟨inv_step _ _ _ h.1 hs, freshInv_step h.1 h.2 hs⟩)).2

/-! ### All notifications are handled -/

/-- Steps of the handler and the server. -/
def Action.internal : Action → Prop
  | .event => True
  | .handle => True
  | .recv => True
  | _ => False

/-- The file system is as it was. -/
structure Same (s s' : State) : Prop where
  path : s'.path = s.path
  text : s'.text = s.text
  missed : s'.missed = s.missed
  main : s'.main = s.main

theorem Same.trans {s1 s2 s3 : State} (h : Same s1 s2) (h' : Same s2 s3) : Same s1 s3 :=
  ⟨h'.1.trans h.1, h'.2.trans h.2, h'.3.trans h.3, h'.4.trans h.4⟩

theorem step_send {s : State} {c : Config} (h : s.handler = .send c) (hcap : s.chan.length ≤ 1) :
    ∃ acts s', run step s acts = some s' ∧ (∀ a ∈ acts, a.internal) ∧ s'.handler = .select ∧ s'.queue = s.queue ∧ Same s s' ∧ s'.chan.length ≤ 1 := by
  cases hc : s.chan with
  | nil => exact ⟨[.handle], { s with handler := .select, chan := [c], sent := s.sent ++ [c] }, by simp [run, step, h, hc], by simp [Action.internal], rfl, rfl, ⟨rfl, rfl, rfl, rfl⟩, by simp⟩
  | cons x rest =>
    have : rest = [] := by rw [hc] at hcap; simpa using hcap
    subst this
    exact ⟨[.recv, .handle], { s with handler := .select, chan := [c], sent := s.sent ++ [c], received := s.received ++ [x] }, by simp [run, step, h, hc], by simp [Action.internal], rfl, rfl, ⟨rfl, rfl, rfl, rfl⟩, by simp⟩

theorem step_read {s : State} (h : s.handler = .read) (hcap : s.chan.length ≤ 1) :
    ∃ acts s', run step s acts = some s' ∧ (∀ a ∈ acts, a.internal) ∧ s'.handler = .select ∧ s'.queue = s.queue ∧ Same s s' ∧ s'.chan.length ≤ 1 := by
  cases hr : readServerConfig s.current with
  | none => exact ⟨[.handle], { s with handler := .select, reads := s.reads ++ [s.current] }, by simp [run, step, h, hr], by simp [Action.internal], rfl, rfl, ⟨rfl, rfl, rfl, rfl⟩, hcap⟩
  | some c =>
    have hs : step s .handle = some { s with handler := .send c, reads := s.reads ++ [s.current] } := by simp [step, h, hr]
    obtain ⟨acts, s', h1, h2, h3, h4, h5, h6⟩ := step_send (s := { s with handler := .send c, reads := s.reads ++ [s.current] }) rfl hcap
    refine ⟨.handle :: acts, s', by simp [run, hs, h1], ?_, h3, h4, ⟨h5.1, h5.2, h5.3, h5.4⟩, h6⟩
    intro a ha
    rcases List.mem_cons.mp ha with rfl | ha
    · trivial
    · exact h2 a ha

theorem step_select {s : State} (h : s.handler = .select) (hcap : s.chan.length ≤ 1) :
    ∃ acts s', run step s acts = some s' ∧ (∀ a ∈ acts, a.internal) ∧ s'.handler = .select ∧ s'.queue = [] ∧ Same s s' := by
  generalize hq : s.queue = q
  induction q generalizing s with
  | nil => exact ⟨[], s, rfl, by simp, h, hq, ⟨rfl, rfl, rfl, rfl⟩⟩
  | cons e rest ih =>
    by_cases hd : dispatch e = some .onWrite
    · have hs : step s .event = some { s with queue := rest, handler := .read } := by simp [step, h, hq, hd]
      obtain ⟨acts, s1, h1, h2, h3, h4, h5, h6⟩ := step_read (s := { s with queue := rest, handler := .read }) rfl hcap
      obtain ⟨acts', s2, g1, g2, g3, g4, g5⟩ := ih h3 h6 h4
      refine ⟨.event :: (acts ++ acts'), s2, ?_, ?_, g3, g4, .trans ⟨h5.1, h5.2, h5.3, h5.4⟩ g5⟩
      · simp only [run, hs]; exact run_append_some h1 g1
      · intro a ha
        rcases List.mem_cons.mp ha with rfl | ha
        · trivial
        · rcases List.mem_append.mp ha with ha | ha
          · exact h2 a ha
          · exact g2 a ha
    · have hs : step s .event = some { s with queue := rest } := by
        simp only [step, h, hq]
      obtain ⟨acts', s2, g1, g2, g3, g4, g5⟩ := ih (s := { s with queue := rest }) h hcap rfl
      refine ⟨.event :: acts', s2, by simp only [run, hs]; exact g1, ?_, g3, g4, ⟨g5.1, g5.2, g5.3, g5.4⟩⟩
      intro a ha
      rcases List.mem_cons.mp ha with rfl | ha
      · trivial
      · exact g2 a ha

theorem handle_all {s : State} (h1 : s.handler ≠ .idle) (h2 : s.handler ≠ .stopped) (hcap : s.chan.length ≤ 1) :
    ∃ acts s', run step s acts = some s' ∧ (∀ a ∈ acts, a.internal) ∧ s'.handler = .select ∧ s'.queue = [] ∧ Same s s' := by
  have key : ∃ acts s', run step s acts = some s' ∧ (∀ a ∈ acts, a.internal) ∧ s'.handler = .select ∧ Same s s' ∧ s'.chan.length ≤ 1 := by
    cases h : s.handler with
    | idle => exact absurd h h1
    | stopped => exact absurd h h2
    | select => exact ⟨[], s, rfl, by simp, h, ⟨rfl, rfl, rfl, rfl⟩, hcap⟩
    | read => obtain ⟨acts, s', a, b, c, -, d, e⟩ := step_read h hcap; exact ⟨acts, s', a, b, c, d, e⟩
    | send c => obtain ⟨acts, s', a, b, c, -, d, e⟩ := step_send h hcap; exact ⟨acts, s', a, b, c, d, e⟩
  obtain ⟨acts, s1, a1, a2, a3, a4, a5⟩ := key
  obtain ⟨acts', s2, b1, b2, b3, b4, b5⟩ := step_select a3 a5
  refine ⟨acts ++ acts', s2, run_append_some a1 b1, ?_, b3, b4, a4.trans b5⟩
  intro a ha
  rcases List.mem_append.mp ha with ha | ha
  · exact a2 a ha
  · exact b2 a ha

/-! ### Nothing is missed -/

/-- The watch is on the file, and nothing was missed so far. -/
structure Watching (s : State) : Prop where
  main : s.main = .running
  path : s.path ≠ none
  watched : s.watched = s.path
  missed : s.missed = false

theorem watching_step {s s' : State} {a : Action} (h : Watching s) (ha : a ≠ .remove ∧ a ≠ .error ∧ ∀ t, a ≠ .replace t) (hs : step s a = some s') : Watching s' := by
  obtain ⟨h1, h2, h3, h4⟩ := h
  cli_cases hs
  all_goals constructor
  all_goals grind

end CliModel
end Gevulot
