import Verif.Proofs.CliWatch

namespace Gevulot
namespace CliWatch

open CliModel (Config Text Ev Callback readServerConfig writeEv removeEv push dispatch)
open FileWatcherModel (CallAction Call CallInv callbackFor)

/-! ## What is seen in Model/Cli.lean -/

def absMain (main : MainPC) (registered : Option Bool) (c : Call) : CliModel.MainPC :=
  match main with
  | .read => .read
  | .send c => .send c
  | .watch => .add
  | .waiting =>
    match registered with
    | some true => .watching
    | some false => .failed
    | none => if c.starter = .done then .failed else .add
  | .running => .running
  | .failed => .failed

def absHandler (registered : Option Bool) (onWrite : CallbackPC) (c : Call) : CliModel.HandlerPC :=
  match registered with
  | none => if c.starter = .done then .select else .idle
  | some _ =>
    if c.handler = .ended then .stopped
    else
      match onWrite with
      | .read => .read
      | .send c => .send c
      | _ => .select

/-- What is the same. -/
structure Same (d : State) (s : CliModel.State) : Prop where
  path : s.path = d.path
  text : s.text = d.text
  files : s.files = d.files
  chan : s.chan = d.chan
  sent : s.sent = d.sent
  received : s.received = d.received
  reads : s.reads = d.reads
  history : s.history = d.history

/-- What is seen of the file watcher. -/
structure Seen (main : MainPC) (registered : Option Bool) (onWrite : CallbackPC) (watched : Option Nat) (missed : Bool) (c : Call)
    (s : CliModel.State) : Prop where
  main : s.main = absMain main registered c
  handler : s.handler = absHandler registered onWrite c
  rest : c.handler ≠ .ended → s.queue = c.queue ∧ s.watched = watched ∧ s.missed = missed

structure Rel (d : State) (s : CliModel.State) : Prop where
  same : Same d s
  seen : Seen d.main d.registered d.onWrite d.watched d.missed d.call s

/-- What is done to the configuration file and the channel from outside. -/
def outside : Action → List CliModel.Action
  | .recv => [.recv]
  | .write t => [.write t]
  | .replace t => [.replace t]
  | .remove => [.remove]
  | .other e => [.other e]
  | _ => []

/-- The same in Model/Cli.lean. -/
def isOutside : CliModel.Action → Bool
  | .recv | .write _ | .replace _ | .remove | .other _ => true
  | _ => false

theorem rel_init (path : Option Nat) (text : Nat → Text) : Rel (init path text) (CliModel.init path text) := by
  refine ⟨?_, ?_⟩
  · cases path <;> constructor <;> rfl
  · constructor <;> simp [init, CliModel.init, State.call, FileWatcherModel.init, FileWatcherModel.noCall, absMain, absHandler]

theorem one {s s' : CliModel.State} {a : CliModel.Action} (h : CliModel.step s a = some s') : run CliModel.step s [a] = some s' := by
  simp [run, h]

theorem two {s s' s'' : CliModel.State} {a b : CliModel.Action} (h : CliModel.step s a = some s') (h' : CliModel.step s' b = some s'') :
    run CliModel.step s [a, b] = some s'' := by
  simp [run, h, h']

/-- A step of the file watcher that is not seen. -/
theorem unseen {d d' : State} {s : CliModel.State} (h : Rel d s) (hp : d'.path = d.path) (ht : d'.text = d.text) (hf : d'.files = d.files)
    (hc : d'.chan = d.chan) (hs : d'.sent = d.sent) (hr : d'.received = d.received) (he : d'.reads = d.reads) (hh : d'.history = d.history)
    (hx : Seen d'.main d'.registered d'.onWrite d'.watched d'.missed d'.call s) :
    ∃ acts s', run CliModel.step s acts = some s' ∧ acts.filter isOutside = [] ∧ Rel d' s' := by
  obtain ⟨⟨s1, s2, s3, s4, s5, s6, s7, s8⟩, -⟩ := h
  exact ⟨[], s, rfl, rfl, ⟨s1.trans hp.symm, s2.trans ht.symm, s3.trans hf.symm, s4.trans hc.symm, s5.trans hs.symm, s6.trans hr.symm,
    s7.trans he.symm, s8.trans hh.symm⟩, hx⟩

theorem absMain_congr {m : MainPC} {r : Option Bool} {c c' : Call} (h : r = none → (c.starter = .done ↔ c'.starter = .done)) :
    absMain m r c = absMain m r c' := by
  unfold absMain
  cases m <;> try rfl
  cases r with
  | some b => cases b <;> rfl
  | none => simp only [h rfl]

theorem absHandler_congr {r : Option Bool} {o : CallbackPC} {c c' : Call} (h : r = none → (c.starter = .done ↔ c'.starter = .done))
    (h' : r ≠ none → (c.handler = .ended ↔ c'.handler = .ended)) : absHandler r o c = absHandler r o c' := by
  unfold absHandler
  cases r with
  | none => simp only [h rfl]
  | some b => simp only [h' (by simp)]

theorem absMain_read {m : MainPC} {r : Option Bool} {c : Call} : absMain m r c = .read ↔ m = .read := by
  unfold absMain
  cases m <;> simp
  cases r with
  | none => simp only; split <;> simp
  | some b => cases b <;> simp

/-- The file at the path is no longer the one it was. -/
theorem simulate_relink {d : State} {s : CliModel.State} (hi : Inv d) (h : Rel d s) (path : Option Nat) (text : Nat → Text) (files : Nat) :
    Rel (relink d path text files) (CliModel.relink s path text files) := by
  obtain ⟨⟨s1, s2, s3, s4, s5, s6, s7, s8⟩, r1, r2, r3⟩ := h
  have hh : (CliModel.relink s path text files).history = (relink d path text files).history := by simp [CliModel.relink, relink, s8]
  by_cases hr : d.path ≠ none ∧ d.watched = d.path
  · obtain ⟨evs, n2⟩ := call_notify (e := removeEv) hi.sound (hi.linked.opened (by rw [hr.2]; exact hr.1))
    have hc : (relink d path text files).call = { d.call with queue := push d.call.queue removeEv, events := evs } := by
      rw [← n2]
      unfold State.call relink
      simp only [if_pos hr]
    refine ⟨⟨rfl, rfl, rfl, s4, s5, s6, s7, hh⟩, ?_⟩
    rw [hc]
    refine ⟨r1, r2, fun he => ?_⟩
    obtain ⟨r4, r5, r6⟩ := r3 he
    simp [CliModel.relink, relink, r4, r5, r6, s1, hr.1, hr.2, r1, absMain_read]
  · have hc : (relink d path text files).call = d.call := by
      unfold State.call relink
      simp only [if_neg hr]
    refine ⟨⟨rfl, rfl, rfl, s4, s5, s6, s7, hh⟩, ?_⟩
    rw [hc]
    refine ⟨r1, r2, fun he => ?_⟩
    obtain ⟨r4, r5, r6⟩ := r3 he
    simp only [CliModel.relink, relink, r4, r5, r6, s1, if_neg hr, r1, true_and]
    simp [absMain_read]

/-- While the watcher is being started, the main goroutine waits. -/
theorem waits {m : MainPC} {r : Option Bool} {w : Option Nat} {o : CallbackPC} {c : Call} (h : Linked m r w o c) (hc : CallInv isSet c)
    (hs : c.starter = .create ∨ c.starter = .add) : m = .waiting := by
  have h1 := h.waiting
  have h2 := hc.idle
  have h3 := hc.ready
  have h4 := hc.returned
  cases hk : c.caller with
  | idle => grind
  | waiting => exact h1.mpr hk
  | returned e => grind

set_option maxHeartbeats 4000000 in
theorem simulate {d d' : State} {s : CliModel.State} {a : Action} (hi : Inv d) (h : Rel d s) (hs : step d a = some d') :
    ∃ acts s', run CliModel.step s acts = some s' ∧ acts.filter isOutside = outside a ∧ Rel d' s' := by
  have hc := callInv hi
  have hcall := hc
  have hi' := hi
  have hf : ∀ e f, callbackFor isSet e = some f → f = .onWrite ∧ dispatch e = some .onWrite := callbackFor_eq
  have hg : ∀ e, callbackFor isSet e = none → dispatch e ≠ some .onWrite := callbackFor_none
  have hrel := h
  obtain ⟨hsame, r1, r2, r3⟩ := h
  have hcur : s.current = d.current := by unfold CliModel.State.current State.current; rw [hsame.path, hsame.text]
  obtain ⟨h1, h2⟩ := hi
  have hn : ∀ e, d.call.watcher = .opened → ∃ evs, (notify d e).call 0 = { d.call with queue := push d.call.queue e, events := evs } :=
    fun e ho => call_notify h1 ho
  have htr := step_tr hs
  clear hs
  have hlinked := h2
  obtain ⟨l2, l3, l4, l5, l6, l7, l8, l9, l10, l11⟩ := h2
  obtain ⟨c1, c2, c3, c4, c5, c6, c7, c8, c9, c10, c11, c12, c13, c14, c15, -, -, -, -⟩ := hc
  obtain ⟨s1, s2, s3, s4, s5, s6, s7, s8⟩ := hsame
  cases htr
  case readFailed h hr =>
    refine ⟨[.main], { s with main := .failed, reads := s.reads ++ [s.current] }, one ?_, rfl, ⟨s1, s2, s3, s4, s5, s6, by simp [s7, hcur], s8⟩, ?_⟩
    · have : s.main = .read := by rw [r1, h]; rfl
      simp [CliModel.step, this, hcur, hr]
    · show Seen _ _ _ _ _ d.call _
      exact ⟨rfl, r2, r3⟩
  case readOk c h hr =>
    refine ⟨[.main], { s with main := .send c, reads := s.reads ++ [s.current] }, one ?_, rfl, ⟨s1, s2, s3, s4, s5, s6, by simp [s7, hcur], s8⟩, ?_⟩
    · have : s.main = .read := by rw [r1, h]; rfl
      simp [CliModel.step, this, hcur, hr]
    · show Seen _ _ _ _ _ d.call _
      exact ⟨rfl, r2, r3⟩
  case mainSend c h hl =>
    refine ⟨[.main], { s with main := .add, chan := s.chan ++ [c], sent := s.sent ++ [c] }, one ?_, rfl, ⟨s1, s2, s3, by simp [s4], by simp [s5], s6, s7, s8⟩, ?_⟩
    · have : s.main = .send c := by rw [r1, h]; rfl
      simp only [CliModel.step, this]
      rw [if_pos (by rw [s4]; exact hl)]
    · show Seen _ _ _ _ _ d.call _
      exact ⟨rfl, r2, r3⟩
  case call w h hw =>
    refine unseen hrel rfl rfl rfl rfl rfl rfl rfl rfl ?_
    have hm := moves hw
    unfold Moves at hm
    show Seen _ _ _ _ _ (w.call 0) _
    clear hn hrel hlinked hcall
    generalize w.call 0 = c' at *
    generalize d.call = c at *
    cases hm
    constructor <;> grind [absMain, absHandler]
  case retOk w h hw hx =>
    have hv := (((FileWatcherModel.inv_of_reachable (sound_step h1 hw).1).call 0).value none hx).1 rfl
    have hm := moves hw
    unfold Moves at hm
    have hreg : d.registered = some true := by
      clear hn hrel hlinked hcall
      generalize w.call 0 = c' at *
      generalize d.call = c at *
      cases hm
      exact l7 none hv
    refine ⟨[.main], { s with main := .running }, one ?_, rfl, ⟨s1, s2, s3, s4, s5, s6, s7, s8⟩, ?_⟩
    · have : s.main = .watching := by rw [r1, h, hreg]; rfl
      simp only [CliModel.step, this]
    · show Seen _ _ _ _ _ (w.call 0) _
      clear hn hrel hlinked hcall
      generalize w.call 0 = c' at *
      generalize d.call = c at *
      cases hm
      refine ⟨rfl, ?_, r3⟩
      simp only [hreg, absHandler] at r2 ⊢
      exact r2
  case retErr w h hw hx =>
    have hm := moves hw
    unfold Moves at hm
    cases hreg : d.registered with
    | none =>
      refine unseen hrel rfl rfl rfl rfl rfl rfl rfl rfl ?_
      show Seen _ _ _ _ _ (w.call 0) _
      clear hn hrel hlinked hcall
      generalize w.call 0 = c' at *
      generalize d.call = c at *
      cases hm
      rename_i hr _
      have : c.starter = .done := by grind
      simp only [h, hreg, absHandler, absMain, if_pos this] at r1 r2 ⊢
      exact ⟨r1, by simpa [absHandler, this] using r2, r3⟩
    | some b =>
      cases b with
      | false =>
        refine unseen hrel rfl rfl rfl rfl rfl rfl rfl rfl ?_
        show Seen _ _ _ _ _ (w.call 0) _
        clear hn hrel hlinked hcall
        generalize w.call 0 = c' at *
        generalize d.call = c at *
        cases hm
        simp only [h, hreg, absHandler, absMain] at r1 r2 ⊢
        exact ⟨r1, by simpa [absHandler] using r2, r3⟩
      | true =>
        have h3 : d.call.handler = .ended := by
          clear hn hrel hlinked hcall
          generalize w.call 0 = c' at *
          generalize d.call = c at *
          cases hm
          cases he : c.watcherError with
          | none => rw [he] at hx; exact absurd rfl hx
          | some x =>
            rcases c12 x he with hy | hy | hy
            · have := l7 _ hy
              rw [hreg] at this
              simp at this
            · exact c15 (by simp [hy])
            · exact absurd hy (l6 (by simp [hreg])).1
        refine ⟨[.lost], { s with main := .failed }, one ?_, rfl, ⟨s1, s2, s3, s4, s5, s6, s7, s8⟩, ?_⟩
        · have h4 : s.main = .watching := by rw [r1, h, hreg]; rfl
          have h5 : s.handler = .stopped := by rw [r2, hreg]; simp [absHandler, h3]
          simp [CliModel.step, h4, h5]
        · show Seen _ _ _ _ _ (w.call 0) _
          clear hn hrel hlinked hcall
          generalize w.call 0 = c' at *
          generalize d.call = c at *
          cases hm
          refine ⟨rfl, ?_, fun h => absurd h3 h⟩
          simp only [hreg, absHandler] at r2 ⊢
          exact r2
  case created e w hw =>
    have hm := moves hw
    unfold Moves at hm
    cases e with
    | none =>
      refine unseen hrel rfl rfl rfl rfl rfl rfl rfl rfl ?_
      show Seen _ _ _ _ _ (w.call 0) _
      clear hn hrel hlinked hcall
      generalize w.call 0 = c' at *
      generalize d.call = c at *
      cases hm
      exact ⟨r1.trans (absMain_congr (by grind)), r2.trans (absHandler_congr (by grind) (by grind)), r3⟩
    | some e =>
      have hst : d.call.starter = .create := by
        clear hn hrel hlinked hcall
        generalize w.call 0 = c' at *
        cases hm
        assumption
      have hwt := waits hlinked hcall (.inl hst)
      have hreg : d.registered = none := by
        cases hr : d.registered with
        | none => rfl
        | some b => exact absurd (c7 (.inr hst)).2 (l6 (by simp [hr])).1
      refine ⟨[.add false], { s with main := .failed, handler := .select }, one ?_, rfl, ⟨s1, s2, s3, s4, s5, s6, s7, s8⟩, ?_⟩
      · have : s.main = .add := by rw [r1, hwt, hreg]; simp [absMain, hst]
        simp [CliModel.step, this]
      · show Seen _ _ _ _ _ (w.call 0) _
        clear hn hrel hlinked hcall
        generalize w.call 0 = c' at *
        generalize d.call = c at *
        cases hm
        exact ⟨by simp [hwt, hreg, absMain], by simp [hreg, absHandler], r3⟩
  case registerOk h hr hp =>
    have hwt := waits hlinked hcall (.inr h)
    have hm : s.main = .add := by rw [r1, hwt, hr]; simp [absMain, h]
    by_cases he : d.call.handler = .ended
    · refine ⟨[.add true, .error], { s with main := .watching, watched := none, handler := .stopped }, two (s' := { s with main := .watching, watched := s.path, handler := .select }) ?_ ?_, rfl,
        ⟨s1, s2, s3, s4, s5, s6, s7, s8⟩, ?_⟩
      · simp [CliModel.step, hm, s1, hp]
      · simp [CliModel.step]
      · show Seen _ _ _ _ _ d.call _
        exact ⟨by simp [absMain, hwt], by simp [absHandler, he], fun h => absurd he h⟩
    · refine ⟨[.add true], { s with main := .watching, watched := s.path, handler := .select }, one ?_, rfl, ⟨s1, s2, s3, s4, s5, s6, s7, s8⟩, ?_⟩
      · simp [CliModel.step, hm, s1, hp]
      · show Seen _ _ _ _ _ d.call _
        refine ⟨by simp [absMain, hwt], ?_, fun h => ⟨(r3 h).1, s1, (r3 h).2.2⟩⟩
        simp [absHandler, he, (l8 (by simp [hr])).2.2]
  case registerFailed ok h hr =>
    have hwt := waits hlinked hcall (.inr h)
    have hm : s.main = .add := by rw [r1, hwt, hr]; simp [absMain, h]
    by_cases he : d.call.handler = .ended
    · refine ⟨[.add false, .error], { s with main := .failed, watched := none, handler := .stopped }, two (s' := { s with main := .failed, handler := .select }) ?_ ?_, rfl,
        ⟨s1, s2, s3, s4, s5, s6, s7, s8⟩, ?_⟩
      · simp [CliModel.step, hm]
      · simp [CliModel.step]
      · show Seen _ _ _ _ _ d.call _
        exact ⟨by simp [absMain, hwt], by simp [absHandler, he], fun h => absurd he h⟩
    · refine ⟨[.add false], { s with main := .failed, handler := .select }, one ?_, rfl, ⟨s1, s2, s3, s4, s5, s6, s7, s8⟩, ?_⟩
      · simp [CliModel.step, hm]
      · show Seen _ _ _ _ _ d.call _
        exact ⟨by simp [absMain, hwt], by simp [absHandler, he, (l8 (by simp [hr])).2.2], r3⟩
  case added e w h hw =>
    refine unseen hrel rfl rfl rfl rfl rfl rfl rfl rfl ?_
    have hm := moves hw
    unfold Moves at hm
    show Seen _ _ _ _ _ (w.call 0) _
    clear hn hrel hlinked hcall
    generalize w.call 0 = c' at *
    generalize d.call = c at *
    cases hm
    exact ⟨r1.trans (absMain_congr (by grind)), r2.trans (absHandler_congr (by grind) (by grind)), r3⟩
  case close w h hw =>
    refine unseen hrel rfl rfl rfl rfl rfl rfl rfl rfl ?_
    have hm := moves hw
    unfold Moves at hm
    show Seen _ _ _ _ _ (w.call 0) _
    clear hn hrel hlinked hcall
    generalize w.call 0 = c' at *
    generalize d.call = c at *
    cases hm <;> try (rename_i h'; rw [h] at h'; simp at h'; done)
    all_goals first
      | exact ⟨r1.trans (absMain_congr (by grind)), r2.trans (absHandler_congr (by grind) (by grind)), by grind⟩
      | grind
  case starter w h hw =>
    refine unseen hrel rfl rfl rfl rfl rfl rfl rfl rfl ?_
    have hm := moves hw
    unfold Moves at hm
    show Seen _ _ _ _ _ (w.call 0) _
    clear hn hrel hlinked hcall
    generalize w.call 0 = c' at *
    generalize d.call = c at *
    cases hm
    all_goals exact ⟨r1.trans (absMain_congr (by grind)), r2.trans (absHandler_congr (by grind) (by grind)), by grind⟩
  case enter w hw =>
    refine unseen hrel rfl rfl rfl rfl rfl rfl rfl rfl ?_
    have hm := moves hw
    unfold Moves at hm
    show Seen _ _ _ _ _ (w.call 0) _
    clear hn hrel hlinked hcall
    generalize w.call 0 = c' at *
    generalize d.call = c at *
    cases hm
    exact ⟨r1.trans (absMain_congr (by grind)), r2.trans (absHandler_congr (by grind) (by grind)), by grind⟩
  case event w hw hx =>
    have hm := moves hw
    unfold Moves at hm
    have hq : ∃ x e rest, d.call.handler = .select x ∧ d.call.queue = e :: rest ∧ dispatch e = some .onWrite := by
      clear hn hrel hlinked hcall
      generalize w.call 0 = c' at *
      generalize d.call = c at *
      cases hm
      · exact ⟨_, _, _, ‹_›, ‹_›, (hf _ _ ‹_›).2⟩
      · simp at hx
    obtain ⟨x, e, rest, q1, q2, q3⟩ := hq
    have hreg : d.registered = some true := Decidable.byContradiction fun hr => by have := (l8 hr).1; rw [q2] at this; simp at this
    have hon : d.onWrite = .none := Decidable.byContradiction fun hr => by have := l9.mp hr; rw [q1] at this; simp at this
    have hsel : s.handler = .select := by rw [r2, hreg, hon]; simp [absHandler, q1]
    obtain ⟨q4, q5, q6⟩ := r3 (by simp [q1])
    refine ⟨[.event], { s with queue := rest, handler := .read }, one ?_, rfl, ⟨s1, s2, s3, s4, s5, s6, s7, s8⟩, ?_⟩
    · simp [CliModel.step, hsel, q4, q2, q3]
    · show Seen _ _ _ _ _ (w.call 0) _
      clear hn hrel hlinked hcall
      generalize w.call 0 = c' at *
      generalize d.call = c at *
      cases hm
      · refine ⟨r1.trans (absMain_congr (by grind)), by simp [absHandler, hreg], ?_⟩
        grind
      · simp at hx
  case skip w hw hx =>
    have hm := moves hw
    unfold Moves at hm
    have hq : ∃ x e rest, d.call.handler = .select x ∧ d.call.queue = e :: rest ∧ dispatch e ≠ some .onWrite := by
      clear hn hrel hlinked hcall
      generalize w.call 0 = c' at *
      generalize d.call = c at *
      cases hm
      · rename_i hz; have := (hf _ _ hz).1; subst this; simp at hx
      · exact ⟨_, _, _, ‹_›, ‹_›, hg _ ‹_›⟩
    obtain ⟨x, e, rest, q1, q2, q3⟩ := hq
    have hreg : d.registered = some true := Decidable.byContradiction fun hr => by have := (l8 hr).1; rw [q2] at this; simp at this
    have hon : d.onWrite = .none := Decidable.byContradiction fun hr => by have := l9.mp hr; rw [q1] at this; simp at this
    have hsel : s.handler = .select := by rw [r2, hreg, hon]; simp [absHandler, q1]
    obtain ⟨q4, q5, q6⟩ := r3 (by simp [q1])
    refine ⟨[.event], { s with queue := rest }, one ?_, rfl, ⟨s1, s2, s3, s4, s5, s6, s7, s8⟩, ?_⟩
    · simp only [CliModel.step, hsel, q4, q2]
    · show Seen _ _ _ _ _ (w.call 0) _
      clear hn hrel hlinked hcall
      generalize w.call 0 = c' at *
      generalize d.call = c at *
      cases hm
      · rename_i hz; have := (hf _ _ hz).1; subst this; simp at hx
      · refine ⟨r1.trans (absMain_congr (by grind)), by simp [absHandler, hreg, hon, hsel], ?_⟩
        grind
  case error e w hw =>
    have hm := moves hw
    unfold Moves at hm
    cases hreg : d.registered with
    | none =>
      refine unseen hrel rfl rfl rfl rfl rfl rfl rfl rfl ?_
      show Seen _ _ _ _ _ (w.call 0) _
      clear hn hrel hlinked hcall
      generalize w.call 0 = c' at *
      generalize d.call = c at *
      cases hm
      rw [hreg] at r1 r2
      exact ⟨r1, r2, by simp⟩
    | some b =>
      have hq : ∃ x, d.call.handler = .select x := by
        clear hn hrel hlinked hcall
        generalize w.call 0 = c' at *
        generalize d.call = c at *
        cases hm
        exact ⟨_, ‹_›⟩
      obtain ⟨x, q1⟩ := hq
      have hon : d.onWrite = .none := Decidable.byContradiction fun hr => by have := l9.mp hr; rw [q1] at this; simp at this
      have hsel : s.handler = .select := by rw [r2, hreg, hon]; simp [absHandler, q1]
      refine ⟨[.error], { s with watched := none, handler := .stopped }, one ?_, rfl, ⟨s1, s2, s3, s4, s5, s6, s7, s8⟩, ?_⟩
      · simp [CliModel.step, hsel]
      · show Seen _ _ _ _ _ (w.call 0) _
        clear hn hrel hlinked hcall
        generalize w.call 0 = c' at *
        generalize d.call = c at *
        cases hm
        exact ⟨r1.trans (by rw [hreg]; exact absMain_congr (by simp)), by simp [absHandler], by simp⟩
  case handleFailed h hr =>
    have hcb := l9.mp (by simp [h])
    have hreg : d.registered = some true := Decidable.byContradiction fun hr => by have := (l8 hr).2.2; rw [h] at this; simp at this
    have hsel : s.handler = .read := by rw [r2, hreg, h]; simp [absHandler, hcb]
    refine ⟨[.handle], { s with handler := .select, reads := s.reads ++ [s.current] }, one ?_, rfl, ⟨s1, s2, s3, s4, s5, s6, by simp [s7, hcur], s8⟩, ?_⟩
    · simp [CliModel.step, hsel, hcur, hr]
    · show Seen _ _ _ _ _ d.call _
      exact ⟨r1, by simp [absHandler, hreg, hcb], r3⟩
  case handleOk c h hr =>
    have hcb := l9.mp (by simp [h])
    have hreg : d.registered = some true := Decidable.byContradiction fun hr => by have := (l8 hr).2.2; rw [h] at this; simp at this
    have hsel : s.handler = .read := by rw [r2, hreg, h]; simp [absHandler, hcb]
    refine ⟨[.handle], { s with handler := .send c, reads := s.reads ++ [s.current] }, one ?_, rfl, ⟨s1, s2, s3, s4, s5, s6, by simp [s7, hcur], s8⟩, ?_⟩
    · simp [CliModel.step, hsel, hcur, hr]
    · show Seen _ _ _ _ _ d.call _
      exact ⟨r1, by simp [absHandler, hreg, hcb], r3⟩
  case handleSend c h hl =>
    have hcb := l9.mp (by simp [h])
    have hreg : d.registered = some true := Decidable.byContradiction fun hr => by have := (l8 hr).2.2; rw [h] at this; simp at this
    have hsel : s.handler = .send c := by rw [r2, hreg, h]; simp [absHandler, hcb]
    refine ⟨[.handle], { s with handler := .select, chan := s.chan ++ [c], sent := s.sent ++ [c] }, one ?_, rfl, ⟨s1, s2, s3, by simp [s4], by simp [s5], s6, s7, s8⟩, ?_⟩
    · simp only [CliModel.step, hsel]
      rw [if_pos (by rw [s4]; exact hl)]
    · show Seen _ _ _ _ _ d.call _
      exact ⟨r1, by simp [absHandler, hreg, hcb], r3⟩
  case handleDone w h hw =>
    refine unseen hrel rfl rfl rfl rfl rfl rfl rfl rfl ?_
    have hcb := l9.mp (by simp [h])
    have hreg : d.registered = some true := Decidable.byContradiction fun hr => by have := (l8 hr).2.2; rw [h] at this; simp at this
    have hm := moves hw
    unfold Moves at hm
    show Seen _ _ _ _ _ (w.call 0) _
    clear hn hrel hlinked hcall
    generalize w.call 0 = c' at *
    generalize d.call = c at *
    cases hm
    refine ⟨r1.trans (absMain_congr (by grind)), ?_, by grind⟩
    rw [r2, hreg, h]
    simp [absHandler, hcb]
  case writeSeen t f h hw =>
    obtain ⟨evs, n2⟩ := hn writeEv (l11 (by simp [hw]))
    have h' : s.path = some f := s1.trans h
    refine ⟨[.write t], { s with
        text := upd s.text f t, history := s.history ++ [some t]
        queue := if s.watched = some f then push s.queue writeEv else s.queue
        missed := s.missed || (decide (s.main ≠ .read) && decide (s.watched ≠ some f)) },
      one (by simp only [CliModel.step, h']), rfl, ⟨s1, by simp [s2], s3, s4, s5, s6, s7, by simp [s8]⟩, ?_⟩
    show Seen _ _ _ _ _ ((notify d writeEv).call 0) _
    rw [n2]
    refine ⟨r1, r2, fun he => ?_⟩
    obtain ⟨r4, r5, r6⟩ := r3 he
    simp [r4, r5, r6, hw]
  case writeUnseen t f m h hw hm =>
    have h' : s.path = some f := s1.trans h
    refine ⟨[.write t], { s with
        text := upd s.text f t, history := s.history ++ [some t]
        queue := if s.watched = some f then push s.queue writeEv else s.queue
        missed := s.missed || (decide (s.main ≠ .read) && decide (s.watched ≠ some f)) },
      one (by simp only [CliModel.step, h']), rfl, ⟨s1, by simp [s2], s3, s4, s5, s6, s7, by simp [s8]⟩, ?_⟩
    show Seen _ _ _ _ _ d.call _
    refine ⟨r1, r2, fun he => ?_⟩
    obtain ⟨r4, r5, r6⟩ := r3 he
    simp [r4, r5, r6, hw, hm, r1, absMain_read]
  case replace t =>
    exact ⟨[.replace t], CliModel.relink s (some s.files) (upd s.text s.files t) (s.files + 1), one rfl, rfl, by
      rw [s2, s3]; exact simulate_relink hi' hrel _ _ _⟩
  case remove h =>
    exact ⟨[.remove], CliModel.relink s none s.text s.files, one (by simp [CliModel.step, s1, h]), rfl, by
      rw [s2, s3]; exact simulate_relink hi' hrel _ _ _⟩
  case other e h ho =>
    obtain ⟨evs, n2⟩ := hn e ho
    refine ⟨[.other e], { s with queue := push s.queue e }, one rfl, rfl, ⟨s1, s2, s3, s4, s5, s6, s7, s8⟩, ?_⟩
    show Seen _ _ _ _ _ ((notify d e).call 0) _
    rw [n2]
    refine ⟨r1, r2, fun he => ?_⟩
    obtain ⟨r4, r5, r6⟩ := r3 he
    exact ⟨by simp [r4], r5, r6⟩
  case recv c rest h =>
    refine ⟨[.recv], { s with chan := rest, received := s.received ++ [c] }, one ?_, rfl, ⟨s1, s2, s3, rfl, s5, by simp [s6], s7, s8⟩, ?_⟩
    · simp [CliModel.step, s4, h]
    · show Seen _ _ _ _ _ d.call _
      exact ⟨r1, r2, r3⟩

/-- Every execution is one of Model/Cli.lean, with the same things done from outside. -/
theorem refines {d0 d : State} {s0 : CliModel.State} {acts : List Action} (hi : Inv d0) (h : Rel d0 s0) (hr : run step d0 acts = some d) :
    ∃ acts' s, run CliModel.step s0 acts' = some s ∧ acts'.filter isOutside = acts.flatMap outside ∧ Rel d s := by
  induction acts generalizing d0 s0 with
  | nil =>
    simp only [run, Option.some.injEq] at hr
    subst hr
    exact ⟨[], s0, rfl, rfl, h⟩
  | cons a acts ih =>
    simp only [run] at hr
    cases hs : step d0 a with
    | none => simp [hs] at hr
    | some d1 =>
      simp only [hs] at hr
      obtain ⟨as, s1, h1, h2, h3⟩ := simulate hi h hs
      obtain ⟨bs, s2, h4, h5, h6⟩ := ih (inv_step hi hs) h3 hr
      exact ⟨as ++ bs, s2, run_append_some h1 h4, by simp [h2, h5], h6⟩

end CliWatch
end Gevulot
