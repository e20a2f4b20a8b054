import Verif.Spec.Server
import Verif.Proofs.Trans

namespace Gevulot
namespace ServerModel

/-- The transitions, one by one. -/
inductive Tr (s : State) : Action → State → Prop where
  | call (n op) (h : s.pc (.user n) = .idle) (he : ∀ ln, op = .serve ln → ln < s.lnCount) : Tr s (.call n op) { s with pc := upd s.pc (.user n) (entry op), op := upd s.op (.user n) (some op) }
  | startClosed (t) (h : s.pc t = .startCheck) (hc : s.shutdown = true) : Tr s (.thread t) { s with pc := upd s.pc t (.returned .errClosed) }
  | startOpen (t) (h : s.pc t = .startCheck) (hc : s.shutdown = false) : Tr s (.thread t) { s with pc := upd s.pc t .startFire }
  | startAgain (t) (h : s.pc t = .startFire) (hc : s.start = true) : Tr s (.thread t) { s with pc := upd s.pc t (.returned .errStarted) }
  | startFire (t) (h : s.pc t = .startFire) (hc : s.start = false) : Tr s (.thread t) { s with start := true, starter := some t, pc := upd s.pc t .startSubscribe }
  | subFailed (t) (h : s.pc t = .startSubscribe) (hc : s.configClosed = true) : Tr s (.thread t) { s with updatesClosed := true, pc := upd s.pc t (.returned .errConfig) }
  | subOk (t) (h : s.pc t = .startSubscribe) (hc : s.configClosed = false) : Tr s (.thread t) { s with subscribed := true, updates := s.current.toList, pc := upd s.pc t .startLoop }
  | startDo (t ln) (h : s.pc t = .startDo ln) : Tr s (.thread t) { s with wg := s.wg + 1, spawned := s.spawned + 1, pc := upd (upd s.pc (.go s.spawned) (.serveCheck ln)) t .startLoop, op := upd s.op (.go s.spawned) (some (.serve ln)), jobs := s.jobs ++ [(t, .serve ln)] }
  | serveClosed (t ln) (h : s.pc t = .serveCheck ln) (hc : s.shutdown = true) : Tr s (.thread t) { s with pc := upd s.pc t (.returned .errClosed) }
  | serveOpen (t ln) (h : s.pc t = .serveCheck ln) (hc : s.shutdown = false) : Tr s (.thread t) { s with pc := upd s.pc t (.serveLock ln) }
  | install (t ln) (h : s.pc t = .serveLock ln) : Tr s (.thread t) { s with lnOpen := closeListener s, listener := some ln, installed := s.installed ++ [ln], pc := upd s.pc t (.serveAccept ln) }
  | connClosed (t) (h : s.pc t = .connCheck) (hc : s.shutdown = true) : Tr s (.thread t) { s with pc := upd s.pc t (.returned .errClosed) }
  | connOpen (t) (h : s.pc t = .connCheck) (hc : s.shutdown = false) : Tr s (.thread t) { s with pc := upd s.pc t .connRegCheck }
  | regClosed (t) (h : s.pc t = .connRegCheck) (hc : s.shutdown = true) : Tr s (.thread t) { s with pc := upd s.pc t (.returned .errClosed) }
  | regOpen (t) (h : s.pc t = .connRegCheck) (hc : s.shutdown = false) : Tr s (.thread t) { s with pc := upd s.pc t .connRegLock }
  | register (t) (h : s.pc t = .connRegLock) : Tr s (.thread t) { s with sessions := t :: s.sessions, pc := upd s.pc t .connRun }
  | remove (t r) (h : s.pc t = .connRemove r) : Tr s (.thread t) { s with sessions := s.sessions.filter (· ≠ t), pc := upd s.pc t (.returned r) }
  | closeAgain (t) (h : s.pc t = .closeFire) (hc : s.shutdown = true) : Tr s (.thread t) { s with pc := upd s.pc t (.returned .nil) }
  | closeFire (t) (h : s.pc t = .closeFire) (hc : s.shutdown = false) : Tr s (.thread t) { s with shutdown := true, pc := upd s.pc t .closeLock }
  | closeAll (t) (h : s.pc t = .closeLock) : Tr s (.thread t) { s with lnOpen := closeListener s, listener := none, connClosed := fun x => s.connClosed x || decide (x ∈ s.sessions), sessions := [], pc := upd s.pc t (.closeWait (closeResult s)) }
  | closeDone (t r) (h : s.pc t = .closeWait r) (hw : s.wg = 0) : Tr s (.thread t) { s with pc := upd s.pc t (.returned r) }
  | goDone (n r) (h : s.pc (.go n) = .returned r) : Tr s (.thread (.go n)) { s with wg := s.wg - 1, pc := upd s.pc (.go n) .done }
  | takeConfig (t a rest) (h : s.pc t = .startLoop) (hu : s.updates = a :: rest) : Tr s (.takeConfig t) { s with updates := rest, pc := upd s.pc t (.startListen a) }
  | noticeShutdown (t) (h : s.pc t = .startLoop) (hc : s.shutdown = true) : Tr s (.noticeShutdown t) { s with updatesClosed := true, pc := upd s.pc t (.returned .errClosed) }
  | listenOk (t a) (h : s.pc t = .startListen a) : Tr s (.listen t true) { s with lnCount := s.lnCount + 1, lnOpen := upd s.lnOpen s.lnCount true, lnAddr := upd s.lnAddr s.lnCount a, tried := s.tried ++ [(t, a, some s.lnCount)], pc := upd s.pc t (.startDo s.lnCount) }
  | listenFail (t a) (h : s.pc t = .startListen a) : Tr s (.listen t false) { s with tried := s.tried ++ [(t, a, none)], pc := upd s.pc t .startLoop }
  | accept (t ln c) (h : s.pc t = .serveAccept ln) (ho : s.lnOpen ln = true) : Tr s (.accept t (.conn c)) { s with accepts := upd s.accepts t (s.accepts t ++ [.conn c]), pc := upd s.pc t (.serveDo ln c) }
  | serveDo (t ln c) (h : s.pc t = .serveDo ln c) : Tr s (.thread t) { s with wg := s.wg + 1, spawned := s.spawned + 1, pc := upd (upd s.pc (.go s.spawned) .connCheck) t (.serveAccept ln), op := upd s.op (.go s.spawned) (some (.serveConn c)), jobs := s.jobs ++ [(t, .serveConn c)] }
  | acceptTemp (t ln e) (h : s.pc t = .serveAccept ln) (he : e.survived = true) : Tr s (.accept t (.err e)) { s with accepts := upd s.accepts t (s.accepts t ++ [.err e]) }
  | acceptPerm (t ln e) (h : s.pc t = .serveAccept ln) (he : e.survived = false) : Tr s (.accept t (.err e)) { s with accepts := upd s.accepts t (s.accepts t ++ [.err e]), pc := upd s.pc t (.returned (.errAccept e)) }
  | sessionEnd (t e) (h : s.pc t = .connRun) : Tr s (.sessionEnd t e) { s with connClosed := upd s.connClosed t true, pc := upd s.pc t (.connRemove (.session e)) }
  | watchdog (t r) (h : s.pc t = .closeWait r) : Tr s (.watchdog t) { s with watchdogPanic := true }
  | configPanic (a) (h : s.configClosed = false) (hs : s.subscribed = true) (ha : addressChanged s.current a = true) (hu : s.updatesClosed = true) : Tr s (.config a) { s with current := some a, sendPanic := true }
  | configSend (a) (h : s.configClosed = false) (hs : s.subscribed = true) (ha : addressChanged s.current a = true) (hu : s.updatesClosed = false) (hl : s.updates = []) : Tr s (.config a) { s with current := some a, updates := [a] }
  | configSame (a) (h : s.configClosed = false) (hs : s.subscribed = true → addressChanged s.current a = false) : Tr s (.config a) { s with current := some a }
  | closeConfig : Tr s .closeConfig { s with configClosed := true }
  | userListen (a) : Tr s (.userListen a) { s with lnCount := s.lnCount + 1, lnOpen := upd s.lnOpen s.lnCount true, lnAddr := upd s.lnAddr s.lnCount a }
  | userCloseListener (ln) : Tr s (.userCloseListener ln) { s with lnOpen := upd s.lnOpen ln false }

theorem step_tr {s s' : State} {a : Action} (hs : step s a = some s') :
    (s.watchdogPanic = false ∧ s.sendPanic = false) ∧ Tr s a s' := by
  unfold step at hs
  split at hs
  · simp at hs
  rename_i hp
  refine ⟨by simpa using hp, ?_⟩
  cases a with
  | call n op =>
    simp only at hs
    split at hs
    · split at hs
      · rename_i he
        simp only [Option.some.injEq] at hs; subst hs
        refine .call n op ‹_› ?_
        rintro ln rfl
        simpa [Op.exists] using he
      · simp at hs
    · simp at hs
  | thread t =>
    simp only at hs
    split at hs
    · simp only [Option.some.injEq] at hs; subst hs
      split
      · exact .startClosed t ‹_› ‹_›
      · exact .startOpen t ‹_› (eq_false_of_ne_true ‹_›)
    · split at hs <;> simp only [Option.some.injEq] at hs <;> subst hs
      · exact .startAgain t ‹_› ‹_›
      · exact .startFire t ‹_› (eq_false_of_ne_true ‹_›)
    · split at hs <;> simp only [Option.some.injEq] at hs <;> subst hs
      · exact .subFailed t ‹_› ‹_›
      · exact .subOk t ‹_› (eq_false_of_ne_true ‹_›)
    · simp only [Option.some.injEq] at hs; subst hs
      exact .startDo t _ ‹_›
    · simp only [Option.some.injEq] at hs; subst hs
      split
      · exact .serveClosed t _ ‹_› ‹_›
      · exact .serveOpen t _ ‹_› (eq_false_of_ne_true ‹_›)
    · simp only [Option.some.injEq] at hs; subst hs
      exact .install t _ ‹_›
    · simp only [Option.some.injEq] at hs; subst hs
      exact .serveDo t _ _ ‹_›
    · simp only [Option.some.injEq] at hs; subst hs
      split
      · exact .connClosed t ‹_› ‹_›
      · exact .connOpen t ‹_› (eq_false_of_ne_true ‹_›)
    · simp only [Option.some.injEq] at hs; subst hs
      split
      · exact .regClosed t ‹_› ‹_›
      · exact .regOpen t ‹_› (eq_false_of_ne_true ‹_›)
    · simp only [Option.some.injEq] at hs; subst hs
      exact .register t ‹_›
    · simp only [Option.some.injEq] at hs; subst hs
      exact .remove t _ ‹_›
    · split at hs <;> simp only [Option.some.injEq] at hs <;> subst hs
      · exact .closeAgain t ‹_› ‹_›
      · exact .closeFire t ‹_› (eq_false_of_ne_true ‹_›)
    · simp only [Option.some.injEq] at hs; subst hs
      exact .closeAll t ‹_›
    · split at hs
      · simp only [Option.some.injEq] at hs; subst hs
        exact .closeDone t _ ‹_› ‹_›
      · simp at hs
    · split at hs
      · simp only [Option.some.injEq] at hs; subst hs
        exact .goDone _ _ ‹_›
      · simp at hs
    · simp at hs
  | takeConfig t =>
    simp only at hs
    split at hs
    · split at hs
      · simp only [Option.some.injEq] at hs; subst hs
        exact .takeConfig t _ _ ‹_› ‹_›
      · simp at hs
    · simp at hs
  | noticeShutdown t =>
    simp only at hs
    split at hs
    · split at hs
      · simp only [Option.some.injEq] at hs; subst hs
        exact .noticeShutdown t ‹_› ‹_›
      · simp at hs
    · simp at hs
  | listen t ok =>
    simp only at hs
    split at hs
    · cases ok with
      | true =>
        simp only [if_true, Option.some.injEq] at hs; subst hs
        exact .listenOk t _ ‹_›
      | false =>
        simp only [Bool.false_eq_true, if_false, Option.some.injEq] at hs; subst hs
        exact .listenFail t _ ‹_›
    · simp at hs
  | accept t o =>
    simp only at hs
    split at hs
    · split at hs
      · split at hs
        · simp only [Option.some.injEq] at hs; subst hs
          exact .accept t _ _ ‹_› ‹_›
        · simp at hs
      · split at hs <;> simp only [Option.some.injEq] at hs <;> subst hs
        · exact .acceptTemp t _ _ ‹_› ‹_›
        · exact .acceptPerm t _ _ ‹_› (eq_false_of_ne_true ‹_›)
    · simp at hs
  | sessionEnd t e =>
    simp only at hs
    split at hs
    · simp only [Option.some.injEq] at hs; subst hs
      exact .sessionEnd t e ‹_›
    · simp at hs
  | watchdog t =>
    simp only at hs
    split at hs
    · simp only [Option.some.injEq] at hs; subst hs
      exact .watchdog t _ ‹_›
    · simp at hs
  | config a =>
    simp only at hs
    split at hs
    · simp at hs
    · rename_i hcc
      split at hs
      · rename_i hx
        simp only [Bool.and_eq_true] at hx
        split at hs
        · simp only [Option.some.injEq] at hs; subst hs
          exact .configPanic a (eq_false_of_ne_true hcc) hx.1 hx.2 ‹_›
        · split at hs
          · rename_i hl
            have hnil : s.updates = [] := List.eq_nil_of_length_eq_zero (by omega)
            simp only [Option.some.injEq] at hs; subst hs
            rw [hnil]
            exact .configSend a (eq_false_of_ne_true hcc) hx.1 hx.2 (eq_false_of_ne_true ‹_›) hnil
          · simp at hs
      · rename_i hx
        simp only [Option.some.injEq] at hs; subst hs
        refine .configSame a (eq_false_of_ne_true hcc) ?_
        intro h; simpa [h] using hx
  | closeConfig => simp only [Option.some.injEq] at hs; subst hs; exact .closeConfig
  | userListen a => simp only [Option.some.injEq] at hs; subst hs; exact .userListen a
  | userCloseListener ln => simp only [Option.some.injEq] at hs; subst hs; exact .userCloseListener ln

/-- Case distinction over the transitions. -/
macro "server_cases" hs:ident : tactic => `(tactic| (
  obtain ⟨hnp, htr⟩ := step_tr $hs
  clear $hs:ident
  cases htr))

/-! ### Goroutines and the wait group -/

def PC.isDone : PC → Bool
  | .done => true
  | _ => false

def PC.isIdle : PC → Bool
  | .idle => true
  | _ => false

/-- The goroutines that have not finished. -/
def live (s : State) : Nat := (List.range s.spawned).countP fun n => !(s.pc (.go n)).isDone

theorem countP_upd {f g : Nat → Bool} {k n : Nat} (hn : n < k) (hf : f n = true) (hg : g n = false) (ho : ∀ m, m ≠ n → f m = g m) :
    (List.range k).countP f = (List.range k).countP g + 1 := by
  induction k with
  | zero => omega
  | succ k ih =>
    rw [List.range_succ, List.countP_append, List.countP_append]
    by_cases h : n = k
    · subst h
      have : (List.range n).countP f = (List.range n).countP g := by
        apply List.countP_congr
        intro m hm
        rw [ho m (by have := List.mem_range.mp hm; omega)]
      simp [this, hf, hg]
    · rw [ih (by omega)]
      simp only [List.countP_cons, List.countP_nil, ho k (fun h' => h h'.symm)]
      omega

theorem live_congr {s s' : State} (h1 : s'.spawned = s.spawned) (h2 : ∀ n, n < s.spawned → (s'.pc (.go n)).isDone = (s.pc (.go n)).isDone) :
    live s' = live s := by
  unfold live
  rw [h1]
  apply List.countP_congr
  intro n hn
  rw [h2 n (List.mem_range.mp hn)]

structure GoInv (s : State) : Prop where
  fresh : ∀ n, s.pc (.go n) = .idle ↔ s.spawned ≤ n
  notDone : ∀ n, s.pc (.user n) ≠ .done
  wg : s.wg = live s
  jobs : s.jobs.length = s.spawned
  ops : ∀ n, (s.jobs[n]?).map (·.2) = s.op (.go n)
  opIdle : ∀ t, s.op t = none ↔ s.pc t = .idle

theorem goInv_init (c : Option Addr) : GoInv (init c) := by
  constructor <;> simp [init, live]

theorem entry_ne_idle (op : Op) : entry op ≠ .idle := by cases op <;> simp [entry]
theorem entry_ne_done (op : Op) : entry op ≠ .done := by cases op <;> simp [entry]

set_option maxHeartbeats 1000000 in
theorem goInv_step {s s' : State} {a : Action} (h : GoInv s) (hs : step s a = some s') : GoInv s' := by
  obtain ⟨h1, h2, h3, h4, h5, h6⟩ := h
  have hkeep : ∀ (pc' : Tid → PC), (∀ n, (pc' (.go n)).isDone = (s.pc (.go n)).isDone) → ∀ s1 : State, s1.pc = pc' → s1.spawned = s.spawned → live s1 = live s := by
    intro pc' hpc s1 he hsp
    exact live_congr hsp (fun n _ => by rw [he, hpc])
  constructor
  · clear hkeep h3 h4 h5
    server_cases hs <;> grind [upd_apply, entry_ne_idle]
  · clear hkeep h3 h4 h5 h1
    server_cases hs <;> grind [upd_apply, entry_ne_done]
  · have hl : s'.spawned = s.spawned ∧ s'.wg = s.wg ∧ (∀ n, n < s.spawned → (s'.pc (.go n)).isDone = (s.pc (.go n)).isDone) ∨
      s'.spawned = s.spawned + 1 ∧ s'.wg = s.wg + 1 ∧ (s'.pc (.go s.spawned)).isDone = false ∧ (∀ n, n < s.spawned → (s'.pc (.go n)).isDone = (s.pc (.go n)).isDone) ∨
      ∃ n, n < s.spawned ∧ s'.spawned = s.spawned ∧ s'.wg = s.wg - 1 ∧ (s.pc (.go n)).isDone = false ∧ (s'.pc (.go n)).isDone = true ∧ ∀ m, m ≠ n → s'.pc (.go m) = s.pc (.go m) := by
      clear hkeep h3 h4 h5
      server_cases hs
      case goDone n r h =>
        right; right
        refine ⟨n, ?_, rfl, rfl, by rw [h]; rfl, by simp [PC.isDone], ?_⟩
        · have := h1 n
          rw [h] at this
          simp at this; exact this
        · intro m hm
          exact upd_other _ _ (by simp [hm])
      case startDo t ln h =>
        right; left
        refine ⟨rfl, rfl, ?_, ?_⟩ <;> grind [upd_apply, PC.isDone]
      case serveDo t ln c h =>
        right; left
        refine ⟨rfl, rfl, ?_, ?_⟩ <;> grind [upd_apply, PC.isDone]
      all_goals (left; refine ⟨rfl, rfl, ?_⟩; grind [upd_apply, PC.isDone])
    rcases hl with ⟨a1, a2, a3⟩ | ⟨a1, a2, a3, a4⟩ | ⟨n, a0, a1, a2, a3, a4, a5⟩
    · rw [a2, h3]; exact (live_congr a1 a3).symm
    · rw [a2, h3]
      unfold live
      rw [a1, List.range_succ, List.countP_append]
      have : (List.range s.spawned).countP (fun n => !(s'.pc (.go n)).isDone) = (List.range s.spawned).countP fun n => !(s.pc (.go n)).isDone := by
        apply List.countP_congr
        intro n hn
        rw [a4 n (List.mem_range.mp hn)]
      simp [this, a3]
    · have := countP_upd (f := fun n => !(s.pc (.go n)).isDone) (g := fun n => !(s'.pc (.go n)).isDone) a0 (by simp [a3]) (by simp [a4])
        (by intro m hm; simp only [a5 m hm])
      unfold live at h3 ⊢
      rw [a1, a2]
      omega
  · clear hkeep h3 h5 h1
    server_cases hs <;> grind
  · clear hkeep h3 h1
    server_cases hs <;> grind [upd_apply]
  · clear hkeep h3 h4 h5 h1
    server_cases hs <;> grind [upd_apply, entry_ne_idle]

/-! ### Which thread is where -/

def Ret.fits (o : Option Op) : Ret → Prop
  | .nil => o = some .close
  | .errClosed => o = some .start ∨ (∃ ln, o = some (.serve ln)) ∨ ∃ c, o = some (.serveConn c)
  | .errStarted => o = some .start
  | .errConfig => o = some .start
  | .errAccept _ => ∃ ln, o = some (.serve ln)
  | .errListener => o = some .close
  | .session _ => ∃ c, o = some (.serveConn c)

def PC.fits (o : Option Op) : PC → Prop
  | .idle => o = none
  | .startCheck => o = some .start
  | .startFire => o = some .start
  | .startSubscribe => o = some .start
  | .startLoop => o = some .start
  | .startListen _ => o = some .start
  | .startDo _ => o = some .start
  | .serveCheck ln => o = some (.serve ln)
  | .serveLock ln => o = some (.serve ln)
  | .serveAccept ln => o = some (.serve ln)
  | .serveDo ln _ => o = some (.serve ln)
  | .connCheck => ∃ c, o = some (.serveConn c)
  | .connRegCheck => ∃ c, o = some (.serveConn c)
  | .connRegLock => ∃ c, o = some (.serveConn c)
  | .connRun => ∃ c, o = some (.serveConn c)
  | .connRemove r => (∃ c, o = some (.serveConn c)) ∧ r.fits o
  | .closeFire => o = some .close
  | .closeLock => o = some .close
  | .closeWait r => o = some .close ∧ r.fits o
  | .returned r => r.fits o
  | .done => o ≠ none

theorem fits_entry (op : Op) : (entry op).fits (some op) := by
  cases op <;> simp [entry, PC.fits]

theorem fits_closeResult (s : State) : (closeResult s).fits (some .close) := by
  unfold closeResult
  split
  · split <;> rfl
  · rfl

theorem fits_ne_none {r : Ret} {o : Option Op} (h : r.fits o) : o ≠ none := by
  cases r <;> simp [Ret.fits] at h <;> grind

def FitInv (s : State) : Prop := ∀ t, (s.pc t).fits (s.op t)

theorem fitInv_init (c : Option Addr) : FitInv (init c) := fun _ => rfl

set_option maxHeartbeats 1000000 in
theorem fitInv_step {s s' : State} {a : Action} (hg : GoInv s) (h : FitInv s) (hs : step s a = some s') : FitInv s' := by
  intro x
  have h1 := h x
  have hx := hg.fresh s.spawned
  simp only [Nat.le_refl, iff_true] at hx
  have hall : ∀ t, (s.pc t).fits (s.op t) := h
  clear hg h
  server_cases hs
  case goDone n r h =>
    simp only [upd_apply]
    split
    · rename_i hx; subst hx
      rw [h] at h1
      exact fits_ne_none h1
    · exact h1
  case call n op h he => grind [upd_apply, fits_entry]
  case closeAll t h => grind [upd_apply, PC.fits, fits_closeResult]
  all_goals grind [upd_apply, PC.fits, Ret.fits]

/-! ### `Start` -/

/-- `Start` has fired the event and not returned. -/
def PC.running : PC → Bool
  | .startSubscribe => true
  | .startLoop => true
  | .startListen _ => true
  | .startDo _ => true
  | _ => false

structure StartInv (s : State) : Prop where
  starter : ∀ t, (s.pc t).running = true → s.starter = some t
  start : s.start = true ↔ s.starter ≠ none
  tried : ∀ x ∈ s.tried, s.starter = some x.1
  serves : ∀ t ln, (t, Op.serve ln) ∈ s.jobs → s.starter = some t

theorem startInv_init (c : Option Addr) : StartInv (init c) := by
  constructor <;> simp [init, PC.running]

set_option maxHeartbeats 1000000 in
theorem startInv_step {s s' : State} {a : Action} (h : StartInv s) (hs : step s a = some s') : StartInv s' := by
  obtain ⟨h1, h2, h3, h4⟩ := h
  have he : ∀ op, (entry op).running = false := by intro op; cases op <;> rfl
  server_cases hs <;> constructor <;> grind [upd_apply, PC.running]

/-! ### Listeners -/

def PC.ln : PC → Option Nat
  | .startDo ln => some ln
  | .serveCheck ln => some ln
  | .serveLock ln => some ln
  | .serveAccept ln => some ln
  | .serveDo ln _ => some ln
  | _ => none

structure ListenInv (s : State) : Prop where
  current : ∀ ln ∈ s.installed, s.lnOpen ln = true → s.listener = some ln
  installed : ∀ ln, s.listener = some ln → ln ∈ s.installed
  bound : ∀ ln ∈ s.installed, ln < s.lnCount
  pcs : ∀ t ln, (s.pc t).ln = some ln → ln < s.lnCount

theorem listenInv_init (c : Option Addr) : ListenInv (init c) := by
  constructor <;> simp [init, PC.ln]

theorem closeListener_apply (s : State) (ln : Nat) : closeListener s ln = (if s.listener = some ln then false else s.lnOpen ln) := by
  unfold closeListener
  cases h : s.listener with
  | none => simp
  | some l =>
    simp only [upd_apply, Option.some.injEq]
    by_cases hx : ln = l
    · simp [hx]
    · simp [hx, Ne.symm hx]

set_option maxHeartbeats 1000000 in
theorem listenInv_step {s s' : State} {a : Action} (h : ListenInv s) (hs : step s a = some s') : ListenInv s' := by
  obtain ⟨h1, h2, h3, h4⟩ := h
  server_cases hs
  case call n op h he =>
    refine ⟨h1, h2, h3, ?_⟩
    intro t ln ht
    simp only [upd_apply] at ht
    split at ht
    · cases op <;> simp [entry, PC.ln] at ht
      subst ht; exact he _ rfl
    · exact h4 t ln ht
  all_goals constructor <;> grind [upd_apply, PC.ln, closeListener_apply]

/-! ### Sessions and `Close` -/

def PC.serving : PC → Bool
  | .connRun => true
  | .connRemove _ => true
  | _ => false

def PC.closing : PC → Bool
  | .closeLock => true
  | .closeWait _ => true
  | _ => false

def Ret.isSession : Ret → Bool
  | .session _ => true
  | _ => false

def PC.ended : PC → Bool
  | .connRemove _ => true
  | .returned r => r.isSession
  | _ => false

structure SessInv (s : State) : Prop where
  serving : ∀ t, t ∈ s.sessions → (s.pc t).serving = true
  nodup : s.sessions.Nodup
  tracked : s.shutdown = false → ∀ t, (s.pc t).serving = true → t ∈ s.sessions
  sweep : ∀ c, s.pc c = .closeLock → ∀ t, (s.pc t).serving = true → t ∈ s.sessions
  closing : ∀ t, (s.pc t).closing = true → s.shutdown = true
  one : ∀ t t', (s.pc t).closing = true → (s.pc t').closing = true → t = t'
  ended : ∀ t, (s.pc t).ended = true → s.connClosed t = true

theorem sessInv_init (c : Option Addr) : SessInv (init c) := by
  constructor <;> simp [init, PC.serving, PC.closing, PC.ended]

set_option maxHeartbeats 1000000 in
theorem sessInv_step {s s' : State} {a : Action} (hf : FitInv s) (hg : GoInv s) (h : SessInv s) (hs : step s a = some s') : SessInv s' := by
  obtain ⟨h1, h2, h3, h3', h4, h5, h6⟩ := h
  have hx := hg.fresh s.spawned
  simp only [Nat.le_refl, iff_true] at hx
  have e1 : ∀ op, (entry op).serving = false := by intro op; cases op <;> rfl
  have e2 : ∀ op, (entry op).closing = false := by intro op; cases op <;> rfl
  have e3 : ∀ op, (entry op).ended = false := by intro op; cases op <;> rfl
  have e4 : ∀ op, entry op ≠ .closeLock := by intro op; cases op <;> simp [entry]
  have hr : ∀ t r, s.pc t = .closeWait r → r.isSession = false := by
    intro t r ht
    have := hf t
    rw [ht] at this
    obtain ⟨h7, h8⟩ := this
    cases r <;> simp [Ret.isSession, Ret.fits, h7] at h8 ⊢
  clear hf hg
  server_cases hs
  case closeAll t h =>
    have hnc : ∀ t', s.pc t' = .closeLock → t' = t := fun t' ht' => h5 t' t (by rw [ht']; rfl) (by rw [h]; rfl)
    have htr := h3' t h
    constructor <;> grind [upd_apply, PC.serving, PC.closing, PC.ended]
  all_goals constructor <;> grind [upd_apply, PC.serving, PC.closing, PC.ended, Ret.isSession]

/-! ### Accepting -/

def Outcome.conn? : Outcome → Option Nat
  | .conn c => some c
  | .err _ => none

def Op.conn? : Op → Option Nat
  | .serveConn c => some c
  | _ => none

/-- The connections for which thread `t` has started goroutines. -/
def startedFor (t : Tid) (jobs : List (Tid × Op)) : List Nat := jobs.filterMap fun j => if j.1 = t then j.2.conn? else none

def Ret.acceptErr : Ret → Option AcceptErr
  | .errAccept e => some e
  | _ => none

def Outcome.goesOn : Outcome → Bool
  | .conn _ => true
  | .err e => e.survived

/-- Not yet accepting. -/
def PC.fresh : PC → Bool
  | .idle => true
  | .serveCheck _ => true
  | .serveLock _ => true
  | _ => false

structure AcceptInv (s : State) : Prop where
  conns : ∀ t, startedFor t s.jobs ++ (s.pc t).inHand.toList = (s.accepts t).filterMap Outcome.conn?
  accepting : ∀ t, (s.pc t).accepting ≠ none → ∀ o ∈ s.accepts t, o.goesOn = true
  returned : ∀ t e, s.pc t = .returned (.errAccept e) → ∃ pre, s.accepts t = pre ++ [.err e] ∧ (∀ o ∈ pre, o.goesOn = true) ∧ e.survived = false
  before : ∀ t, (s.pc t).fresh = true → s.accepts t = []

theorem acceptInv_init (c : Option Addr) : AcceptInv (init c) := by
  constructor <;> simp [init, startedFor, PC.inHand]

theorem startedFor_snoc (t t' : Tid) (op : Op) (jobs : List (Tid × Op)) :
    startedFor t (jobs ++ [(t', op)]) = startedFor t jobs ++ (if t' = t then op.conn?.toList else []) := by
  unfold startedFor
  rw [List.filterMap_append]
  by_cases h : t' = t
  · cases hc : op.conn? <;> simp [h, hc]
  · simp [h]

theorem acceptInv_conns {s s' : State} {a : Action} (hg : GoInv s) (h : AcceptInv s) (hs : step s a = some s') (x : Tid) :
    startedFor x s'.jobs ++ (s'.pc x).inHand.toList = (s'.accepts x).filterMap Outcome.conn? := by
  have h1 := h.conns x
  have hf := hg.fresh s.spawned
  simp only [Nat.le_refl, iff_true] at hf
  have e : ∀ op, (entry op).inHand = none := by intro op; cases op <;> rfl
  clear h hg
  server_cases hs
  case startDo t ln h =>
    simp only [startedFor_snoc, ← h1]
    grind [upd_apply, PC.inHand, Op.conn?]
  case serveDo t ln c h =>
    simp only [startedFor_snoc, ← h1, upd_apply]
    by_cases hx : t = x
    · subst hx; simp [h, PC.inHand, Op.conn?]
    · simp only [hx, Ne.symm hx, if_false]
      grind [PC.inHand]
  case accept t ln c h ho =>
    simp only [upd_apply]
    by_cases hx : t = x
    · subst hx
      rw [h] at h1
      simp [← h1, Outcome.conn?, PC.inHand]
    · simp only [Ne.symm hx, if_false]; exact h1
  case acceptTemp t ln e h he =>
    simp only [upd_apply]
    by_cases hx : t = x
    · subst hx; simp [← h1, Outcome.conn?]
    · simp only [Ne.symm hx, if_false]; exact h1
  case acceptPerm t ln e h he =>
    simp only [upd_apply]
    by_cases hx : t = x
    · subst hx
      rw [h] at h1
      simp [← h1, Outcome.conn?, PC.inHand]
    · simp only [Ne.symm hx, if_false]; exact h1
  all_goals grind [upd_apply, PC.inHand]

def PC.acceptErr : PC → Option AcceptErr
  | .closeWait r => r.acceptErr
  | .connRemove r => r.acceptErr
  | _ => none

theorem acceptErr_none {s : State} (hf : FitInv s) (t : Tid) : (s.pc t).acceptErr = none := by
  have := hf t
  cases h : s.pc t <;> simp only [PC.acceptErr]
  all_goals
    rw [h] at this
    obtain ⟨h7, h8⟩ := this
    rename_i r
    cases r <;> simp only [Ret.acceptErr, reduceCtorEq]
    simp only [Ret.fits] at h8
    obtain ⟨ln, h8⟩ := h8
    simp [h8] at h7

set_option maxHeartbeats 1000000 in
theorem acceptInv_step {s s' : State} {a : Action} (hf : FitInv s) (hg : GoInv s) (h : AcceptInv s) (hs : step s a = some s') : AcceptInv s' := by
  have hc := acceptInv_conns hg h hs
  have hr := acceptErr_none hf
  obtain ⟨-, h2, h3, h4⟩ := h
  have hx := hg.fresh s.spawned
  simp only [Nat.le_refl, iff_true] at hx
  have hx2 := h4 (.go s.spawned) (by rw [hx]; rfl)
  have e1 : ∀ op, (entry op).accepting = none := by intro op; cases op <;> rfl
  have e2 : ∀ op r, entry op ≠ .returned r := by intro op; cases op <;> simp [entry]
  clear hf hg
  revert hc
  server_cases hs
  all_goals intro hc; refine ⟨hc, ?_, ?_, ?_⟩
  case acceptPerm.refine_2 t ln e h he =>
    intro t' e' ht'
    simp only [upd_apply] at ht' ⊢
    by_cases hx : t' = t
    · subst hx
      simp only [if_true, PC.returned.injEq, Ret.errAccept.injEq] at ht' ⊢
      subst ht'
      exact ⟨_, rfl, h2 _ (by rw [h]; simp [PC.accepting]), he⟩
    · simp only [hx, if_false] at ht' ⊢
      exact h3 t' e' ht'
  all_goals clear hc; grind [upd_apply, PC.fresh, PC.accepting, Outcome.goesOn, PC.acceptErr, Ret.acceptErr]

/-! ### The configuration channel -/

/-- In the loop of `Start`. -/
def PC.looping : PC → Bool
  | .startLoop => true
  | .startListen _ => true
  | .startDo _ => true
  | _ => false

/-- Out of the loop of `Start`. -/
def PC.over : PC → Bool
  | .returned _ => true
  | .done => true
  | _ => false

structure ConfigInv (s : State) : Prop where
  running : ∀ t, (s.pc t).running = true → s.updatesClosed = false
  loop : ∀ t, (s.pc t).looping = true → s.subscribed = true
  noStart : s.starter = none → s.subscribed = false ∧ s.updatesClosed = false
  over : ∀ t, s.starter = some t → s.updatesClosed = (s.pc t).over
  started : ∀ t, s.starter = some t → (s.pc t).running = true ∨ (s.pc t).over = true
  noSub : s.subscribed = false → s.updates = []
  panic : s.sendPanic = true → s.subscribed = true ∧ s.updatesClosed = true
  cap : s.updates.length ≤ 1

theorem configInv_init (c : Option Addr) : ConfigInv (init c) := by
  constructor <;> simp [init, PC.running, PC.looping, PC.over]

set_option maxHeartbeats 1000000 in
theorem configInv_step {s s' : State} {a : Action} (hg : GoInv s) (hst : StartInv s) (h : ConfigInv s) (hs : step s a = some s') : ConfigInv s' := by
  obtain ⟨h1, h2, h3, h4, h5, h6, h7, h8⟩ := h
  have hx := hg.fresh s.spawned
  simp only [Nat.le_refl, iff_true] at hx
  have h9 := hst.starter
  have h10 := hst.start
  have e1 : ∀ op, (entry op).running = false := by intro op; cases op <;> rfl
  have e2 : ∀ op, (entry op).looping = false := by intro op; cases op <;> rfl
  have e3 : ∀ op, (entry op).over = false := by intro op; cases op <;> rfl
  clear hg hst
  server_cases hs
  all_goals constructor <;> grind [upd_apply, PC.running, PC.looping, PC.over]

/-! ### Everything -/

structure Inv (s : State) : Prop where
  go : GoInv s
  fit : FitInv s
  start : StartInv s
  listen : ListenInv s
  sess : SessInv s
  accept : AcceptInv s
  config : ConfigInv s

theorem inv_init (c : Option Addr) : Inv (init c) :=
  ⟨goInv_init c, fitInv_init c, startInv_init c, listenInv_init c, sessInv_init c, acceptInv_init c, configInv_init c⟩

theorem inv_step (s : State) (a : Action) (s' : State) (h : Inv s) (hs : step s a = some s') : Inv s' :=
  ⟨goInv_step h.go hs, fitInv_step h.go h.fit hs, startInv_step h.start hs, listenInv_step h.listen hs, sessInv_step h.fit h.go h.sess hs, acceptInv_step h.fit h.go h.accept hs, configInv_step h.go h.start h.config hs⟩

theorem inv_of_reachable {c : Option Addr} {s : State} (h : Reachable step (init c) s) : Inv s :=
  h.invariant Inv (inv_init c) inv_step

end ServerModel
end Gevulot
