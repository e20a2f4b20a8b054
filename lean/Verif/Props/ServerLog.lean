import Verif.Proofs.ServerLog

/-!
# C110: what the server logs
-/

namespace Gevulot.ServerLog

open ServerModel (Tid Addr AcceptErr)

variable {current : Option Addr}

/-- `Start` has logged each address it tried, in this order, each followed by the failure if it could not listen there; the one it
is trying; and the end, if it has returned because of the shutdown. -/
theorem C110 (s : State) (h : Reachable step (init current) s) (t : Tid) (ht : s.server.op t = some .start) :
    s.log t = (s.server.tried.filter fun x => decide (x.1 = t)).flatMap attempt ++ pending (s.server.pc t) ++
      (if s.server.starter = some t ∧ s.server.pc t = .returned .errClosed then [.startFinished] else []) :=
  (inv_of_reachable h).start t ht

/-- `Serve` has logged what its place in the code says. -/
theorem C110_serve (s : State) (h : Reachable step (init current) s) (t : Tid) (ln : Nat) (ht : s.server.op t = some (.serve ln)) :
    ServeStory (s.log t) (s.heard t) (s.server.pc t) :=
  (inv_of_reachable h).serve t ln ht

/-- The old listener is mentioned if there is one, and an error if it had been closed already. -/
theorem C110_old (s s' : State) (n : Note) (t : Tid) (ln : Nat) (hpc : s.server.pc t = .serveLock ln) (hs : step s (.thread t, n) = some s') :
    (s.server.listener = none → s'.log t = s.log t ++ [.ready]) ∧
    ∀ k, s.server.listener = some k →
      s'.log t = s.log t ++ if s.server.lnOpen k then [.closingOld, .ready] else [.closingOld, .oldError, .ready] := by
  have hl := (step_spec hs).2.1 t
  simp only [who, lines, threadLines, hpc, if_true, oldLines] at hl
  rw [hl]
  constructor
  · intro h
    rw [h]
    rfl
  · intro k h
    rw [h]
    cases e : s.server.lnOpen k <;> simp [e]

/-- In `ServeStory` the errors are those that `Accept` has returned, in this order. -/
theorem C110_accept (s : State) (h : Reachable step (init current) s) (t : Tid) : (s.heard t).map (·.1) = failures (s.server.accepts t) :=
  heard_of_reachable h t

/-- `ServeConn`: the client is logged as soon as the server is found not to be closed, and then the end is, too. -/
theorem C110_conn (s : State) (h : Reachable step (init current) s) (t : Tid) (c : Nat) (ht : s.server.op t = some (.serveConn c)) :
    ConnStory (s.log t) c (s.server.pc t) :=
  (inv_of_reachable h).conn t c ht

/-- A session that runs has been logged, with the right connection. -/
theorem C110_session (s : State) (h : Reachable step (init current) s) (t : Tid) (ht : s.server.pc t = .connRun) :
    ∃ c, s.server.op t = some (.serveConn c) ∧ s.log t = [.newClient c] := by
  have hf := (inv_of_reachable h).fit t
  rw [ht] at hf
  obtain ⟨c, hc⟩ := hf
  have := (inv_of_reachable h).conn t c hc
  rw [ht] at this
  exact ⟨c, hc, this⟩

/-- `Close` has logged what its place in the code says. -/
theorem C110_close (s : State) (h : Reachable step (init current) s) (t : Tid) (ht : s.server.op t = some .close) :
    CloseStory (s.log t) (s.server.pc t) :=
  (inv_of_reachable h).close t ht

/-- The sessions it complains about are those it has found and could not close. -/
theorem C110_failed (s s' : State) (n : Note) (t : Tid) (hpc : s.server.pc t = .closeLock) (hs : step s (.thread t, n) = some s') :
    s'.log t = s.log t ++ (s.server.sessions.filter n.closeFails).map .sessionError := by
  have hl := (step_spec hs).2.1 t
  simp only [who, lines, threadLines, hpc, if_true] at hl
  exact hl

/-- "server: closing" is logged if and only if the server is closed; at most one call logs it, and at most once. -/
theorem C110_closing (s : State) (h : Reachable step (init current) s) :
    (s.server.shutdown = true ↔ ∃ t, .closing ∈ s.log t) ∧ (∀ t u, .closing ∈ s.log t → .closing ∈ s.log u → t = u) ∧
      ∀ t, (s.log t).count .closing ≤ 1 :=
  have hc := closing_of_reachable h
  ⟨hc.fired, hc.one, hc.once⟩

/-- Who has not been called has logged nothing. -/
theorem C110_idle (s : State) (h : Reachable step (init current) s) (t : Tid) (ht : s.server.op t = none) : s.log t = [] :=
  ((inv_of_reachable h).idle t ht).1

/-- The server is that of Model/Server.lean, -/
theorem C110_server (s : State) (h : Reachable step (init current) s) : Reachable ServerModel.step (ServerModel.init current) s.server :=
  server_reachable h

/-- and every state of that is one of a server with its logs. -/
theorem C110_all (t : ServerModel.State) (h : Reachable ServerModel.step (ServerModel.init current) t) :
    ∃ s, Reachable step (init current) s ∧ s.server = t :=
  server_all h

/-! ## Examples -/

def quiet : Note := ⟨true, fun _ => false⟩
def loud : Note := ⟨false, fun _ => true⟩

def after (acts : List (ServerModel.Action × Note)) : State := (run step (init none) acts).getD (init none)

theorem after_reachable {acts : List (ServerModel.Action × Note)} (h : (run step (init none) acts).isSome = true) : Reachable step (init none) (after acts) := by
  obtain ⟨s, hs⟩ := Option.isSome_iff_exists.mp h
  exact ⟨acts, by rw [after, hs]; rfl⟩

/-- The first address cannot be listened on, the second can; `Accept` fails once and goes on; a client comes; another `Close` than the
first one finds the server closed. -/
def whole : List (ServerModel.Action × Note) :=
  [(.call 0 .start, loud), (.thread (.user 0), loud), (.thread (.user 0), loud), (.thread (.user 0), loud), (.config 5, loud),
    (.takeConfig (.user 0), loud), (.listen (.user 0) false, loud), (.config 6, loud), (.takeConfig (.user 0), loud),
    (.listen (.user 0) true, loud), (.thread (.user 0), loud), (.thread (.go 0), loud), (.thread (.go 0), loud),
    (.accept (.go 0) (.err ⟨true, true⟩), loud), (.accept (.go 0) (.conn 9), loud), (.thread (.go 0), loud),
    (.thread (.go 1), loud), (.thread (.go 1), loud), (.thread (.go 1), loud)]

def ended : List (ServerModel.Action × Note) :=
  whole ++
  [(.call 1 .close, loud), (.call 2 .close, loud), (.thread (.user 1), loud), (.thread (.user 2), loud), (.thread (.user 1), loud),
    (.noticeShutdown (.user 0), loud), (.accept (.go 0) (.err ⟨true, false⟩), quiet), (.thread (.go 0), loud),
    (.sessionEnd (.go 1) (some 0), loud), (.thread (.go 1), loud), (.thread (.go 1), loud), (.thread (.user 1), loud)]

example : Reachable step (init none) (after whole) ∧ (after whole).server.op (.user 0) = some .start ∧
    (after whole).log (.user 0) = [.serving 5, .cantListen 5, .serving 6] ∧ (after whole).server.pc (.go 1) = .connRun ∧
    (after whole).log (.go 0) = [.ready, .acceptError ⟨true, true⟩] ∧ (after whole).log (.go 1) = [.newClient 9] ∧
    (after whole).server.op (.user 1) = none :=
  ⟨after_reachable (by decide +kernel), by decide +kernel, by decide +kernel, by decide +kernel, by decide +kernel, by decide +kernel, by decide +kernel⟩

example : Reachable step (init none) (after ended) ∧ (after ended).server.op (.user 1) = some .close ∧ (after ended).server.op (.go 0) = some (.serve 0) ∧
    (after ended).server.op (.go 1) = some (.serveConn 9) ∧ (after ended).server.shutdown = true ∧
    (after ended).log (.user 0) = [.serving 5, .cantListen 5, .serving 6, .startFinished] ∧
    (after ended).log (.user 1) = [.closing, .sessionError (.go 1), .closeExited] ∧ (after ended).log (.user 2) = [] ∧
    (after ended).log (.go 0) = [.ready, .acceptError ⟨true, true⟩, .serveFinished] ∧
    (after ended).heard (.go 0) = [(⟨true, true⟩, false), (⟨true, false⟩, true)] ∧
    (after ended).log (.go 1) = [.newClient 9, .connExited 9] :=
  ⟨after_reachable (by decide +kernel), by decide +kernel, by decide +kernel, by decide +kernel, by decide +kernel, by decide +kernel,
    by decide +kernel, by decide +kernel, by decide +kernel, by decide +kernel, by decide +kernel⟩

/-- C110_failed and C110_old: such steps occur. -/
example : (after (ended.take 23)).server.pc (.user 1) = .closeLock ∧ (step (after (ended.take 23)) (.thread (.user 1), loud)).isSome = true ∧
    (after (ended.take 23)).server.sessions = [.go 1] ∧ (after (whole.take 12)).server.pc (.go 0) = .serveLock 0 ∧
    (step (after (whole.take 12)) (.thread (.go 0), loud)).isSome = true :=
  ⟨by decide +kernel, by decide +kernel, by decide +kernel, by decide +kernel, by decide +kernel⟩

/-- `Serve` after `Close`, and a second listener in the place of one that somebody has closed. -/
example : (after [(.userListen 1, loud), (.call 0 .close, loud), (.thread (.user 0), loud), (.call 1 (.serve 0), loud), (.thread (.user 1), loud)]).log (.user 1) = [.changeError] ∧
    (after [(.userListen 1, loud), (.userListen 2, loud), (.call 0 (.serve 0), loud), (.thread (.user 0), loud), (.thread (.user 0), loud), (.userCloseListener 0, loud),
      (.call 1 (.serve 1), loud), (.thread (.user 1), loud), (.thread (.user 1), loud)]).log (.user 1) = [.closingOld, .oldError, .ready] :=
  ⟨by decide +kernel, by decide +kernel⟩

end Gevulot.ServerLog
