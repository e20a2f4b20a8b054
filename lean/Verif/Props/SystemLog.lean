import Verif.Proofs.SystemLog
import Verif.Props.System

/-!
# C111: ServeConn always returns an error
-/

namespace Gevulot.SystemLog

open ServerModel (Tid)
open SessionLog (opening ending ssl)

variable {parse : Bytes → Option ConnectionParams} {current : Option ServerModel.Addr}

/-- C111: `ServeConn` never returns nil: it returns `ErrServerClosed`, or an error that `Start` of its session has returned. -/
theorem C111 (s : State) (h : Reachable (step parse) (init current) s) (t : Tid) (conn : Nat) (r : ServerModel.Ret)
    (ht : s.sys.server.op t = some (.serveConn conn)) (hr : s.sys.server.pc t = .returned r) :
    r = .errClosed ∨ ∃ e, r = .session (some e) := by
  have hi := inv_of_reachable h
  have hf := (ServerLog.inv_of_reachable hi.srv).fit t
  rw [hi.server, hr, ht] at hf
  cases r with
  | session e =>
    cases e with
    | none => exact absurd rfl (hi.result t none (.inr hr))
    | some e => exact .inr ⟨e, rfl⟩
  | errClosed => exact .inl rfl
  | _ => simp [ServerModel.PC.fits, ServerModel.Ret.fits] at hf

/-- If it has come from the session, `Start` of that has returned, and has returned `ErrSessionClosed`, an error of the handshake or
the first error of the group. -/
theorem C111_session (s : State) (h : Reachable (step parse) (init current) s) (t : Tid) (e : Option Nat)
    (hr : s.sys.server.pc t = .returned (.session e)) :
    (s.sys.sess t).base.start = .returned ∧
    ((s.info t).ret = some .sessionClosed ∨ (s.info t).ret = some .handshake ∨ ∃ x, (s.info t).ret = some (.group (some x))) := by
  have hi := inv_of_reachable h
  have h1 := (System.link_of_reachable hi.sys).ended t (by rw [hr]; rfl)
  refine ⟨h1, ?_⟩
  rcases SessionLog.C108 (s.info t) (hi.info t) (by rw [hi.sess]; exact h1) with h | h | ⟨x, h, -⟩
  · exact .inl h
  · exact .inr (.inl h)
  · exact .inr (.inr ⟨x, h⟩)

/-- What has then been logged about the connection: by the server, that it has come and gone; by `Start`, its beginning and its end,
and an error in between only if it is that of the group. -/
theorem C111_log (s : State) (h : Reachable (step parse) (init current) s) (t : Tid) (conn : Nat) (e : Option Nat)
    (ht : s.sys.server.op t = some (.serveConn conn)) (hr : s.sys.server.pc t = .returned (.session e)) :
    s.srv.log t = [.newClient conn, .connExited conn] ∧
    ((s.info t).startLog = [.initializing, .closed] ∨
      ∃ w, (w = [] ∨ w = [.waiting]) ∧ (s.info t).startLog = opening (ssl (s.sys.sess t).packets) ++ w ++ ending (s.info t).ret ++ [.closed]) ∧
    ∀ x, .error x ∈ (s.info t).startLog → (s.info t).ret = some (.group (some x)) := by
  have hi := inv_of_reachable h
  have h1 := (C111_session s h t e hr).1
  refine ⟨?_, ?_, fun x => (SessionLog.C108_log (s.info t) (hi.info t)).2 x⟩
  · have := ServerLog.C110_conn s.srv hi.srv t conn (by rw [hi.server]; exact ht)
    rw [hi.server, hr] at this
    exact this
  · obtain ⟨-, h2, h3⟩ := SessionLog.C109 (s.info t) (hi.info t)
    rw [hi.sess] at h3
    by_cases hx : (s.info t).ret = some .sessionClosed
    · exact .inl (h2 hx)
    · obtain ⟨w, h4, h5⟩ := h3 (by rw [h1]; simp) hx
      rw [h1] at h4
      refine .inr ⟨w, ?_, h4⟩
      rcases h5 with ⟨h5, -⟩ | ⟨h5, -⟩
      · exact .inr h5
      · exact .inl h5

/-- So why a handshake has failed is not logged: `ServeConn` returns the error to a goroutine that drops it (server.go:169). -/
theorem C111_silent (s : State) (h : Reachable (step parse) (init current) s) (t : Tid) (hr : (s.info t).ret = some .handshake) :
    ∀ x, .error x ∉ (s.info t).startLog := by
  intro x hx
  have := (SessionLog.C108_log (s.info t) ((inv_of_reachable h).info t)).2 x hx
  rw [hr] at this
  simp at this

/-- The parts fit together: each is a state of the model it is taken from, and they agree. -/
theorem C111_one (s : State) (h : Reachable (step parse) (init current) s) :
    Reachable (System.step parse) (System.init current) s.sys ∧ Reachable ServerLog.step (ServerLog.init current) s.srv ∧
    (∀ t, Reachable (SessionLog.step parse) SessionLog.init (s.info t)) ∧ s.srv.server = s.sys.server ∧ ∀ t, (s.info t).sess = s.sys.sess t :=
  have hi := inv_of_reachable h
  ⟨hi.sys, hi.srv, hi.info, hi.server, hi.sess⟩

/-- Every execution of the process of Model/System.lean is one of this, unless a `ServeConn` in it returns nil. -/
theorem C111_all (acts : List System.Action) (y : System.State) (hy : run (System.step parse) (System.init current) acts = some y)
    (hn : ∀ t, .server (.sessionEnd t none) ∉ acts) : ∃ s, Reachable (step parse) (init current) s ∧ s.sys = y :=
  sim_run (s := init current) (Reachable.refl _) acts hn hy

/-! ## Examples -/

def loud : ServerLog.Note := ⟨false, fun _ => true⟩

def after (acts : List Action) : State := (run (step FullSession.exampleParse) (init none) acts).getD (init none)

theorem after_reachable (acts : List Action) (h : (run (step FullSession.exampleParse) (init none) acts).isSome) :
    Reachable (step FullSession.exampleParse) (init none) (after acts) := by
  obtain ⟨s, hs⟩ := Option.isSome_iff_exists.mp h
  exact ⟨acts, by rw [after, hs]; rfl⟩

/-- A client connects and hangs up before it has sent anything. -/
def hangup : List System.Action :=
  System.accepted ++ [.server (.thread (.go 0))] ++
  ([.base (.peerEnds .client .eof), .base .callStart, .recvStartup, .base .startFinish] : List FullSession.Action).map (.session (.go 0)) ++
  List.replicate 6 (.session (.go 0) (.base .closeStep)) ++
  [.session (.go 0) (.base .startFinish), .server (.sessionEnd (.go 0) (some 7)), .server (.thread (.go 0))]

/-- The reason is nowhere in the log. -/
example : Reachable (step FullSession.exampleParse) (init none) (after (hangup.map (.sys · loud))) ∧
    (after (hangup.map (.sys · loud))).sys.server.op (.go 0) = some (.serveConn 5) ∧
    (after (hangup.map (.sys · loud))).sys.server.pc (.go 0) = .returned (.session (some 7)) ∧
    (after (hangup.map (.sys · loud))).srv.log (.go 0) = [.newClient 5, .connExited 5] ∧
    ((after (hangup.map (.sys · loud))).info (.go 0)).startLog = [.initializing, .waiting, .closed] ∧
    ((after (hangup.map (.sys · loud))).info (.go 0)).ret = some .handshake :=
  ⟨after_reachable _ (by decide +kernel), by decide +kernel, by decide +kernel, by decide +kernel, by decide +kernel, by decide +kernel⟩

/-- That `ServeConn` returns nil is not possible. -/
example : (run (System.step FullSession.exampleParse) (System.init none) (hangup.dropLast.dropLast ++ [.server (.sessionEnd (.go 0) none)])).isSome = true ∧
    (run (step FullSession.exampleParse) (init none) ((hangup.dropLast.dropLast ++ [System.Action.server (.sessionEnd (.go 0) none)]).map (.sys · loud))).isSome = false :=
  ⟨by decide +kernel, by decide +kernel⟩

/-- C111_all: the execution above is such a one. -/
example : (run (System.step FullSession.exampleParse) (System.init none) hangup).isSome = true ∧ ∀ t, System.Action.server (.sessionEnd t none) ∉ hangup := by
  refine ⟨by decide +kernel, fun t h => ?_⟩
  simp [hangup, System.accepted, List.replicate] at h

end Gevulot.SystemLog
