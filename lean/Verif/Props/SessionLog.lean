import Verif.Proofs.SessionLog
import Verif.Props.Logging

/-!
# C108, C109: what a session returns, and what it logs

`s` ranges over every state a session with its log can reach; `parse` is `pg.ParseDatabaseURI`, arbitrary here.
-/

namespace Gevulot.SessionLog

open SessionModel (Peer StartPC)

variable {parse : Bytes → Option ConnectionParams}

/-! ## C108 Start always returns an error -/

/-- C108: when `Start` has returned, it has returned an error; the "successful exit" of session.go:101 does not exist. It is
`ErrSessionClosed`, an error of the handshake, or the one that a goroutine handed over first. -/
theorem C108 (s : State) (h : Reachable (step parse) init s) (hr : s.sess.base.start = .returned) :
    s.ret = some .sessionClosed ∨ s.ret = some .handshake ∨ ∃ e, s.ret = some (.group (some e)) ∧ (handed s).head? = some e := by
  have hg := group_of_reachable h
  have hn := (log_of_reachable h).late (.inr hr)
  cases hx : s.ret with
  | none => exact absurd hx hn
  | some x =>
    cases x with
    | sessionClosed => exact .inl rfl
    | handshake => exact .inr (.inl rfl)
    | group e =>
      obtain ⟨h1, rfl⟩ := hg.ret _ hx
      obtain ⟨e, he⟩ := first_some hg h1
      exact .inr (.inr ⟨e, by rw [he], by rw [← hg.first, he]⟩)

/-- What `g.Wait()` returns is the error that was handed over first. Each goroutine has returned by then, and handed over once what it returned; and
somebody has called `Close`, for `startProcessing` does not end before. -/
theorem C108_wait (s : State) (h : Reachable (step parse) init s) (x : Option Err) (hr : s.ret = some (.group x)) :
    (∃ e, x = some e) ∧ x = (handed s).head? ∧ s.reports.Perm goroutines ∧ (∀ g, returned s.sess.base g ≠ none) ∧ s.sess.base.fired = true := by
  have hg := group_of_reachable h
  obtain ⟨h1, rfl⟩ := hg.ret _ hr
  refine ⟨first_some hg h1, hg.first, ?_, fun g => hg.reports g (h1 g), ?_⟩
  · exact (List.perm_ext_iff_of_nodup hg.nodup (by decide)).mpr fun g => ⟨fun _ => all_goroutines g, fun _ => h1 g⟩
  · have := hg.reports .processing (h1 _)
    simp only [returned] at this
    refine (closed_of_reachable (sess_reachable h)).2.1 ?_
    split at this
    · assumption
    · simp at this

/-- "session: completed" is never logged, and an error is logged only if it is what `Start` returns. -/
theorem C108_log (s : State) (h : Reachable (step parse) init s) :
    .completed ∉ s.startLog ∧ ∀ e, .error e ∈ s.startLog → s.ret = some (.group (some e)) := by
  have hl := log_of_reachable h
  have hg := group_of_reachable h
  by_cases h0 : s.sess.base.start = .notCalled
  · simp [(hl.idle h0).1]
  by_cases hx : s.ret = some .sessionClosed
  · simp [(hl.refused hx).1]
  obtain ⟨w, h1, h2, -⟩ := hl.story h0 hx
  have hw : ∀ l ∈ w, l = .waiting := by rcases h2 with ⟨rfl, -⟩ | ⟨rfl, -⟩ <;> simp
  have ho : ∀ l ∈ opening (ssl s.sess.packets), l = .initializing ∨ l = .waiting ∨ l = .denying := by
    simp only [opening, List.mem_cons, List.mem_flatten, List.mem_replicate]
    rintro l (rfl | ⟨x, ⟨-, rfl⟩, hm⟩)
    · simp
    · simp at hm; exact .inr hm
  have hv : ∀ l ∈ over s.sess.base.start, l = .closed := by
    intro l
    unfold over
    split <;> simp
  rw [h1]
  simp only [List.mem_append]
  refine ⟨?_, ?_⟩
  · rintro (((hm | hm) | hm) | hm)
    · simpa using ho _ hm
    · simpa using hw _ hm
    · unfold ending at hm
      split at hm
      · simp at hm
      · rename_i hn
        obtain ⟨k1, k2⟩ := hg.ret _ hn
        obtain ⟨e, he⟩ := first_some hg k1
        rw [← k2] at he
        simp at he
      · simp at hm
    · simpa using hv _ hm
  · rintro e (((hm | hm) | hm) | hm)
    · simpa using ho _ hm
    · simpa using hw _ hm
    · unfold ending at hm
      split at hm
      · rename_i e' hn
        simp only [List.mem_singleton, Line.error.injEq] at hm
        rw [hm, hn]
      · simp at hm
      · simp at hm
    · simpa using hv _ hm

/-! ## C109 What is in the log -/

/-- C109: the lines of `Start` are, in this order: that it begins; that it waits and that SSL is denied, for each SSL request; that it waits for
another packet, unless the last one was an SSL request that has not been answered; the error from the goroutines, if `Wait` has
returned one; and that it has returned. A `Start` that is refused logs only the first and the last. -/
theorem C109 (s : State) (h : Reachable (step parse) init s) :
    (s.sess.base.start = .notCalled → s.startLog = []) ∧
    (s.ret = some .sessionClosed → s.startLog = [.initializing, .closed]) ∧
    (s.sess.base.start ≠ .notCalled → s.ret ≠ some .sessionClosed →
      ∃ w, s.startLog = opening (ssl s.sess.packets) ++ w ++ ending s.ret ++ over s.sess.base.start ∧
        (w = [.waiting] ∧ (s.sess.base.hsWritten .client).length = ssl s.sess.packets ∨
          w = [] ∧ (s.sess.base.hsWritten .client).length + 1 = ssl s.sess.packets)) := by
  have hl := log_of_reachable h
  refine ⟨fun h0 => (hl.idle h0).1, fun hr => (hl.refused hr).1, fun h0 hr => ?_⟩
  obtain ⟨w, h1, h2, -⟩ := hl.story h0 hr
  exact ⟨w, h1, h2⟩

/-- The lines of `Close` say how far it is; there are none as long as nobody has called it. -/
theorem C109_close (s : State) (h : Reachable (step parse) init s) :
    s.closeLog = closeStory ((s.sess.base.conn .db).closes != 0) s.sess.base.closer ∧
    s.closeLog.count .closing = (if s.sess.base.fired then 1 else 0) := by
  have hc := close_of_reachable h
  refine ⟨hc.log, ?_⟩
  rw [hc.log]
  by_cases hf : s.sess.base.fired = true
  · rw [if_pos hf]
    have := hc.fired.mp hf
    cases hx : s.sess.base.closer <;> cases hd : ((s.sess.base.conn .db).closes != 0) <;> first | exact absurd hx this | decide
  · rw [if_neg hf]
    have : s.sess.base.closer = .none := Classical.byContradiction fun hn => hf (hc.fired.mpr hn)
    rw [this]
    simp [closeStory]

/-- The lines of `startProcessing` are those of C90. -/
theorem C109_relay (s : State) (h : Reachable (step parse) init s) :
    ∃ l, Reachable (LogModel.step parse) LogModel.init ⟨s.sess, l⟩ ∧ s.relayLog = l.map .relayed := relay_of_reachable h

/-- What is printed without `--verbose`: that a session begins, one line for each SSL request, the error and that it has returned; of
`Close` one line; and every message. -/
theorem C109_printed (s : State) (h : Reachable (step parse) init s) :
    (s.sess.base.start ≠ .notCalled → s.ret ≠ some .sessionClosed → s.startLog.filter (printed false) =
      .initializing :: List.replicate (ssl s.sess.packets) .denying ++ ending s.ret ++ over s.sess.base.start) ∧
    s.closeLog.filter (printed false) = (if s.sess.base.fired then [.closing] else []) ∧ s.relayLog.filter (printed false) = s.relayLog := by
  refine ⟨fun h0 hr => ?_, ?_, ?_⟩
  · obtain ⟨w, h1, h2⟩ := (C109 s h).2.2 h0 hr
    rw [h1]
    have e1 : (opening (ssl s.sess.packets)).filter (printed false) = .initializing :: List.replicate (ssl s.sess.packets) .denying := by
      simp only [opening]
      rw [List.filter_cons_of_pos (by decide)]
      congr 1
      induction ssl s.sess.packets with
      | zero => rfl
      | succ n ih =>
        rw [List.replicate_succ, List.flatten_cons, List.filter_append, ih]
        rfl
    have e2 : w.filter (printed false) = [] := by rcases h2 with ⟨rfl, -⟩ | ⟨rfl, -⟩ <;> rfl
    have e3 : (ending s.ret).filter (printed false) = ending s.ret := by unfold ending; split <;> rfl
    have e4 : (over s.sess.base.start).filter (printed false) = over s.sess.base.start := by unfold over; split <;> rfl
    rw [List.filter_append, List.filter_append, List.filter_append, e1, e2, e3, e4, List.append_nil]
  · have hc := close_of_reachable h
    rw [hc.log]
    by_cases hf : s.sess.base.fired = true
    · rw [if_pos hf]
      have := hc.fired.mp hf
      cases hx : s.sess.base.closer <;> cases hd : ((s.sess.base.conn .db).closes != 0) <;> first | exact absurd hx this | rfl
    · rw [if_neg hf]
      have : s.sess.base.closer = .none := Classical.byContradiction fun hn => hf (hc.fired.mpr hn)
      rw [this]
      rfl
  · obtain ⟨l, -, h2⟩ := relay_of_reachable h
    rw [h2, List.filter_eq_self]
    intro x hx
    obtain ⟨y, -, rfl⟩ := List.mem_map.mp hx
    rfl

/-- The session is one of Model/FullSession.lean, -/
theorem C109_session (s : State) (h : Reachable (step parse) init s) : Reachable (FullSession.step parse) FullSession.init s.sess := sess_reachable h

/-- and every state of that is one of a session with its log: C108 and C109 are about all of them. -/
theorem C109_all (t : FullSession.State) (h : Reachable (FullSession.step parse) FullSession.init t) : ∃ s, Reachable (step parse) init s ∧ s.sess = t := sess_all h

/-- With `--verbose` every line is printed. -/
theorem C109_verbose (l : Line) : printed true l = true := rfl

/-! ## Examples -/

def after (acts : List Action) : State := (run (step FullSession.exampleParse) init acts).getD init

theorem after_reachable (acts : List Action) (h : (run (step FullSession.exampleParse) init acts).isSome) :
    Reachable (step FullSession.exampleParse) init (after acts) := by
  obtain ⟨s, hs⟩ := Option.isSome_iff_exists.mp h
  exact ⟨acts, by rw [after, hs]; rfl⟩

/-- A client that asks for SSL, sends a query and hangs up; later somebody calls `Close`. -/
def whole : List Action :=
  FullSession.opened.map .sess ++
  [.sess (.base (.peerSends .client SessionModel.queryBytes)), .sess (.base (.inRecv .client)), .sess (.base (.inSend .client)),
    .sess (.base (.procRecv .client)), .sess (.base .procSend), .sess (.base (.outRecv .db)), .sess (.base (.outWrite .db none)),
    .sess (.base (.peerEnds .client .eof)), .sess (.base (.inRecv .client)), .sess (.base .callClose)] ++
  List.replicate 6 (.sess (.base .closeStep)) ++
  [.sess (.base (.inRecv .db)), .sess (.base (.outRecv .client)), .sess (.base (.outRecv .db)), .sess (.base (.procRecv .db)),
    .report .processing, .report (.outPump .db), .report (.inPump .db), .report (.inPump .client), .report (.outPump .client),
    .sess (.base .join), .sess (.base .startFinish)]

/-- The client's EOF came first, but the other in pump was the first to hand over its error: it is this that `Start` returns. -/
example : Reachable (step FullSession.exampleParse) init (after whole) ∧ (after whole).sess.base.start = .returned ∧
    (after whole).ret = some (.group (some (.io 0))) ∧ handed (after whole) = [.io 0, .eof] ∧
    (after whole).startLog = [.initializing, .waiting, .denying, .waiting, .error (.io 0), .closed] ∧
    (after whole).closeLog = [.closing, .clientClosed, .dbClosed, .channelsClosed] ∧ (after whole).relayLog.length = 1 ∧
    (after whole).startLog.filter (printed false) = [.initializing, .denying, .error (.io 0), .closed] :=
  ⟨after_reachable _ (by decide +kernel), by decide +kernel, by decide +kernel, by decide +kernel, by decide +kernel, by decide +kernel,
    by decide +kernel, by decide +kernel⟩

/-- `Start` after `Close`. -/
example : Reachable (step FullSession.exampleParse) init (after [.sess (.base .callClose), .sess (.base .callStart)]) ∧
    (after [.sess (.base .callClose), .sess (.base .callStart)]).ret = some .sessionClosed ∧
    (after [.sess (.base .callClose), .sess (.base .callStart)]).startLog = [.initializing, .closed] :=
  ⟨after_reachable _ (by decide +kernel), by decide +kernel, by decide +kernel⟩

/-- A client that hangs up before its startup packet. -/
def early : List Action :=
  [.sess (.base (.peerEnds .client .eof)), .sess (.base .callStart), .sess .recvStartup, .sess (.base .startFinish)] ++
  List.replicate 6 (.sess (.base .closeStep)) ++ [.sess (.base .startFinish)]

example : Reachable (step FullSession.exampleParse) init (after early) ∧ (after early).sess.base.start = .returned ∧
    (after early).ret = some .handshake ∧ (after early).startLog = [.initializing, .waiting, .closed] ∧
    (after early).closeLog = [.closing, .clientClosed, .channelsClosed] :=
  ⟨after_reachable _ (by decide +kernel), by decide +kernel, by decide +kernel, by decide +kernel, by decide +kernel⟩

end Gevulot.SessionLog
