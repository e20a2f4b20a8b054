import Verif.Spec.Races
import Verif.Proofs.FileWatcher
import Verif.Props.FullSession
import Verif.Props.FileWatcher
import Verif.Props.Process

/-!
# C88, C89: data races

Two goroutines race for a variable if both are about to access it, one of them to write it (Spec/Races.lean).
-/

namespace Gevulot

/-! ## C88 There is no data race for the connection to the database of a session -/

namespace FullSession

open SessionModel (Peer)

variable {parse : Bytes → Option ConnectionParams}

/-- C88: no two goroutines of a session race for `s.dbConn`, whenever `Close` is called. (False.) -/
def C88_claim : Prop :=
  ∀ (parse : Bytes → Option ConnectionParams) (s : State), Reachable (step parse) init s → s.base.crashed = false → ¬ Race (usesDBConn s)

/-- `Close` is called by another goroutine after the handshake has dialled the database, and has closed the connection to the client. -/
def colliding : List Action := opening ++ [.dial true, .base .callClose, .base .closeStep]

/-- C88 is false: `Close` reads `s.dbConn`, session.go:132, when `handleStartup` writes it, session.go:218. -/
theorem C88_refuted : ¬ C88_claim := by
  intro hc
  refine hc exampleParse (after colliding) (after_reachable _ (by decide +kernel)) (by decide +kernel) ⟨.start, .closer, by decide, by decide +kernel⟩

/-- C88_partial: that is the only race: somebody else than the session itself has called `Close`, and is about to look at `s.dbConn`
when the database has been dialled but `s.dbConn` has not been set. In particular the pumps never take part in a race. -/
theorem C88_partial (s : State) (h : Reachable (step parse) init s) :
    Race (usesDBConn s) ↔ (∃ m, s.hs = .assign m) ∧ s.base.closer = .closeDB := by
  have hi := hinv_of_reachable h
  have hst := hi.stage
  constructor
  · rintro ⟨a, b, hab, hc⟩
    have key : ∃ m, s.hs = .assign m := by
      refine Classical.byContradiction fun hn => ?_
      have hw : ∀ g, usesDBConn s g ≠ some .write := by
        intro g
        unfold usesDBConn
        repeat' split
        all_goals first | (simp; done) | exact absurd ⟨_, ‹s.hs = _›⟩ hn
      have := hw a
      have := hw b
      revert hc
      cases h1 : usesDBConn s a with
      | none => simp [Access.conflict]
      | some x =>
        cases h2 : usesDBConn s b with
        | none => cases x <;> simp [Access.conflict]
        | some y => cases x <;> cases y <;> simp_all [Access.conflict]
    obtain ⟨m, hm⟩ := key
    refine ⟨⟨m, hm⟩, ?_⟩
    rw [Stage, hm] at hst
    have hp := hi.early.pumps .db (hi.early.notSpawned (.inr (by rw [hst.1]; rfl)))
    refine Classical.byContradiction fun hn => ?_
    have hr : ∀ g, g ≠ .start → usesDBConn s g = none := by
      intro g hg
      cases g with
      | start => exact absurd rfl hg
      | closer => simp [usesDBConn, hn]
      | inPump p => cases p <;> simp [usesDBConn, hp]
      | outPump p => cases p <;> simp [usesDBConn, hp]
      | processing => rfl
    by_cases ha : a = .start
    · rw [hr b (fun hb => hab (ha.trans hb.symm))] at hc
      revert hc; cases usesDBConn s a with
      | none => simp [Access.conflict]
      | some x => cases x <;> simp [Access.conflict]
    · rw [hr a ha] at hc; simp [Access.conflict] at hc
  · rintro ⟨⟨m, hm⟩, hcl⟩
    rw [Stage, hm] at hst
    exact ⟨.start, .closer, by decide, by simp [usesDBConn, hm, hcl, hst.1, Access.conflict]⟩

theorem noRace_of_own {s : State} (h : Reachable (step parse) init s) (ho : SessionModel.Own s.base) : ¬ Race (usesDBConn s) := by
  rw [C88_partial s h]
  rintro ⟨⟨m, hm⟩, hcl⟩
  have hst := (hinv_of_reachable h).stage
  rw [Stage, hm] at hst
  have hf := (SessionModel.inv_of_reachable (base_reachable h)).close.fired
  have := ho (hf.mpr (by rw [hcl]; decide))
  rw [hst.1] at this
  simp [SessionModel.StartPC.inHandshake] at this

/-- So there is none if nobody but the session itself calls `Close`; -/
theorem C88_partial_own (s : State) (acts : List Action) (hr : run (step parse) init acts = some s) (hn : .base .callClose ∉ acts) :
    ¬ Race (usesDBConn s) := by
  refine noRace_of_own ⟨acts, hr⟩ ?_
  refine (run_invariant_of (fun a => a ≠ .base .callClose) (fun s => SessionModel.Inv s.base ∧ SessionModel.Own s.base)
    ⟨SessionModel.inv_init, by intro h; simp [init, SessionModel.init] at h⟩ ?_ (fun a ha hx => hn (by rw [← hx]; exact ha)) hr).2
  intro s a s' ha hi hs
  refine step_invariant (· ≠ .callClose) (fun y => SessionModel.Inv y ∧ SessionModel.Own y) hi
    (fun y hy => hy.elim (by intro h; cases y <;> simp [isHandshake] at h ⊢) (by rintro h rfl; exact ha h))
    (fun y a y' ha hi hs => ⟨SessionModel.inv_step hi.1 hs, SessionModel.own_step ha hi.1 hi.2 hs⟩) hs

/-- C88_partial_own: a session that has got through its handshake. -/
example : run (step exampleParse) init opened = some (after opened) ∧ .base .callClose ∉ opened ∧
    usesDBConn (after opened) (.inPump .db) = some .read :=
  ⟨after_append [] opened (by decide) (by decide +kernel), by decide +kernel, by decide +kernel⟩

end FullSession

/-- in the whole server there is none before `Close` of the server has begun; -/
theorem System.C88_partial_server (parse : Bytes → Option ConnectionParams) (c : Option Nat) (s : System.State)
    (h : Reachable (System.step parse) (System.init c) s) (hs : s.server.shutdown = false) (t : ServerModel.Tid) :
    ¬ Race (FullSession.usesDBConn (s.sess t)) :=
  FullSession.noRace_of_own (System.session_reachable h t) (System.own_of_reachable h (.inl hs) t)

/-- and in gevulot itself there never is one. -/
theorem Process.C88_partial_program (parse : Bytes → Option ConnectionParams) (bytes : Nat → Bytes) (path : Option Nat)
    (text : Nat → CliModel.Text) (s : Process.State) (h : Reachable (Process.step parse bytes) (Process.init path text) s)
    (t : ServerModel.Tid) : ¬ Race (FullSession.usesDBConn (s.sys.sess t)) :=
  System.C88_partial_server parse none s.sys (parts_reachable h).2.2 (Process.C73 s h).2.2.2.2.1 t

/-- The session of a client of gevulot is about to write `s.dbConn`. -/
example : let s := Process.after (Process.started ++ Process.asking ++ Process.dialled)
    Reachable (Process.step Process.exampleParse Process.exampleBytes) (Process.init (some 0) CliModel.oldText) s ∧
    s.sys.server.shutdown = false ∧ FullSession.usesDBConn (s.sys.sess (.go 1)) .start = some .write :=
  ⟨Process.after_reachable _ (by decide +kernel), by decide +kernel, by decide +kernel⟩

/-! ## C89 There are no data races in a file watcher -/

namespace FileWatcherModel

open CliModel (Callback)

variable {isSet : Callback → Bool}

/-- C89: if `Watch` is called once, and `StopWatch` not before it has returned, then there is no race for `watcherError`, nor for
`w.watchDone`. (False.) -/
def C89_claim : Prop :=
  ∀ (isSet : Callback → Bool) (s : State) (stops : Nat → Bool), Reachable (step isSet) init s → (∀ k, k ≠ 0 → s.call k = noCall) →
    (∀ n e, stops n = true → (s.call 0).caller = .returned e) → ¬ Race (s.call 0).usesError ∧ ¬ Race (usesDone stops s)

/-- Only the first call of `Watch` has been made. -/
theorem only_first (acts : List Action) (h : (run (step fun _ => true) init acts).isSome) (h1 : (acts.flatMap calls).all (· = 0) = true) :
    ∀ k, k ≠ 0 → (after acts).call k = noCall := by
  intro k hk
  obtain ⟨s, hs⟩ := Option.isSome_iff_exists.mp h
  have : after acts = s := by rw [after, hs]; rfl
  rw [this, not_called hs (fun hx => hk (by simpa using List.all_eq_true.mp h1 k hx))]

/-- `watcher.Add` is running, and the handler waits for events and errors. -/
def adding : List Action := [.watch, .created none, .starter, .starter, .enter].map (.at 0)

/-- The directory has been added, and `Watch` is about to return. -/
def returning : List Action := adding ++ [.added none, .starter].map (.at 0)

/-- `Watch` is about to make the channel. -/
def making : List Action := [.watch, .created none].map (.at 0)

/-- `Watch` has been called again while the handler of the first call is about to enter the `select`. -/
def again : List Action := [.watch, .created none, .starter, .starter].map (.at 0) ++ [.watch, .created none].map (.at 1)

/-- C89 is false: the handler is already there when `watcher.Add` returns, and may be told an error by the watcher: it writes
`watcherError`, file_watcher.go:101, when the starter does, file_watcher.go:113; -/
theorem C89_refuted : ¬ C89_claim := by
  intro hc
  refine (hc (fun _ => true) (after adding) (fun _ => false) (after_reachable _ (by decide +kernel)) (only_first _ (by decide +kernel) (by decide +kernel))
    (by simp)).1 ⟨.starter, .handler, by decide, by decide +kernel⟩

/-- and there is a race as well with the goroutine that has called `Watch` and reads `watcherError`, file_watcher.go:132. -/
theorem C89_refuted_return : ¬ C89_claim := by
  intro hc
  refine (hc (fun _ => true) (after returning) (fun _ => false) (after_reachable _ (by decide +kernel)) (only_first _ (by decide +kernel) (by decide +kernel))
    (by simp)).1 ⟨.caller, .handler, by decide, by decide +kernel⟩

/-- C89_partial: these are the only races for `watcherError`: an error of the watcher arrives while the directory is being added,
or when `Watch` is about to return. -/
theorem C89_partial (s : State) (h : Reachable (step isSet) init s) (k : Nat) :
    Race (s.call k).usesError ↔ (∃ d, (s.call k).handler = .select d) ∧ (s.call k).watcher = .opened ∧
      ((s.call k).starter = .add ∨ (s.call k).caller = .waiting ∧ (s.call k).ready = true) := by
  have hi := (inv_of_reachable h).call k
  have h1 := hi.idle
  have h2 := hi.opened
  have h3 := hi.handler
  have h4 := hi.ready
  have h5 := hi.over
  generalize s.call k = c at *
  constructor
  · rintro ⟨a, b, hab, hc⟩
    cases a <;> cases b <;> simp only [Call.usesError] at hc <;> (repeat' split at hc) <;> simp_all [Access.conflict, StarterPC.made]
  · rintro ⟨⟨d, hd⟩, hw, ha | ⟨hc, hr⟩⟩
    · exact ⟨.starter, .handler, by decide, by simp [Call.usesError, hd, hw, ha, Access.conflict]⟩
    · exact ⟨.caller, .handler, by decide, by simp [Call.usesError, hd, hw, hc, hr, Access.conflict]⟩

/-- There is a race for `w.watchDone` only if `Watch` is called again, or `StopWatch` is called when a call of `Watch` has not
made the channel yet. -/
theorem C89_partial_done (s : State) (stops : Nat → Bool) :
    Race (usesDone stops s) ↔ ∃ k, (s.call k).starter = .makeChan ∧
      ((∃ n, stops n = true) ∨ (s.call k).handler = .enter ∨ ∃ j, j ≠ k ∧ ((s.call j).starter = .makeChan ∨ (s.call j).handler = .enter)) := by
  constructor
  · rintro ⟨a, b, hab, hc⟩
    have key : ∀ a b, a ≠ b → usesDone stops s a = some .write → usesDone stops s b ≠ none →
        ∃ k, (s.call k).starter = .makeChan ∧
          ((∃ n, stops n = true) ∨ (s.call k).handler = .enter ∨ ∃ j, j ≠ k ∧ ((s.call j).starter = .makeChan ∨ (s.call j).handler = .enter)) := by
      intro a b hab ha hb
      cases a with
      | handler k => simp [usesDone] at ha
      | stop n => simp [usesDone] at ha
      | starter k =>
        refine ⟨k, by simpa [usesDone] using ha, ?_⟩
        cases b with
        | stop n => exact .inl ⟨n, by simpa [usesDone] using hb⟩
        | starter j => exact .inr (.inr ⟨j, fun hj => hab (by rw [hj]), .inl (by simpa [usesDone] using hb)⟩)
        | handler j =>
          have hj : (s.call j).handler = .enter := by simpa [usesDone] using hb
          by_cases hjk : j = k
          · exact .inr (.inl (hjk ▸ hj))
          · exact .inr (.inr ⟨j, hjk, .inr hj⟩)
    cases h1 : usesDone stops s a with
    | none => simp [h1, Access.conflict] at hc
    | some x =>
      cases h2 : usesDone stops s b with
      | none => cases x <;> simp [h1, h2, Access.conflict] at hc
      | some y =>
        cases x with
        | write => exact key a b hab h1 (by simp [h2])
        | read =>
          cases y with
          | write => exact key b a (Ne.symm hab) h2 (by simp [h1])
          | read => simp [h1, h2, Access.conflict] at hc
  · rintro ⟨k, hk, ⟨n, hn⟩ | hh | ⟨j, hj, hs | hh⟩⟩
    · exact ⟨.starter k, .stop n, by simp, by simp [usesDone, hk, hn, Access.conflict]⟩
    · exact ⟨.starter k, .handler k, by simp, by simp [usesDone, hk, hh, Access.conflict]⟩
    · exact ⟨.starter k, .starter j, by simpa using Ne.symm hj, by simp [usesDone, hk, hs, Access.conflict]⟩
    · exact ⟨.starter k, .handler j, by simp, by simp [usesDone, hk, hh, Access.conflict]⟩

/-- So there is none in the program, in which `Watch` is called once, and `StopWatch` not before it has returned. -/
theorem C89_partial_once (s : State) (h : Reachable (step isSet) init s) (stops : Nat → Bool) (h1 : ∀ k, k ≠ 0 → s.call k = noCall)
    (h2 : ∀ n, stops n = true → ∃ e, (s.call 0).caller = .returned e) : ¬ Race (usesDone stops s) := by
  rw [C89_partial_done]
  rintro ⟨k, hk, hr⟩
  have hk0 : k = 0 := Decidable.byContradiction fun hn => by rw [h1 k hn] at hk; simp [noCall] at hk
  subst hk0
  have hi := (inv_of_reachable h).call 0
  rcases hr with ⟨n, hn⟩ | hh | ⟨j, hj, hs⟩
  · obtain ⟨e, he⟩ := h2 n hn
    have := hi.ready.mp (hi.returned e he)
    rw [hk] at this
    simp at this
  · have := hi.handler.mpr (.inr (.inl hk))
    rw [hh] at this
    simp at this
  · rw [h1 j hj] at hs
    simp [noCall] at hs

/-- A second call of `Watch` races with the handler of the first for `w.watchDone`; and so does `StopWatch` when `Watch` has not
returned. -/
theorem C89_cause : (∃ s, Reachable (step fun _ => true) init s ∧ Race (usesDone (fun _ => false) s)) ∧
    ∃ s, Reachable (step fun _ => true) init s ∧ (∀ k, k ≠ 0 → s.call k = noCall) ∧ Race (usesDone (· == 0) s) :=
  ⟨⟨after again, after_reachable _ (by decide +kernel), .starter 1, .handler 0, by decide, by decide +kernel⟩,
    ⟨after making, after_reachable _ (by decide +kernel), only_first _ (by decide +kernel) (by decide +kernel), .starter 0, .stop 0, by decide,
      by decide +kernel⟩⟩

/-! ## Examples -/

/-- C89_partial_once: `Watch` has returned, and somebody calls `StopWatch`. -/
example : Reachable (step fun _ => true) init (after (watching 0 none)) ∧ (∀ k, k ≠ 0 → (after (watching 0 none)).call k = noCall) ∧
    ((after (watching 0 none)).call 0).caller = .returned none ∧ ¬ Race (usesDone (fun _ => true) (after (watching 0 none))) :=
  ⟨after_reachable _ (by decide +kernel), only_first _ (by decide +kernel) (by decide +kernel), by decide +kernel,
    C89_partial_once _ (after_reachable _ (by decide +kernel)) _ (only_first _ (by decide +kernel) (by decide +kernel)) fun _ _ => ⟨none, by decide +kernel⟩⟩

/-- C89_partial: when `Watch` has returned there is no race for `watcherError` any more. -/
example : ¬ Race ((after (watching 0 none)).call 0).usesError := by
  rw [C89_partial _ (after_reachable _ (by decide +kernel))]
  have h1 : ((after (watching 0 none)).call 0).starter = .wait := by decide +kernel
  have h2 : ((after (watching 0 none)).call 0).caller = .returned none := by decide +kernel
  simp [h1, h2]

end FileWatcherModel

end Gevulot
