import Verif.Props.System

/-!
# C70: what has been done when `Close` of the server returns
-/

namespace Gevulot.System

open ServerModel (Tid PC)

variable {parse : Bytes → Option ConnectionParams} {c : Option ServerModel.Addr}

/-- The call of `Session.Close` that closes has returned, or is made by `Start`. -/
def Ends (x : SessionModel.State) : Prop := x.closer = .done ∨ x.start = .closing

theorem ends_step {x x' : SessionModel.State} {a : SessionModel.Action} (ha : a ≠ .callClose) (h : x.fired = true → Ends x)
    (hs : SessionModel.step x a = some x') : x'.fired = true → Ends x' := by
  unfold Ends at *
  session_cases hs <;> grind

/-- Calling `Close` of a closed session does nothing. -/
theorem close_again {x y : FullSession.State} (hf : x.base.fired = true) (h : FullSession.step parse x (.base .callClose) = some y) : y.base = x.base := by
  simp only [FullSession.step, FullSession.isHandshake, Bool.false_eq_true, if_false] at h
  obtain ⟨z, hz, rfl⟩ := Option.map_eq_some_iff.mp h
  simp only [SessionModel.step, hf, if_true] at hz
  split at hz
  · simp at hz
  · simp only [Option.some.injEq] at hz; exact hz.symm

/-- Nobody but `Server.Close` and `Start` closes sessions. -/
theorem ends_of_reachable {s : State} (h : Reachable (step parse) (init c) s) (t : Tid) :
    (s.sess t).base.fired = true → s.closing = some t ∨ Ends (s.sess t).base := by
  refine (h.invariant (fun s => ∀ t, (s.sess t).base.fired = true → s.closing = some t ∨ Ends (s.sess t).base) ?_ ?_) t
  · intro t hf; simp [init, FullSession.init, SessionModel.init] at hf
  · intro s a s' hi hs u
    obtain ⟨hc, ⟨b, srv, rfl, hal, hb, rfl⟩ | ⟨t, y, rfl, hx, hret, hb, rfl⟩ | ⟨t, b, y, rfl, hmay, hb, rfl⟩⟩ := step_cases hs
    · exact hi u
    · simp only
      have key : ∀ v, (s.sess v).base.fired = true → Ends (s.sess v).base := by
        intro v hv
        rcases hi v hv with h1 | h1
        · unfold State.closeReturned at hret
          rw [h1] at hret
          exact .inl (by simpa using hret)
        · exact h1
      by_cases hu : u = t
      · subst hu
        intro hf
        simp only [upd_same] at hf ⊢
        by_cases h0 : (s.sess u).base.fired = true
        · right
          rw [close_again h0 hb]
          exact key u h0
        · left; simp [h0]
      · intro hf
        simp only [upd_other _ _ hu] at hf ⊢
        exact .inr (key u hf)
    · by_cases hu : u = t
      · subst hu
        intro hf
        simp only [upd_same] at hf ⊢
        by_cases hcl : s.closing = some u
        · exact .inl hcl
        · right
          refine FullSession.step_invariant (· ≠ .callClose) (fun z => z.fired = true → Ends z) (fun h0 => (hi u h0).resolve_left hcl)
            (fun z hz => ?_) (fun z w z' hw hz hs => ends_step hw hz hs) hb hf
          rcases hz with hz | hz
          · rintro rfl; simp [FullSession.isHandshake] at hz
          · rintro rfl; subst hz; simp [State.sessionMay] at hmay
      · intro hf
        simp only [upd_other _ _ hu] at hf ⊢
        exact hi u hf

theorem wait_frame {s s' : ServerModel.State} {b : ServerModel.Action} {t : Tid} {r : ServerModel.Ret} (hi : ServerModel.Inv s) (ht : s.pc t = .closeWait r)
    (hs : ServerModel.step s b = some s') : b = .thread t ∨ s'.pc t = .closeWait r := by
  have hx := hi.go.fresh s.spawned
  simp only [Nat.le_refl, iff_true] at hx
  clear hi
  server_cases hs <;> grind [upd_apply]

/-- C70, when `Close` returns: each session that was registered when `Close` got the lock has been closed, and its client
disconnected, or its `Start` is doing so at this moment. This is so in every execution, also where C70 fails. -/
theorem C70_closed (s s1 s2 : State) (h : Reachable (step parse) (init c) s) (t : Tid) (ht : s.server.pc t = .closeLock)
    (hs : step parse s (.server (.thread t)) = some s1) (acts : List Action) (hr : run (step parse) s1 acts = some s2)
    (r : ServerModel.Ret) (hret : s2.server.pc t = .returned r) (u : Tid) (hu : u ∈ s.server.sessions) :
    (s2.sess u).base.fired = true ∧
    (((s2.sess u).base.closer = .done ∧ ((s2.sess u).base.conn .client).isOpen = false) ∨ (s2.sess u).base.start = .closing) := by
  have hR : Reachable (step parse) (init c) s2 := (h.next hs).trans ⟨acts, hr⟩
  have key : ((∃ r, s2.server.pc t = .closeWait r) ∧ (u ∈ s2.toClose ∨ (s2.sess u).base.fired = true)) ∨
      ((s2.sess u).base.fired = true ∧ Ends (s2.sess u).base) := by
    refine (run_invariant (fun x => Reachable (step parse) (init c) x ∧
      (((∃ r, x.server.pc t = .closeWait r) ∧ (u ∈ x.toClose ∨ (x.sess u).base.fired = true)) ∨
      ((x.sess u).base.fired = true ∧ Ends (x.sess u).base))) ⟨h.next hs, ?_⟩ ?_ hr).2
    · left
      obtain ⟨hc, ⟨b, srv, e, hal, hb, rfl⟩ | ⟨_, _, e, _⟩ | ⟨_, _, _, e, _⟩⟩ := step_cases hs
      · simp only [Action.server.injEq] at e
        subst e
        refine ⟨?_, .inl (by simp only [nextToClose, ht, if_true]; exact hu)⟩
        simp only
        server_cases hb <;> simp_all
      · simp at e
      · simp at e
    · rintro x a x' ⟨hx, hk⟩ hs
      refine ⟨hx.next hs, ?_⟩
      have hends := ends_of_reachable hx u
      rcases hk with ⟨⟨r, hw⟩, hk⟩ | ⟨hf, he⟩
      · have hi := ServerModel.inv_of_reachable (server_reachable hx)
        obtain ⟨hc, ⟨b, srv, rfl, hal, hb, rfl⟩ | ⟨v, y, rfl, hv, hret, hb, rfl⟩ | ⟨v, b, y, rfl, hmay, hb, rfl⟩⟩ := step_cases hs
        · simp only
          have free : x.locked = false → (x.sess u).base.fired = true ∧ Ends (x.sess u).base := by
            intro hl
            simp only [State.locked, Bool.not_eq_false', Bool.and_eq_true, List.isEmpty_iff] at hl
            rw [hl.1] at hk
            have hf := hk.resolve_left (by simp)
            refine ⟨hf, ?_⟩
            rcases hends hf with h1 | h1
            · have := hl.2
              unfold State.closeReturned at this
              rw [h1] at this
              exact .inl (by simpa using this)
            · exact h1
          rcases wait_frame hi hw hb with rfl | hw'
          · right
            refine free ?_
            simpa [State.allows, hw, afterLock] using hal
          · left
            refine ⟨⟨r, hw'⟩, ?_⟩
            unfold nextToClose
            split
            · split
              · rename_i hcl
                refine .inr (free ?_).1
                simpa [State.allows, hcl, afterLock] using hal
              · exact hk
            · exact hk
        · left
          refine ⟨⟨r, hw⟩, ?_⟩
          simp only
          by_cases huv : u = v
          · subst huv
            right
            simp only [upd_same]
            exact (callClose_frame hb).2.1
          · simp only [upd_other _ _ huv]
            rcases hk with hk | hk
            · exact .inl (List.mem_filter.mpr ⟨hk, by simpa using huv⟩)
            · exact .inr hk
        · left
          refine ⟨⟨r, hw⟩, hk.imp id fun hk => ?_⟩
          by_cases huv : u = v
          · subst huv; simp only [upd_same]; exact (session_frame hb).2.1 hk
          · simp only [upd_other _ _ huv]; exact hk
      · right
        obtain ⟨hc, ⟨b, srv, rfl, hal, hb, rfl⟩ | ⟨v, y, rfl, hv, hret, hb, rfl⟩ | ⟨v, b, y, rfl, hmay, hb, rfl⟩⟩ := step_cases hs
        · exact ⟨hf, he⟩
        · by_cases huv : u = v
          · subst huv
            simp only [upd_same]
            rw [close_again hf hb]
            exact ⟨hf, he⟩
          · simp only [upd_other _ _ huv]; exact ⟨hf, he⟩
        · by_cases huv : u = v
          · subst huv
            simp only [upd_same]
            refine ⟨(session_frame hb).2.1 hf, ?_⟩
            refine FullSession.step_invariant (· ≠ .callClose) (fun z => z.fired = true → Ends z) (fun _ => he)
              (fun z hz => ?_) (fun z w z' hw hz hs => ends_step hw hz hs) hb ((session_frame hb).2.1 hf)
            rcases hz with hz | hz
            · rintro rfl; simp [FullSession.isHandshake] at hz
            · rintro rfl; subst hz; simp [State.sessionMay] at hmay
          · simp only [upd_other _ _ huv]; exact ⟨hf, he⟩
  have hf : (s2.sess u).base.fired = true ∧ Ends (s2.sess u).base := by
    rcases key with ⟨⟨r', hw⟩, -⟩ | hk
    · rw [hret] at hw; simp at hw
    · exact hk
  refine ⟨hf.1, ?_⟩
  rcases hf.2 with hd | hd
  · exact .inl ⟨hd, SessionModel.C39_client _ (FullSession.base_reachable (session_reachable hR u)) hd⟩
  · exact .inr hd

/-- C70_closed: `Close` is called while two connections are served that were passed to `ServeConn` by callers. It does not wait for
them, but has closed their sessions when it returns. -/
def twoClosing : List Action := two ++ [.server (.call 2 .close), .server (.thread (.user 2))]

def twoClosed : List Action :=
  [.closeNext (.user 0)] ++ List.replicate 6 (.session (.user 0) (.base .closeStep)) ++
  [.closeNext (.user 1)] ++ List.replicate 6 (.session (.user 1) (.base .closeStep)) ++ [.server (.thread (.user 2))]

example : let s := after twoClosing; let s1 := after (twoClosing ++ [.server (.thread (.user 2))])
    let s2 := after (twoClosing ++ [.server (.thread (.user 2))] ++ twoClosed)
    Reachable (step FullSession.exampleParse) (init none) s ∧ s.server.pc (.user 2) = .closeLock ∧
    run (step FullSession.exampleParse) s [.server (.thread (.user 2))] = some s1 ∧ run (step FullSession.exampleParse) s1 twoClosed = some s2 ∧
    s2.server.pc (.user 2) = .returned .nil ∧ .user 0 ∈ s.server.sessions ∧ .user 1 ∈ s.server.sessions ∧ s2.server.pc (.user 0) = .connRun :=
  ⟨after_reachable _ (by decide +kernel), by decide +kernel, after_append _ _ (by decide +kernel) (by decide +kernel),
    after_append _ _ (by decide +kernel) (by decide +kernel), by decide +kernel, by decide +kernel, by decide +kernel, by decide +kernel⟩

end Gevulot.System
