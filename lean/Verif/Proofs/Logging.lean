import Verif.Spec.Logging
import Verif.Proofs.FullSession
import Verif.Proofs.SessionLive

/-!
# Proofs about what is logged
-/

namespace Gevulot.LogModel

open SessionModel

/-- What was logged came from `p`, and the rest of what `p` sent has not been logged yet. -/
def InSide (s : SessionModel.State) (p : Peer) (l : List Msg) : Prop :=
  ∃ relayed rest, (s.conn p).sent = taken s p ++ relayed ∧ Spec.Stream relayed (l ++ (s.inCh p).buf ++ (s.inPump p).hand) rest ∧
    ((s.inPump p).alive = true → rest = (s.conn p).unread)

/-- What was logged has been written to the other end, or is on its way there. -/
def OutSide (s : SessionModel.State) (p : Peer) (l : List Msg) : Prop :=
  ∃ dn torn, (s.conn p.other).written = s.hsWritten p.other ++ dn.flatMap sendMessage ++ torn ∧
    (torn = [] ∨ ∃ m e k, s.outPump p.other = .exited (some (m, e)) ∧ torn = (sendMessage m).take k) ∧
    l = dn ++ (s.outPump p.other).hand ++ (s.outCh p.other).buf ++ s.proc.hand p

structure Logged (s : SessionModel.State) (p : Peer) (l : List Msg) : Prop where
  inside : InSide s p l
  outside : OutSide s p l
  early : s.proc = .notStarted → l = []

theorem logged_early {s : SessionModel.State} (he : Early s) (hn : s.proc = .notStarted) (p : Peer) : Logged s p [] := by
  have a := he.pumps p hn
  have b := he.pumps p.other hn
  refine ⟨⟨(s.conn p).unread, (s.conn p).unread, a.2.2.2.2.1, ?_, fun _ => rfl⟩, ⟨[], [], ?_, .inl rfl, ?_⟩, fun _ => rfl⟩
  · simp only [a, InPump.hand]; exact .nil _
  · simp [b]
  · simp [b, hn, OutPump.hand, Proc.hand]

theorem insideFrame {s s' : SessionModel.State} {p : Peer} {l l' : List Msg} (h : InSide s p l) (h1 : (s'.conn p).sent = (s.conn p).sent)
    (h2 : taken s' p = taken s p) (h3 : l' ++ (s'.inCh p).buf ++ (s'.inPump p).hand = l ++ (s.inCh p).buf ++ (s.inPump p).hand)
    (h4 : (s'.inPump p).alive = true → (s.inPump p).alive = true ∧ (s'.conn p).unread = (s.conn p).unread) : InSide s' p l' := by
  obtain ⟨relayed, rest, g1, g2, g3⟩ := h
  exact ⟨relayed, rest, by rw [h1, h2, g1], by rw [h3]; exact g2, fun h => by rw [(h4 h).2]; exact g3 (h4 h).1⟩

theorem outsideFrame {s s' : SessionModel.State} {p : Peer} {l l' : List Msg} (h : OutSide s p l)
    (h1 : (s'.conn p.other).written = (s.conn p.other).written) (h2 : s'.hsWritten p.other = s.hsWritten p.other)
    (h3 : ∀ m e, s.outPump p.other = .exited (some (m, e)) → s'.outPump p.other = .exited (some (m, e)))
    (h4 : ∀ dn, l = dn ++ (s.outPump p.other).hand ++ (s.outCh p.other).buf ++ s.proc.hand p →
      l' = dn ++ (s'.outPump p.other).hand ++ (s'.outCh p.other).buf ++ s'.proc.hand p) : OutSide s' p l' := by
  obtain ⟨dn, torn, g1, g2, g3⟩ := h
  refine ⟨dn, torn, by rw [h1, h2, g1], g2.imp_right ?_, h4 dn g3⟩
  rintro ⟨m, e, k, g, g'⟩
  exact ⟨m, e, k, h3 m e g, g'⟩

theorem messagesFrom_nil : messagesFrom p [] = [] := rfl
theorem messagesFrom_append (p : Peer) (a b : List Line) : messagesFrom p (a ++ b) = messagesFrom p a ++ messagesFrom p b := by simp [messagesFrom]
theorem messagesFrom_single (p q : Peer) (m : Msg) : messagesFrom p [⟨q, m⟩] = if q = p then [m] else [] := by
  unfold messagesFrom; by_cases h : q = p <;> simp [h]

macro "inside_same" h:ident : tactic => `(tactic| (
  refine insideFrame $h ?_ ?_ ?_ ?_ <;>
    grind [upd_apply, taken, Proc.hand, InPump.hand, InPump.alive, Peer.other, lines, messagesFrom_nil, messagesFrom_single]))

macro "outside_same" h:ident : tactic => `(tactic| (
  refine outsideFrame $h ?_ ?_ ?_ ?_ <;>
    grind [upd_apply, OutPump.hand, Proc.hand, Peer.other, lines, messagesFrom_nil, messagesFrom_single]))

theorem inside_step {s s' : SessionModel.State} {a : SessionModel.Action} (hn : s.proc ≠ .notStarted) (he : Early s) {p : Peer} {l : List Msg} (h : InSide s p l)
    (hs : SessionModel.step s a = some s') : InSide s' p (l ++ messagesFrom p (lines s a)) := by
  have hst : s.start ≠ .negotiating ∧ s.start ≠ .dialled ∧ s.start ≠ .assigned := by
    have := he.notSpawned
    refine ⟨fun hx => hn (this (.inr (by rw [hx]; rfl))), fun hx => hn (this (.inr (by rw [hx]; rfl))), fun hx => hn (this (.inr (by rw [hx]; rfl)))⟩
  clear he
  cases a with
  | peerSends q bs =>
    session_case hs
    by_cases hq : p = q
    · subst hq
      obtain ⟨relayed, rest, g1, g2, g3⟩ := h
      refine ⟨relayed ++ bs, rest ++ bs, ?_, ?_, ?_⟩
      · simp [g1, taken]
      · simpa [lines, messagesFrom_nil] using g2.more bs
      · intro hx; simp [g3 hx]
    · inside_same h
  | inRecv q =>
    session_case hs
    · rename_i hp _ m unread ht
      by_cases hq : p = q
      · subst hq
        obtain ⟨relayed, rest, g1, g2, g3⟩ := h
        obtain ⟨e, r, hr, hb⟩ := tryRecv_ok ht
        rw [g3 (by simp [hp, InPump.alive])] at g2
        refine ⟨relayed, unread, ?_, ?_, ?_⟩
        · simp [g1, taken]
        · have := g2.snoc hr
          rw [hb] at this
          simpa [hp, InPump.hand, lines, messagesFrom_nil] using this
        · simp
      · inside_same h
    · inside_same h
    · inside_same h
  | _ => session_case hs <;> first | (simp_all; done) | inside_same h

theorem outside_step {s s' : SessionModel.State} {a : SessionModel.Action} (hn : s.proc ≠ .notStarted) (he : Early s) {p : Peer} {l : List Msg} (h : OutSide s p l)
    (hs : SessionModel.step s a = some s') : OutSide s' p (l ++ messagesFrom p (lines s a)) := by
  have hst : s.start ≠ .negotiating ∧ s.start ≠ .dialled ∧ s.start ≠ .assigned := by
    have := he.notSpawned
    refine ⟨fun hx => hn (this (.inr (by rw [hx]; rfl))), fun hx => hn (this (.inr (by rw [hx]; rfl))), fun hx => hn (this (.inr (by rw [hx]; rfl)))⟩
  have hinj : ∀ a b : Peer, a.other = b.other → a = b := by intro a b; cases a <;> cases b <;> decide
  clear he
  cases a with
  | outWrite q f =>
    session_case hs
    · rename_i m hp _ _
      by_cases hq : p.other = q
      · subst hq
        obtain ⟨dn, torn, g1, g2, g3⟩ := h
        have ht : torn = [] := by
          rcases g2 with g | ⟨m', e, k, g, _⟩
          · exact g
          · rw [hp] at g; simp at g
        subst ht
        refine ⟨dn ++ [m], [], ?_, .inl rfl, ?_⟩
        · simp [g1]
        · simpa [hp, OutPump.hand, lines, messagesFrom_nil] using g3
      · outside_same h
    · rename_i m hp _ n e _
      by_cases hq : p.other = q
      · subst hq
        obtain ⟨dn, torn, g1, g2, g3⟩ := h
        have ht : torn = [] := by
          rcases g2 with g | ⟨m', e, k, g, _⟩
          · exact g
          · rw [hp] at g; simp at g
        subst ht
        refine ⟨dn, (sendMessage m).take n, ?_, .inr ⟨m, e, n, by simp, rfl⟩, ?_⟩
        · simp [g1]
        · simpa [hp, OutPump.hand, lines, messagesFrom_nil] using g3
      · outside_same h
  | _ => session_case hs <;> first | (simp_all; done) | outside_same h

theorem logged_step {s s' : SessionModel.State} {a : SessionModel.Action} (he : Early s) {p : Peer} {l : List Msg} (h : Logged s p l)
    (hs : SessionModel.step s a = some s') : Logged s' p (l ++ messagesFrom p (lines s a)) := by
  have he' := early_step he hs
  by_cases hn : s'.proc = .notStarted
  · have hn0 : s.proc = .notStarted := by
      clear h he he'
      session_cases hs <;> simp_all
    have : messagesFrom p (lines s a) = [] := by
      cases a <;> simp [lines, messagesFrom_nil]
      rename_i q
      have := (he.pumps q hn0).2.2.1
      rw [this]; rfl
    rw [this, h.early hn0]
    exact logged_early he' hn p
  · by_cases hn0 : s.proc = .notStarted
    · have hl := h.early hn0
      subst hl
      clear h
      have k1 := he.pumps p hn0
      have k2 := he.pumps p.other hn0
      cases a with
      | hsStartup bs ok =>
        session_case hs
        · refine ⟨⟨(s.conn p).unread, (s.conn p).unread, ?_, ?_, ?_⟩, ⟨[], [], ?_, .inl rfl, ?_⟩, fun hx => absurd hx hn⟩
          · grind [upd_apply, taken]
          · simp only [lines, messagesFrom_nil, k1, InPump.hand]; exact .nil _
          · grind [upd_apply]
          · grind [upd_apply]
          · simp [lines, messagesFrom_nil, k2, OutPump.hand, Proc.hand]
        · exact absurd hn0 hn
      | _ => exfalso; clear he'; session_case hs <;> simp_all
    · exact ⟨inside_step hn0 he h.inside hs, outside_step hn0 he h.outside hs, fun hx => absurd hx hn⟩

/-- Sessions, with their logs. -/
theorem logged_of_reachable {parse : Bytes → Option ConnectionParams} {s : State} (h : Reachable (step parse) init s) :
    Reachable (FullSession.step parse) FullSession.init s.sess ∧ ∀ p, Logged s.sess.base p (messagesFrom p s.log) := by
  refine h.invariant (fun s => Reachable (FullSession.step parse) FullSession.init s.sess ∧ ∀ p, Logged s.sess.base p (messagesFrom p s.log))
    ⟨Reachable.refl _, fun p => logged_early early_init rfl p⟩ ?_
  rintro s a s' ⟨hr, hl⟩ hs
  unfold step at hs
  rw [Option.map_eq_some_iff] at hs
  obtain ⟨x, hx, rfl⟩ := hs
  refine ⟨hr.next hx, fun p => ?_⟩
  have he := (FullSession.hinv_of_reachable hr).early
  cases a with
  | base b =>
    have hb : SessionModel.step s.sess.base b = some x.base := by
      cases b <;> simp [FullSession.step] at hx <;> grind
    have := logged_step he (hl p) hb
    rwa [← messagesFrom_append] at this
  | _ =>
    obtain ⟨acts, h1, h2⟩ := FullSession.step_base hx
    simp only [List.append_nil]
    refine (run_invariant_of (fun a => FullSession.isHandshake a = true) (fun b => Early b ∧ Logged b p (messagesFrom p s.log)) ⟨he, hl p⟩ ?_ ?_ h1).2
    · intro b a b' ha hi hs
      refine ⟨early_step hi.1 hs, ?_⟩
      have := logged_step hi.1 hi.2 hs
      have hz : messagesFrom p (lines b a) = [] := by cases a <;> simp [FullSession.isHandshake] at ha <;> rfl
      rwa [hz, List.append_nil] at this
    · intro y hy
      rcases h2 y hy with g | g
      · exact g
      · simp at g

end Gevulot.LogModel
