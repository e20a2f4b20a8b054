import Verif.Proofs.PiecesRest

namespace Gevulot.Pieces

open SessionModel (Peer PeerConn)

variable {parse : Bytes → Option ConnectionParams}

/-- The steps that are gevulot's to make: not the peers', and no call of `Start` or `Close` from outside. -/
def Internal : Action → Prop
  | .other a => FullSession.Internal a
  | _ => True

/-- Gevulot has nothing to do: it would have to wait for a peer, or for a call. -/
def Settled (parse : Bytes → Option ConnectionParams) (s : State) : Prop := ∀ a, Internal a → step parse s a = none

theorem settled_pump {s : State} (hc : s.sess.base.crashed = false) (h : Settled parse s) (p : Peer) (m : Msg) : s.sess.base.outPump p ≠ .write m := by
  intro hm
  have := h (.writeFails p (.io 0)) trivial
  simp [step, hc, hm] at this

theorem settled_hs {s : State} (hi : Inv s) (hc : s.sess.base.crashed = false) (h : Settled parse s) : s.sess.hs = .idle ∨ s.sess.hs = .recv := by
  have hst := hi.hs
  have fail : ∀ x : FullSession.State, x.base.crashed = false → x.base.start = .negotiating → x.fail ≠ none := by
    intro x h1 h2; simp [FullSession.State.fail, SessionModel.step, h1, h2]
  cases hx : s.sess.hs with
  | idle => exact .inl rfl
  | recv => exact .inr rfl
  | reply =>
    have hneg : s.sess.base.start = .negotiating := by rw [hx] at hst; revert hst; cases s.sess.base.start <;> simp [hsOk]
    have := h (.other (.reply false)) trivial
    simp only [step, hc, replaced, FullSession.step, hx, Bool.false_eq_true, if_false, Option.map_eq_none_iff] at this
    exact absurd this (fail _ hc hneg)
  | config m =>
    have hneg : s.sess.base.start = .negotiating := by rw [hx] at hst; revert hst; cases s.sess.base.start <;> simp [hsOk]
    have := h (.other (.getConfig none)) trivial
    simp only [step, hc, replaced, FullSession.step, hx, Bool.false_eq_true, if_false, Option.map_eq_none_iff, Option.bind_none] at this
    exact absurd this (fail _ hc hneg)
  | dial m x =>
    have hneg : s.sess.base.start = .negotiating := by rw [hx] at hst; revert hst; cases s.sess.base.start <;> simp [hsOk]
    have := h (.other (.dial false)) trivial
    simp only [step, hc, replaced, FullSession.step, hx, Bool.false_eq_true, if_false, Option.map_eq_none_iff] at this
    exact absurd this (fail _ hc hneg)
  | assign m =>
    have hneg : s.sess.base.start = .dialled := by rw [hx] at hst; revert hst; cases s.sess.base.start <;> simp [hsOk]
    have := h (.other .assign) trivial
    simp [step, hc, replaced, FullSession.step, hx, SessionModel.step, hneg] at this
  | startup m =>
    have := h .writeStartupFails trivial
    simp [step, hc, hx] at this

theorem settled_wrote {s : State} (hi : Inv s) (hc : s.sess.base.crashed = false) (h : Settled parse s) (p : Peer) : s.wrote p = 0 := by
  refine Decidable.byContradiction fun h0 => ?_
  obtain ⟨m, hm, _⟩ := hi.wrote p (Nat.pos_of_ne_zero h0)
  rcases hm with hm | ⟨_, x, hx, _⟩
  · exact settled_pump hc h p m hm
  · rcases settled_hs hi hc h with g | g <;> rw [g] at hx <;> simp at hx

theorem recvStartup_rest {s : State} (hi : Inv s) (hc : s.sess.base.crashed = false) (h1 : ∀ n, step parse s (.readStartup n) = none)
    (h2 : step parse s .readStartupFails = none) (hp : s.sess.hs = .recv) :
    FullSession.tryRecvStartup { s.sess.base.conn .client with unread := s.rbuf .client ++ (s.sess.base.conn .client).unread } = none := by
  have hlt := hi.hsRecv hc hp
  simp only [step, hc, hp, readError] at h2
  cases ho : (s.sess.base.conn .client).isOpen with
  | false => simp [ho] at h2
  | true =>
    have hu : (s.sess.base.conn .client).unread = [] := by
      cases hx : (s.sess.base.conn .client).unread with
      | nil => rfl
      | cons b bs =>
        exfalso
        have := h1 1
        simp only [step, hc, hp] at this
        simp only [Bool.false_eq_true, if_false] at this
        rw [if_pos ⟨ho, by omega, by rw [hx]; simp, by omega⟩] at this
        (repeat' split at this) <;> simp at this
    have he : (s.sess.base.conn .client).ended = none := by
      cases hx : (s.sess.base.conn .client).ended with
      | none => rfl
      | some e => simp [ho, hu, hx] at h2
    rw [tryRecvStartup_waiting (by exact ho) (by simpa [hu] using hlt)]
    simp [he]

theorem settled_abs {s : State} (hi : Inv s) (hc : s.sess.base.crashed = false) (h : Settled parse s) : FullSession.Settled parse (abs s) := by
  have hw := settled_wrote hi hc h
  have hh := settled_hs hi hc h
  rw [abs_eq (cutStartup_of_wrote (hw .db)), absBase_same hw]
  intro a ha
  cases a with
  | base a =>
    simp only [FullSession.step]
    split
    · rfl
    · rename_i hs
      simp only [Option.map_eq_none_iff]
      by_cases hr : replaced (.base a) = true
      · cases a <;> simp [replaced] at hr
        · rename_i p
          simp only [SessionModel.step, hc, Bool.false_eq_true, if_false]
          split
          · rename_i hp
            rw [inRecv_rest hi hc (fun n => h _ trivial) (h _ trivial) hp]
          · rfl
        · rename_i p f
          have := settled_pump hc h p
          simp only [SessionModel.step, hc, Bool.false_eq_true, if_false]
      · exact step_unread (by rintro p rfl; simp [replaced] at hr) (by rintro p rfl; simp [FullSession.isHandshake] at hs)
          (by rintro p f rfl; simp [replaced] at hr) (other_none hc (by simpa using hr) (by simpa using hs) (h (.other (.base a)) ha))
  | recvStartup =>
    simp only [FullSession.step]
    split
    · rename_i hp
      rw [recvStartup_rest hi hc (fun n => h _ trivial) (h _ trivial) hp]
    · rfl
  | _ => rcases hh with hh | hh <;> simp [FullSession.step, hh]

/-! ### It ends -/

def W (s : State) : Nat := FullSession.weight s.sess + 2 * (s.rbuf .client).length + 2 * (s.rbuf .db).length

/-- The bytes left to be read, and to be written of the present messages. -/
def leftOf (s : State) (p : Peer) : Nat :=
  (s.sess.base.conn p).unread.length + match s.sess.base.outPump p with
    | .write m => (sendMessage m).length - s.wrote p
    | _ => 0

def V (s : State) : Nat :=
  leftOf s .client + leftOf s .db + match s.sess.hs with
    | .startup m => (sendMessage (.startup m)).length - s.wrote .db
    | _ => 0

theorem standardTarget_pos (b : Bytes) : 5 ≤ standardTarget b := by
  unfold standardTarget; (repeat' split) <;> omega

theorem startupTarget_pos (b : Bytes) : 4 ≤ startupTarget b := by
  unfold startupTarget; (repeat' split) <;> omega

theorem measure_step {s s' : State} {a : Action} (hi : Inv s) (ha : Internal a) (hs : step parse s a = some s') :
    W s' < W s ∨ W s' = W s ∧ V s' < V s := by
  unfold step at hs
  dsimp only at hs
  split at hs
  · simp at hs
  rename_i hcr
  have hcr' : s.sess.base.crashed = false := by simpa using hcr
  cases a with
  | other a =>
    simp only at hs
    split at hs
    · simp at hs
    · obtain ⟨x, hx, rfl⟩ := Option.map_eq_some_iff.mp hs
      have := FullSession.weight_step ha hx
      left; simp only [W]; omega
  | read p n =>
    simp only at hs
    split at hs
    case isFalse => simp at hs
    rename_i hg
    obtain ⟨hp, ho, h0, hn, ht⟩ := hg
    have hm : min n (s.sess.base.conn p).unread.length = n := by omega
    have ht' := standardTarget_pos (s.rbuf p ++ (s.sess.base.conn p).unread.take n)
    have hl : (s.rbuf p ++ (s.sess.base.conn p).unread.take n).length = (s.rbuf p).length + n := by simp [hm]
    split at hs
    · simp only [Option.some.injEq] at hs; subst hs
      right
      cases p <;> simp [W, V, leftOf, State.with, FullSession.weight, SessionModel.weight, SessionModel.weight1, hm, upd, hcr'] <;> omega
    · rename_i hge
      rw [hl] at hge
      left
      (repeat' split at hs) <;> simp only [Option.some.injEq] at hs <;> subst hs <;>
        cases p <;> simp [W, State.with, FullSession.weight, SessionModel.weight, SessionModel.weight1, hm, upd, hp, hcr', SessionModel.InPump.weight] <;> omega
  | readStartup n =>
    simp only at hs
    split at hs
    case h_2 => simp at hs
    rename_i hhs
    split at hs
    case isFalse => simp at hs
    rename_i hg
    obtain ⟨ho, h0, hn, ht⟩ := hg
    have hm : min n (s.sess.base.conn .client).unread.length = n := by omega
    have ht' := startupTarget_pos (s.rbuf .client ++ (s.sess.base.conn .client).unread.take n)
    have hl : (s.rbuf .client ++ (s.sess.base.conn .client).unread.take n).length = (s.rbuf .client).length + n := by simp [hm]
    split at hs
    · simp only [Option.some.injEq] at hs; subst hs
      right
      simp [W, V, leftOf, State.with, FullSession.weight, SessionModel.weight, SessionModel.weight1, hm, upd, hhs, hcr']; omega
    · rename_i hge
      rw [hl] at hge
      left
      (repeat' split at hs) <;> simp only [Option.some.injEq] at hs <;> subst hs <;>
        simp [W, State.with, FullSession.weight, SessionModel.weight, SessionModel.weight1, hm, upd, hcr', FullSession.HsPC.weight, SessionModel.StartPC.weight, hhs] <;> omega
  | readFails p =>
    simp only at hs
    split at hs
    case isFalse => simp at hs
    rename_i hp
    split at hs
    · simp only [Option.some.injEq] at hs; subst hs
      left
      cases ho : (s.sess.base.conn p).isOpen <;> cases p <;>
        simp [W, State.with, FullSession.weight, SessionModel.weight, SessionModel.weight1, upd, hp, hcr', SessionModel.InPump.weight] <;> omega
    · simp at hs
  | readStartupFails =>
    simp only at hs
    split at hs
    case h_2 => simp at hs
    rename_i hhs
    split at hs
    · simp only [Option.some.injEq] at hs; subst hs
      left
      have hneg : s.sess.base.start = .negotiating := by have := hi.hs; rw [hhs] at this; revert this; cases s.sess.base.start <;> simp [hsOk]
      split <;> simp [W, State.with, FullSession.weight, SessionModel.weight, SessionModel.weight1, upd, hcr', FullSession.HsPC.weight, SessionModel.StartPC.weight, hhs, hneg] <;> omega
    · simp at hs
  | write p n =>
    simp only at hs
    split at hs
    case h_2 => simp at hs
    rename_i m hm
    split at hs
    case isFalse => simp at hs
    rename_i hg
    obtain ⟨ho, h0, hn⟩ := hg
    split at hs
    · rename_i hlt
      simp only [Option.some.injEq] at hs; subst hs
      simp only [State.with] at hlt
      have h0' : 0 < n := by
        rcases h0 with h0 | h0
        · exact h0
        · rw [h0] at hlt; simp at hlt
      right
      have hidle := write_idle hi hm
      cases p <;> simp [W, V, leftOf, State.with, FullSession.weight, SessionModel.weight, SessionModel.weight1, upd, hcr', hm, hidle] <;>
        exact Nat.sub_lt_sub_left (by omega) (by omega)
    · simp only [Option.some.injEq] at hs; subst hs
      left
      cases p <;> simp [W, State.with, FullSession.weight, SessionModel.weight, SessionModel.weight1, upd, hcr', hm, SessionModel.OutPump.weight] <;> omega
  | writeFails p e =>
    simp only at hs
    split at hs
    case h_2 => simp at hs
    rename_i m hm
    split at hs
    · simp only [Option.some.injEq] at hs; subst hs
      left
      cases p <;> simp [W, State.with, FullSession.weight, SessionModel.weight, SessionModel.weight1, upd, hcr', hm, SessionModel.OutPump.weight] <;> omega
    · simp at hs
  | writeStartup n =>
    simp only at hs
    split at hs
    case h_2 => simp at hs
    rename_i m hm
    split at hs
    case isFalse => simp at hs
    rename_i hg
    obtain ⟨ho, h0, hn⟩ := hg
    split at hs
    · rename_i hlt
      simp only [Option.some.injEq] at hs; subst hs
      simp only [State.with] at hlt
      have h0' : 0 < n := by
        rcases h0 with h0 | h0
        · exact h0
        · rw [h0] at hlt; simp at hlt
      right
      have hst : s.sess.base.start = .assigned := by have := hi.hs; rw [hm] at this; revert this; cases s.sess.base.start <;> simp [hsOk]
      obtain ⟨g1, g2⟩ := hi.pumps (.inr (by rw [hst]; rfl))
      simp [W, V, leftOf, State.with, FullSession.weight, SessionModel.weight, SessionModel.weight1, upd, hcr', hm, g1]
      exact Nat.sub_lt_sub_left (by omega) (by omega)
    · simp only [Option.some.injEq] at hs; subst hs
      left
      have hst : s.sess.base.start = .assigned := by have := hi.hs; rw [hm] at this; revert this; cases s.sess.base.start <;> simp [hsOk]
      obtain ⟨g1, g2⟩ := hi.pumps (.inr (by rw [hst]; rfl))
      simp [W, State.with, FullSession.weight, SessionModel.weight, SessionModel.weight1, upd, hcr', hm, hst, g1, g2, SessionModel.OutPump.weight, SessionModel.InPump.weight, SessionModel.Proc.weight, SessionModel.StartPC.weight, FullSession.HsPC.weight]
      omega
  | writeStartupFails =>
    simp only at hs
    split at hs
    · rename_i m hm
      simp only [Option.some.injEq] at hs; subst hs
      left
      have hst : s.sess.base.start = .assigned := by have := hi.hs; rw [hm] at this; revert this; cases s.sess.base.start <;> simp [hsOk]
      simp [W, State.with, FullSession.weight, SessionModel.weight, SessionModel.weight1, hcr', hm, hst, SessionModel.StartPC.weight, FullSession.HsPC.weight]
      omega
    · simp at hs

theorem no_infinite (f : Nat → State) (a : Nat → Action) (h0 : Inv (f 0)) (h : ∀ i, Internal (a i) ∧ step parse (f i) (a i) = some (f (i + 1))) : False := by
  have key : ∀ w v i, W (f i) = w → V (f i) = v → Inv (f i) → False := by
    intro w
    induction w using Nat.strongRecOn with
    | _ w ihw =>
      intro v
      induction v using Nat.strongRecOn with
      | _ v ihv =>
        intro i hw hv hi
        have hi' := inv_step hi (h i).2
        rcases measure_step hi (h i).1 (h i).2 with g | ⟨g1, g2⟩
        · exact ihw _ (by omega) _ (i + 1) rfl rfl hi'
        · exact ihv _ (by omega) (i + 1) (by omega) rfl hi'
  exact key _ _ 0 rfl rfl h0

end Gevulot.Pieces
