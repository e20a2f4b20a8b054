import Verif.Proofs.SessionClose

namespace Gevulot
namespace SessionModel

/-! ### Bounded queues -/

def Bounded (s : State) : Prop := ∀ p, (s.inCh p).buf.length ≤ chanCap ∧ (s.outCh p).buf.length ≤ chanCap

theorem bounded_init : Bounded init := by intro p; simp [init]

theorem bounded_step {s s' : State} {a : Action} (h : Bounded s) (hs : step s a = some s') : Bounded s' := by
  intro p
  have := h p
  session_cases hs <;> grind [upd_apply]

/-! ### Who has returned, and why -/

structure ExitInv (s : State) : Prop where
  proc : s.proc = .exited → s.fired = true
  outPump : ∀ p, s.outPump p = .exited none → s.fired = true
  waiting : s.proc ≠ .notStarted → s.fired = false → s.start = .waiting
  returned : s.start = .returned ∨ s.start = .closing → s.fired = true
  deferred : s.start = .deferred false → s.allExited = true

theorem exitInv_init : ExitInv init := by constructor <;> simp [init]

set_option maxHeartbeats 1000000 in
theorem exitInv_step {s s' : State} {a : Action} (he : Early s) (hc : CloseInv s) (h : ExitInv s)
    (hs : step s a = some s') : ExitInv s' := by
  obtain ⟨e1, e2, e3, e4⟩ := he
  have c1 := hc.fired
  have c2 : ∀ p, (s.inCh p).closed = true ∨ (s.outCh p).closed = true → s.fired = true := by
    intro p
    rw [c1]
    cases p
    · rw [hc.clientIn, hc.clientOut]; simp; omega
    · rw [hc.dbIn, hc.dbOut]; simp; omega
  clear hc c1
  obtain ⟨h1, h2, h3, h4, h5⟩ := h
  session_cases hs <;> constructor <;>
    grind [StartPC.inHandshake, CloserPC.rank, upd_apply, State.allExited]

/-- All invariants together. -/
structure Inv (s : State) : Prop where
  early : Early s
  relay : ∀ p, RelayInv s p
  close : CloseInv s
  exit : ExitInv s
  bounded : Bounded s

theorem inv_init : Inv init := ⟨early_init, relay_init, closeInv_init, exitInv_init, bounded_init⟩

theorem isOpen_of_closeInv {s : State} (h : CloseInv s) (p : Peer) (hf : s.fired = false) (hn : s.proc ≠ .notStarted) :
    (s.conn p).isOpen = true := by
  have hr : s.closer.rank = 0 := by
    have := h.fired
    rw [hf] at this
    simp at this; exact this
  cases p with
  | client => rw [h.client.2.2, hr]; rfl
  | db =>
    refine h.dbOpen (h.dbAssigned (.inr hn)) (Nat.eq_zero_of_not_pos fun hx => ?_)
    have := (h.dbClosed hx).2.2
    omega

theorem inv_step {s s' : State} {a : Action} (h : Inv s) (hs : step s a = some s') : Inv s' :=
  ⟨early_step h.early hs, fun p => relay_step p h.early (h.relay p) (isOpen_of_closeInv h.close p) hs, closeInv_step h.early h.close hs,
    exitInv_step h.early h.close h.exit hs, bounded_step h.bounded hs⟩

theorem inv_of_reachable {s : State} (h : Reachable step init s) : Inv s :=
  h.invariant Inv inv_init fun _ _ _ => inv_step

/-! ### The session comes to rest -/

/-- The steps of the session's own goroutines: the pumps, the processing, `Close`, and `Start` after the handshake. -/
def Action.isSession : Action → Bool
  | .inRecv _ | .inSend _ | .procRecv _ | .procSend | .outRecv _ | .outWrite _ _ | .closeStep | .join | .startFinish => true
  | _ => false

def InPump.weight : InPump → Nat
  | .notStarted => 1
  | .recv => 1
  | .send _ => 6
  | .exited _ => 0
def OutPump.weight : OutPump → Nat
  | .notStarted => 1
  | .recv => 1
  | .write _ => 2
  | .exited _ => 0
def Proc.weight : Proc → Nat
  | .notStarted => 1
  | .select => 1
  | .send _ _ => 4
  | .exited => 0
def StartPC.weight : StartPC → Nat
  | .notCalled => 20
  | .negotiating => 20
  | .dialled => 20
  | .assigned => 20
  | .waiting => 12
  | .deferred _ => 11
  | .closing => 1
  | .returned => 0

def weight1 (s : State) (p : Peer) : Nat :=
  2 * (s.conn p).unread.length + (s.inPump p).weight + 4 * (s.inCh p).buf.length + 2 * (s.outCh p).buf.length +
  (s.outPump p).weight

def weight (s : State) : Nat :=
  weight1 s .client + weight1 s .db + s.proc.weight + s.start.weight + (7 - s.closer.rank) + (if s.crashed then 0 else 1)

theorem tryRecv_length {c : PeerConn} {m : Msg} {unread : Bytes} (h : tryRecv c = some (.ok m, unread)) :
    unread.length + 5 ≤ c.unread.length := by
  obtain ⟨e, r, hr, rfl⟩ := tryRecv_ok h
  exact recv_consumes hr

theorem flatStandard_rest_le (b : Bytes) (e : Err) : (flatStandard b e).2.length ≤ b.length := by
  unfold flatStandard
  split
  · simp
  · split
    · dsimp only; split <;> simp <;> omega
    · simp
    · simp

theorem tryRecv_length_le {c : PeerConn} {o : Res Msg} {unread : Bytes} (h : tryRecv c = some (o, unread)) :
    unread.length ≤ c.unread.length := by
  unfold tryRecv at h
  split at h
  · simp at h; rw [h.2]; exact Nat.le_refl _
  · split at h
    · rename_i e _
      simp only [Option.some.injEq, Prod.mk.injEq] at h
      rw [← h.2, (recvMessage_eq _).2.1]
      simpa [Reader.bytes] using flatStandard_rest_le c.unread e
    · have hb := (readStandardFrame_flat ⟨[c.unread], .eof⟩).2.1
      have := flatStandard_rest_le c.unread .eof
      simp only [Reader.bytes, List.flatten_cons, List.flatten_nil, List.append_nil] at hb
      split at h
      · rename_i f r hf
        rw [hf] at hb
        simp only [Option.some.injEq, Prod.mk.injEq] at h
        simp only [Reader.bytes] at h
        rw [← h.2, hb]; exact this
      · simp at h
      · rename_i f r hf
        rw [hf] at hb
        simp only [Option.some.injEq, Prod.mk.injEq] at h
        simp only [Reader.bytes] at h
        rw [← h.2, hb]; exact this

set_option maxHeartbeats 1000000 in
theorem weight_step {s s' : State} {a : Action} (ha : a.isSession = true) (hs : step s a = some s') :
    weight s' < weight s := by
  have hp : ∀ p : Peer, p = .client ∨ p = .db := by intro p; cases p <;> simp
  cases a with
  | inRecv p =>
    session_case hs
    · rename_i _ _ ht
      have := tryRecv_length ht
      rcases hp p with rfl | rfl <;> grind [weight, weight1, InPump.weight, upd_apply]
    · rename_i _ _ ht
      have := tryRecv_length_le ht
      rcases hp p with rfl | rfl <;> grind [weight, weight1, InPump.weight, upd_apply]
    · grind [weight, weight1]
  | inSend p => session_case hs <;> rcases hp p with rfl | rfl <;> grind [weight, weight1, InPump.weight, upd_apply]
  | procRecv p => session_case hs <;> rcases hp p with rfl | rfl <;> grind [weight, weight1, Proc.weight, upd_apply]
  | procSend =>
    session_case hs
    · grind [weight, weight1]
    · rename_i src _ _ _ _
      rcases hp src with rfl | rfl <;> grind [weight, weight1, Proc.weight, upd_apply, Peer.other]
  | outRecv p => session_case hs <;> rcases hp p with rfl | rfl <;> grind [weight, weight1, OutPump.weight, upd_apply]
  | outWrite p f => session_case hs <;> rcases hp p with rfl | rfl <;> grind [weight, weight1, OutPump.weight, upd_apply]
  | closeStep => session_case hs <;> grind [weight, weight1, CloserPC.rank, upd_apply]
  | join => session_case hs <;> grind [weight, weight1, StartPC.weight]
  | startFinish => session_case hs <;> grind [weight, weight1, StartPC.weight, CloserPC.rank]
  | _ => simp [Action.isSession] at ha

end SessionModel
end Gevulot
