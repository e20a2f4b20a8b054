import Verif.Spec.Session
import Verif.Proofs.Trans
import Verif.Proofs.Conn

namespace Gevulot

/-! ### Streams of messages -/

theorem flatStandard_form (t : Byte) (len : BitVec 32) (body rest : Bytes) (final : Err)
    (h : body.length = (len - 4).toInt.toNat) :
    flatStandard (t :: (putUint32 len ++ body) ++ rest) final = (.ok (.standard (t :: (putUint32 len ++ body))), rest) := by
  unfold flatStandard
  rw [if_neg (by simp)]
  have h1 : ((t :: (putUint32 len ++ body)) ++ rest).drop 1 = putUint32 len ++ (body ++ rest) := by simp
  have h2 : ((t :: (putUint32 len ++ body)) ++ rest).drop 5 = body ++ rest := rfl
  have h3 : ((t :: (putUint32 len ++ body)) ++ rest).take 5 = t :: (putUint32 len ++ []) := rfl
  rw [h1, h2, h3, beUint32_put]
  simp only
  rw [if_pos (by rw [List.length_append]; omega), ← h]
  simp

/-- A message that was received is received in the same way when more bytes follow, and however the stream ends. -/
theorem recv_more {b : Bytes} {e e' : Err} {m : Msg} {r : Reader} (x : Bytes) (h : recvMessage ⟨[b], e⟩ = (.ok m, r)) :
    ∃ r', recvMessage ⟨[b ++ x], e'⟩ = (.ok m, r') ∧ r'.bytes = r.bytes ++ x := by
  obtain ⟨h1, h2, _⟩ := recvMessage_eq ⟨[b], e⟩
  obtain ⟨g1, g2, _⟩ := recvMessage_eq ⟨[b ++ x], e'⟩
  simp only [Reader.bytes, List.flatten_cons, List.flatten_nil, List.append_nil] at h1 h2 g1 g2
  rw [h] at h1 h2
  rcases hf : flatStandard b e with ⟨o, rest⟩
  rw [hf] at h1 h2
  cases o with
  | err e => simp at h1
  | panic p => simp at h1
  | ok f =>
    simp only at h1 h2
    obtain ⟨t, len, body, rfl, rfl, hl, _⟩ := flatStandard_ok hf
    rw [List.append_assoc, flatStandard_form t len body _ e' hl] at g1 g2
    refine ⟨(recvMessage ⟨[t :: (putUint32 len ++ body) ++ rest ++ x], e'⟩).2, Prod.ext ?_ rfl, ?_⟩
    · rw [List.append_assoc, g1]; exact h1.symm
    · rw [List.append_assoc]
      simp only [Reader.bytes]
      rw [g2, h2]

theorem recv_consumes {b : Bytes} {e : Err} {m : Msg} {r : Reader} (h : recvMessage ⟨[b], e⟩ = (.ok m, r)) :
    r.bytes.length + 5 ≤ b.length := by
  obtain ⟨h1, h2, _⟩ := recvMessage_eq ⟨[b], e⟩
  simp only [Reader.bytes, List.flatten_cons, List.flatten_nil, List.append_nil] at h1 h2
  rw [h] at h1 h2
  rcases hf : flatStandard b e with ⟨o, rest⟩
  rw [hf] at h1 h2
  cases o with
  | err e => simp at h1
  | panic p => simp at h1
  | ok f =>
    simp only at h1 h2
    obtain ⟨t, len, body, rfl, rfl, hl, _⟩ := flatStandard_ok hf
    simp only [Reader.bytes]
    rw [h2]
    have h4 : (putUint32 len).length = 4 := rfl
    simp [h4]
    omega

namespace Spec.Stream

theorem more {b rest : Bytes} {ms : List Msg} (h : Stream b ms rest) (x : Bytes) : Stream (b ++ x) ms (rest ++ x) := by
  induction h with
  | nil b => exact .nil _
  | cons h _ ih =>
    obtain ⟨r', h1, h2⟩ := recv_more x h
    exact .cons h1 (h2 ▸ ih)

theorem snoc {b rest : Bytes} {ms : List Msg} {m : Msg} {r : Reader} {e : Err} (h : Stream b ms rest)
    (hm : recvMessage ⟨[rest], e⟩ = (.ok m, r)) : Stream b (ms ++ [m]) r.bytes := by
  induction h with
  | nil b =>
    obtain ⟨r', h1, h2⟩ := recv_more (e' := .eof) [] hm
    rw [List.append_nil] at h1 h2
    rw [← h2]
    exact .cons h1 (.nil _)
  | cons h _ ih => exact .cons h (ih hm)

end Spec.Stream

namespace SessionModel

/-- What `tryRecv` returns is what `recvMessage` returns for some ending of the stream. -/
theorem tryRecv_ok {c : PeerConn} {m : Msg} {unread : Bytes} (h : tryRecv c = some (.ok m, unread)) :
    ∃ e r, recvMessage ⟨[c.unread], e⟩ = (.ok m, r) ∧ r.bytes = unread := by
  unfold tryRecv at h
  split at h
  · simp at h
  · split at h
    · rename_i e _
      simp only [Option.some.injEq, Prod.mk.injEq] at h
      exact ⟨e, (recvMessage ⟨[c.unread], e⟩).2, Prod.ext h.1 rfl, h.2⟩
    · split at h
      · rename_i f r hf
        simp only [Option.some.injEq, Prod.mk.injEq] at h
        refine ⟨.eof, r, ?_, h.2⟩
        unfold recvMessage
        rw [hf]
        simp [h.1]
      · simp at h
      · simp at h

/-- While `RecvMessage` waits, there is no message. -/
theorem tryRecv_none {c : PeerConn} (h : tryRecv c = none) : Spec.NoMessage c.unread := by
  unfold tryRecv at h
  split at h
  · simp at h
  · split at h
    · simp at h
    · intro m r hm
      split at h
      · simp at h
      · rename_i hf
        unfold recvMessage at hm
        rw [hf] at hm
        simp at hm
      · simp at h

/-- A `RecvMessage` that fails on an open connection has found that the stream ended, or a complete frame that is no message. -/
theorem tryRecv_err {c : PeerConn} {e : Err} {unread : Bytes} (hopen : c.isOpen = true) (h : tryRecv c = some (.err e, unread)) :
    (c.ended ≠ none ∧ Spec.NoMessage c.unread) ∨ ∀ x, Spec.NoMessage (c.unread ++ x) := by
  unfold tryRecv at h
  rw [if_neg (by simp [hopen])] at h
  split at h
  · rename_i e' he
    left
    refine ⟨by simp [he], fun m r hm => ?_⟩
    obtain ⟨r', h1, _⟩ := recv_more (e' := e') [] hm
    rw [List.append_nil] at h1
    simp [h1] at h
  · right
    split at h
    · rename_i f r hf
      intro x m r' hm
      simp only [Option.some.injEq, Prod.mk.injEq] at h
      have h1 := (readStandardFrame_flat ⟨[c.unread], .eof⟩).1
      have h2 := (recvMessage_eq ⟨[c.unread ++ x], .eof⟩).1
      simp only [Reader.bytes, List.flatten_cons, List.flatten_nil, List.append_nil] at h1 h2
      rw [hf] at h1
      rw [hm] at h2
      rcases hg : flatStandard c.unread .eof with ⟨o, rest⟩
      rw [hg] at h1
      simp only at h1
      subst h1
      obtain ⟨t, len, body, rfl, hb, hl, _⟩ := flatStandard_ok hg
      rw [hb, List.append_assoc, flatStandard_form t len body _ .eof hl] at h2
      simp only [h.1] at h2
      simp at h2
    · simp at h
    · simp at h

theorem Peer.other_ne (p : Peer) : p.other ≠ p := by cases p <;> decide
@[simp] theorem Peer.other_other (p : Peer) : p.other.other = p := by cases p <;> rfl

/-- The messages from `p` that are on their way to the other end, oldest first. -/
def OutPump.hand : OutPump → List Msg
  | .write m => [m]
  | .exited (some (m, _)) => [m]
  | _ => []
def Proc.hand (p : Peer) : Proc → List Msg
  | .send src m => if src = p then [m] else []
  | _ => []
def InPump.hand : InPump → List Msg
  | .send m => [m]
  | _ => []
def InPump.alive : InPump → Bool
  | .exited _ => false
  | _ => true
def transit (s : State) (p : Peer) : List Msg :=
  (s.outPump p.other).hand ++ (s.outCh p.other).buf ++ s.proc.hand p ++ (s.inCh p).buf ++ (s.inPump p).hand

/-- What the handshake took from the stream of a peer. -/
def taken (s : State) (p : Peer) : Bytes := if p = .client then s.hsRead else []

/-- Case distinction over the transitions. -/
macro "session_cases" hs:ident : tactic => `(tactic| (
  unfold step at $hs:ident
  split at $hs:ident
  · simp at $hs:ident
  cases ‹Action› <;> simp only [State.fire, State.closeConn] at $hs:ident <;> (repeat' split at $hs:ident) <;>
    simp only [Option.some.injEq, reduceCtorEq] at $hs:ident <;> subst $hs:ident))

/-- Before the goroutines are started. -/
structure Early (s : State) : Prop where
  notSpawned : s.start = .notCalled ∨ s.start.inHandshake = true → s.proc = .notStarted
  spawned : s.start = .waiting ∨ s.start = .deferred false → s.proc ≠ .notStarted
  pumps : ∀ p, s.proc = .notStarted → s.inPump p = .notStarted ∧ s.outPump p = .notStarted ∧ (s.inCh p).buf = [] ∧
    (s.outCh p).buf = [] ∧ (s.conn p).sent = taken s p ++ (s.conn p).unread ∧ (s.conn p).written = s.hsWritten p
  pumps' : ∀ p, s.proc ≠ .notStarted → s.inPump p ≠ .notStarted ∧ s.outPump p ≠ .notStarted

theorem early_init : Early init := by
  constructor <;> simp [init, taken]

theorem early_step {s s' : State} {a : Action} (h : Early s) (hs : step s a = some s') : Early s' := by
  obtain ⟨h1, h2, h3, h4⟩ := h
  session_cases hs <;> constructor <;> grind [StartPC.inHandshake, upd_apply, taken, List.take_append_drop]

/-- Bookkeeping of the messages from `p` to the other end. -/
def RelayInv (s : State) (p : Peer) : Prop :=
  ∃ (dn : List Msg) (relayed rest torn : Bytes),
    (s.conn p).sent = taken s p ++ relayed ∧
    Spec.Stream relayed (dn ++ transit s p) rest ∧
    ((s.inPump p).alive = true → rest = (s.conn p).unread) ∧
    (s.conn p.other).written = s.hsWritten p.other ++ dn.flatMap sendMessage ++ torn ∧
    (torn = [] ∨ ∃ m e k, s.outPump p.other = .exited (some (m, e)) ∧ torn = (sendMessage m).take k) ∧
    ((s.inPump p).alive = false → s.fired = false →
      ((s.conn p).ended ≠ none ∧ Spec.NoMessage rest) ∨ ∀ x, Spec.NoMessage (rest ++ x))

theorem relay_init (p : Peer) : RelayInv init p := by
  refine ⟨[], [], [], [], ?_, ?_, ?_, ?_, .inl rfl, ?_⟩
  · cases p <;> rfl
  · exact .nil _
  · intro _; rfl
  · rfl
  · simp [init, InPump.alive]

theorem relay_frame {s s' : State} {p : Peer} (h : RelayInv s p) (h1 : (s'.conn p).sent = (s.conn p).sent)
    (h2 : taken s' p = taken s p) (h3 : transit s' p = transit s p)
    (h4 : (s'.inPump p).alive = true → (s.inPump p).alive = true ∧ (s'.conn p).unread = (s.conn p).unread)
    (h5 : (s'.conn p.other).written = (s.conn p.other).written) (h6 : s'.hsWritten p.other = s.hsWritten p.other)
    (h7 : ∀ m e, s.outPump p.other = .exited (some (m, e)) → s'.outPump p.other = .exited (some (m, e)))
    (h8 : (s'.inPump p).alive = false → s'.fired = false → (s.inPump p).alive = false ∧ s.fired = false ∧
      ((s.conn p).ended ≠ none → (s'.conn p).ended ≠ none)) :
    RelayInv s' p := by
  obtain ⟨dn, relayed, rest, torn, g1, g2, g3, g4, g5, g6⟩ := h
  refine ⟨dn, relayed, rest, torn, by rw [h1, h2, g1], by rw [h3]; exact g2, ?_, by rw [h5, h6, g4], ?_,
    fun k1 k2 => (g6 (h8 k1 k2).1 (h8 k1 k2).2.1).imp_left fun k => ⟨(h8 k1 k2).2.2 k.1, k.2⟩⟩
  · intro h; obtain ⟨a, b⟩ := h4 h; rw [b]; exact g3 a
  · rcases g5 with g5 | ⟨m, e, k, g5, g6⟩
    · exact .inl g5
    · exact .inr ⟨m, e, k, h7 m e g5, g6⟩

/-- Case distinction over the transitions of one kind. -/
macro "session_case" hs:ident : tactic => `(tactic| (
  unfold step at $hs:ident
  split at $hs:ident
  · simp at $hs:ident
  simp only [State.fire, State.closeConn] at $hs:ident
  (repeat' split at $hs:ident) <;> simp only [Option.some.injEq, reduceCtorEq] at $hs:ident <;> subst $hs:ident))

macro "relay_same" h:ident : tactic => `(tactic| (
  refine relay_frame $h ?_ ?_ ?_ ?_ ?_ ?_ ?_ ?_ <;>
    grind [StartPC.inHandshake, upd_apply, taken, transit, OutPump.hand, Proc.hand, InPump.hand, InPump.alive, Peer.other]))

section relay_steps
set_option linter.unusedSectionVars false
variable {s s' : State} (p : Peer) (he : Early s) (h : RelayInv s p)
include he h

theorem relay_peerSends {q bs} (hs : step s (.peerSends q bs) = some s') : RelayInv s' p := by
  session_case hs
  by_cases hq : p = q
  · subst hq
    obtain ⟨dn, relayed, rest, torn, g1, g2, g3, g4, g5, g6⟩ := h
    refine ⟨dn, relayed ++ bs, rest ++ bs, torn, ?_, g2.more bs, ?_, ?_, g5, ?_⟩
    · simp [g1, taken]
    · intro hx; simp [g3 hx]
    · simp [upd_other _ _ p.other_ne, g4]
    · intro k1 k2
      rcases g6 k1 k2 with k | k
      · exact absurd ‹(s.conn p).ended = none› k.1
      · exact .inr fun x => by rw [List.append_assoc]; exact k _
  · relay_same h

theorem relay_peerEnds {q e} (hs : step s (.peerEnds q e) = some s') : RelayInv s' p := by
  session_case hs
  relay_same h

theorem relay_callStart (hs : step s .callStart = some s') : RelayInv s' p := by
  session_case hs <;> relay_same h

theorem relay_callClose (hs : step s .callClose = some s') : RelayInv s' p := by
  session_case hs <;> relay_same h

theorem relay_hsFail (hs : step s .hsFail = some s') : RelayInv s' p := by
  session_case hs
  relay_same h

theorem relay_hsDial (hs : step s .hsDial = some s') : RelayInv s' p := by
  session_case hs
  relay_same h

theorem relay_hsAssign (hs : step s .hsAssign = some s') : RelayInv s' p := by
  session_case hs
  relay_same h

omit h in
theorem relay_early (hn : s.proc = .notStarted) : RelayInv s p := by
  obtain ⟨e1, e2, e3, e4⟩ := he
  have a := e3 p hn
  have b := e3 p.other hn
  refine ⟨[], (s.conn p).unread, (s.conn p).unread, [], a.2.2.2.2.1, ?_, fun _ => rfl, ?_, .inl rfl, by simp [a, InPump.alive]⟩
  · have : transit s p = [] := by simp [transit, a, b, hn, OutPump.hand, InPump.hand, Proc.hand]
    rw [this]; exact .nil _
  · simp [b]

omit h in
theorem relay_hsRead {n} (hs : step s (.hsRead n) = some s') : RelayInv s' p := by
  refine relay_early p (early_step he hs) ?_
  have := he.notSpawned
  session_case hs
  rename_i hn
  exact this (.inr (by rw [hn.1]; rfl))

omit h in
theorem relay_hsReply {bs} (hs : step s (.hsReply bs) = some s') : RelayInv s' p := by
  refine relay_early p (early_step he hs) ?_
  have := he.notSpawned
  session_case hs
  rename_i hn
  exact this (.inr (by rw [hn.1]; rfl))

theorem relay_hsStartup {bs ok} (hs : step s (.hsStartup bs ok) = some s') : RelayInv s' p := by
  have hn : s.proc = .notStarted := by
    have := he.notSpawned
    session_case hs <;> rename_i hn _ <;> exact this (.inr (by rw [hn.1]; rfl))
  obtain ⟨e1, e2, e3, e4⟩ := he
  have a := e3 p hn
  have b := e3 p.other hn
  clear h
  session_case hs
  · refine ⟨[], (s.conn p).unread, (s.conn p).unread, [], ?_, ?_, ?_, ?_, .inl rfl, by simp [a, InPump.alive]⟩
    · grind [upd_apply, taken]
    · simp only [transit, a, b, OutPump.hand, InPump.hand, Proc.hand]; exact .nil _
    · grind [upd_apply]
    · grind [upd_apply]
  · refine ⟨[], (s.conn p).unread, (s.conn p).unread, [], ?_, ?_, ?_, ?_, .inl rfl, by simp [a, InPump.alive]⟩
    · grind [upd_apply, taken]
    · simp only [transit, a, b, hn, OutPump.hand, InPump.hand, Proc.hand]; exact .nil _
    · grind [upd_apply]
    · grind [upd_apply]

theorem relay_inRecv {q} (ho : s.fired = false → s.proc ≠ .notStarted → (s.conn p).isOpen = true)
    (hs : step s (.inRecv q) = some s') : RelayInv s' p := by
  session_case hs
  · rename_i hp _ m unread ht
    by_cases hq : p = q
    · subst hq
      obtain ⟨dn, relayed, rest, torn, g1, g2, g3, g4, g5, g6⟩ := h
      obtain ⟨e, r, hr, hb⟩ := tryRecv_ok ht
      rw [g3 (by simp [hp, InPump.alive])] at g2
      refine ⟨dn, relayed, unread, torn, ?_, ?_, ?_, ?_, g5, by simp [InPump.alive]⟩
      · simp [g1, taken]
      · have := g2.snoc hr
        rw [hb] at this
        simpa [transit, hp, InPump.hand] using this
      · simp
      · simp [upd_other _ _ p.other_ne, g4]
    · relay_same h
  · rename_i hp _ e unread ht
    by_cases hq : p = q
    · subst hq
      obtain ⟨dn, relayed, rest, torn, g1, g2, g3, g4, g5, g6⟩ := h
      have hr := g3 (by simp [hp, InPump.alive])
      refine ⟨dn, relayed, rest, torn, ?_, ?_, ?_, ?_, g5, ?_⟩
      · simp [g1, taken]
      · simpa [transit, hp, InPump.hand] using g2
      · simp [InPump.alive]
      · simp [upd_other _ _ p.other_ne, g4]
      · intro _ hf
        have hn : s.proc ≠ .notStarted := fun hn => by have := (he.pumps p hn).1; rw [hp] at this; simp at this
        rw [hr]
        simpa using tryRecv_err (ho hf hn) ht
    · relay_same h
  · relay_same h

theorem relay_inSend {q} (hs : step s (.inSend q) = some s') : RelayInv s' p := by
  session_case hs <;> relay_same h

theorem relay_procRecv {q} (hs : step s (.procRecv q) = some s') : RelayInv s' p := by
  session_case hs <;> relay_same h

theorem relay_procSend (hs : step s .procSend = some s') : RelayInv s' p := by
  have hinj : ∀ a b : Peer, a.other = b.other → a = b := by intro a b; cases a <;> cases b <;> decide
  session_case hs <;> relay_same h

theorem relay_outRecv {q} (hs : step s (.outRecv q) = some s') : RelayInv s' p := by
  session_case hs <;> relay_same h

theorem relay_outWrite {q f} (hs : step s (.outWrite q f) = some s') : RelayInv s' p := by
  have hne := p.other_ne
  session_case hs
  · rename_i m hp _ _
    by_cases hq : p.other = q
    · subst hq
      obtain ⟨dn, relayed, rest, torn, g1, g2, g3, g4, g5, g6⟩ := h
      have ht : torn = [] := by
        rcases g5 with g5 | ⟨m', e, k, g5, _⟩
        · exact g5
        · rw [hp] at g5; simp at g5
      subst ht
      refine ⟨dn ++ [m], relayed, rest, [], ?_, ?_, ?_, ?_, .inl rfl, by simpa [upd_other _ _ hne.symm] using g6⟩
      · simp [upd_other _ _ hne.symm, g1, taken]
      · simpa [transit, hp, OutPump.hand] using g2
      · simpa [upd_other _ _ hne.symm] using g3
      · simp [g4]
    · relay_same h
  · rename_i m hp _ n e _
    by_cases hq : p.other = q
    · subst hq
      obtain ⟨dn, relayed, rest, torn, g1, g2, g3, g4, g5, g6⟩ := h
      have ht : torn = [] := by
        rcases g5 with g5 | ⟨m', e, k, g5, _⟩
        · exact g5
        · rw [hp] at g5; simp at g5
      subst ht
      refine ⟨dn, relayed, rest, (sendMessage m).take n, ?_, ?_, ?_, ?_, .inr ⟨m, e, n, by simp, rfl⟩, by simpa [upd_other _ _ hne.symm] using g6⟩
      · simp [upd_other _ _ hne.symm, g1, taken]
      · simpa [transit, hp, OutPump.hand] using g2
      · simpa [upd_other _ _ hne.symm] using g3
      · simp [g4]
    · relay_same h

theorem relay_closeStep (hs : step s .closeStep = some s') : RelayInv s' p := by
  session_case hs <;> relay_same h

theorem relay_join (hs : step s .join = some s') : RelayInv s' p := by
  session_case hs <;> relay_same h

theorem relay_startFinish (hs : step s .startFinish = some s') : RelayInv s' p := by
  session_case hs <;> relay_same h

theorem relay_step {a : Action} (ho : s.fired = false → s.proc ≠ .notStarted → (s.conn p).isOpen = true) (hs : step s a = some s') : RelayInv s' p := by
  cases a with
  | peerSends => exact relay_peerSends p he h hs
  | peerEnds => exact relay_peerEnds p he h hs
  | callStart => exact relay_callStart p he h hs
  | callClose => exact relay_callClose p he h hs
  | hsRead => exact relay_hsRead p he hs
  | hsReply => exact relay_hsReply p he hs
  | hsFail => exact relay_hsFail p he h hs
  | hsDial => exact relay_hsDial p he h hs
  | hsAssign => exact relay_hsAssign p he h hs
  | hsStartup => exact relay_hsStartup p he h hs
  | inRecv => exact relay_inRecv p he h ho hs
  | inSend => exact relay_inSend p he h hs
  | procRecv => exact relay_procRecv p he h hs
  | procSend => exact relay_procSend p he h hs
  | outRecv => exact relay_outRecv p he h hs
  | outWrite => exact relay_outWrite p he h hs
  | closeStep => exact relay_closeStep p he h hs
  | join => exact relay_join p he h hs
  | startFinish => exact relay_startFinish p he h hs

end relay_steps

end SessionModel
end Gevulot
