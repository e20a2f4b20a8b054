import Verif.Proofs.PiecesSim

/-!
# Reading and writing piece by piece refines doing it in one step: the steps
-/

namespace Gevulot.FullSession

theorem alive {parse : Bytes → Option ConnectionParams} {x x' : State} {a : Action} (h : step parse x a = some x') : x.base.crashed = false := by
  cases hc : x.base.crashed with
  | false => rfl
  | true =>
    exfalso
    have hs : ∀ (y : SessionModel.State) b, y.crashed = true → SessionModel.step y b = none := by
      intro y b hy; simp [SessionModel.step, hy]
    cases a with
    | base a => simp only [step] at h; split at h <;> simp [hs _ _ hc] at h
    | recvStartup =>
      simp only [step] at h
      (repeat' split at h) <;> simp [hs _ _ hc, State.crash, hc] at h
    | _ =>
      simp only [step, State.fail] at h
      (repeat' split at h) <;> simp_all

end Gevulot.FullSession

namespace Gevulot.Pieces

open SessionModel (Peer PeerConn)

variable {parse : Bytes → Option ConnectionParams}

/-! ### Reading -/

/-- The connection of `p` after `n` bytes were read from it. -/
def dropped (conn : Peer → PeerConn) (p : Peer) (n : Nat) : Peer → PeerConn := upd conn p { conn p with unread := (conn p).unread.drop n }

theorem absPump_read (conn : Peer → PeerConn) (pump : Peer → SessionModel.OutPump) (w : Peer → Nat) (p : Peer) (n : Nat) :
    absPump (dropped conn p n) pump w = absPump conn pump w := by
  funext q
  refine absPump_congr (.inl ?_)
  by_cases hq : q = p
  · subst hq; simp [dropped]
  · rw [dropped, upd_other _ _ hq]

theorem absConn_read (conn : Peer → PeerConn) (r : Peer → Bytes) (w : Peer → Nat) (p : Peer) (n : Nat) :
    absConn (dropped conn p n) (upd r p (r p ++ (conn p).unread.take n)) w = absConn conn r w := by
  funext q
  by_cases hq : q = p
  · subst hq; simp [absConn, dropped]
  · exact absConn_congr (by rw [dropped, upd_other _ _ hq]) (by rw [upd_other _ _ hq]) rfl

theorem absBase_read (b : SessionModel.State) (r : Peer → Bytes) (w : Peer → Nat) (p : Peer) (n : Nat) :
    absBase { b with conn := dropped b.conn p n } (upd r p (r p ++ (b.conn p).unread.take n)) w = absBase b r w := by
  simp only [absBase, absConn_read, absPump_read]

/-- The connections when the bytes read are no longer kept. -/
theorem absConn_forget (conn : Peer → PeerConn) (r : Peer → Bytes) (w : Peer → Nat) (p : Peer) (n : Nat) :
    absConn (dropped conn p n) (upd r p []) w = upd (absConn conn r w) p { absConn conn r w p with unread := (conn p).unread.drop n } := by
  funext q
  by_cases hq : q = p
  · subst hq; simp [absConn, dropped]
  · rw [upd_other _ _ hq]; exact absConn_congr (by rw [dropped, upd_other _ _ hq]) (by rw [upd_other _ _ hq]) rfl

/-- An in pump has received something. -/
def received (b : SessionModel.State) (p : Peer) (rest : Bytes) : Res Msg → SessionModel.State
  | .ok m => { b with inPump := upd b.inPump p (.send m), conn := upd b.conn p { b.conn p with unread := rest } }
  | .err e => { b with inPump := upd b.inPump p (.exited e), conn := upd b.conn p { b.conn p with unread := rest } }
  | .panic _ => { b with crashed := true }

theorem step_inRecv {b : SessionModel.State} {p : Peer} {o : Res Msg} {rest : Bytes} (hc : b.crashed = false) (hp : b.inPump p = .recv)
    (h : SessionModel.tryRecv (b.conn p) = some (o, rest)) :
    SessionModel.step b (.inRecv p) = some (received b p rest o) := by
  simp only [SessionModel.step, hc, hp, h]
  cases o <;> simp [received, hc]

theorem tryRecv_abs {conn : Peer → PeerConn} {r : Peer → Bytes} {w : Peer → Nat} {p : Peer} {n : Nat} (ho : (conn p).isOpen = true)
    (h : (r p ++ (conn p).unread.take n).length = standardTarget (r p ++ (conn p).unread.take n)) :
    SessionModel.tryRecv (absConn conn r w p) = some (parseMessage (.standard (r p ++ (conn p).unread.take n)), (conn p).unread.drop n) :=
  tryRecv_complete ho (by simp [absConn]) h

theorem tryRecv_fails {conn : Peer → PeerConn} {r : Peer → Bytes} {w : Peer → Nat} {p : Peer} {e : Err} (he : readError (conn p) = some e)
    (h : (r p).length < standardTarget (r p)) :
    SessionModel.tryRecv (absConn conn r w p) = some (.err e, if (conn p).isOpen then [] else r p ++ (conn p).unread) := by
  unfold readError at he
  split at he
  · rename_i ho
    simp only [Option.some.injEq] at he
    subst he
    unfold SessionModel.tryRecv
    rw [if_pos (by simpa [absConn] using ho)]
    simp [absConn, ho]
  · rename_i ho
    split at he
    · rename_i hu
      have ho : (conn p).isOpen = true := by simpa using ho
      rw [tryRecv_waiting (by simpa [absConn] using ho) (by simpa [absConn, hu] using h)]
      simp [absConn, he, ho]
    · simp at he

theorem tryRecvStartup_abs {conn : Peer → PeerConn} {r : Peer → Bytes} {w : Peer → Nat} {p : Peer} {n : Nat} (ho : (conn p).isOpen = true)
    (h : (r p ++ (conn p).unread.take n).length = startupTarget (r p ++ (conn p).unread.take n)) :
    FullSession.tryRecvStartup (absConn conn r w p) = some (parseStartupMessage (.startup (r p ++ (conn p).unread.take n)), (conn p).unread.drop n) :=
  tryRecvStartup_complete ho (by simp [absConn]) h

theorem tryRecvStartup_fails {conn : Peer → PeerConn} {r : Peer → Bytes} {w : Peer → Nat} {p : Peer} {e : Err} (he : readError (conn p) = some e)
    (h : (r p).length < startupTarget (r p)) :
    FullSession.tryRecvStartup (absConn conn r w p) = some (.err e, if (conn p).isOpen then [] else r p ++ (conn p).unread) := by
  unfold readError at he
  split at he
  · rename_i ho
    simp only [Option.some.injEq] at he
    subst he
    unfold FullSession.tryRecvStartup
    rw [if_pos (by simpa [absConn] using ho)]
    simp [absConn, ho]
  · rename_i ho
    split at he
    · rename_i hu
      have ho : (conn p).isOpen = true := by simpa using ho
      rw [tryRecvStartup_waiting (by simpa [absConn] using ho) (by simpa [absConn, hu] using h)]
      simp [absConn, he, ho]
    · simp at he

/-! ### Writing -/

/-- The connection of `p` after `bs` was written to it. -/
def wroteTo (conn : Peer → PeerConn) (p : Peer) (bs : Bytes) : Peer → PeerConn := upd conn p { conn p with written := (conn p).written ++ bs }

theorem absPump_wroteTo (conn : Peer → PeerConn) (pump : Peer → SessionModel.OutPump) (w w' : Peer → Nat) (p : Peer) (bs : Bytes) (ho : (conn p).isOpen = true)
    (hw : ∀ q, q ≠ p → w' q = w q) : absPump (wroteTo conn p bs) pump w' = absPump conn pump w := by
  funext q
  unfold absPump
  have : cut (wroteTo conn p bs) w' q = cut conn w q := by
    by_cases hq : q = p
    · subst hq; simp [cut, wroteTo, ho]
    · simp [cut, wroteTo, upd_other _ _ hq, hw q hq]
  rw [this]

/-- A part of a message counts as not written. -/
theorem absConn_part (conn : Peer → PeerConn) (r : Peer → Bytes) (w : Peer → Nat) (p : Peer) (bs : Bytes) (ho : (conn p).isOpen = true)
    (hl : w p ≤ (conn p).written.length) : absConn (wroteTo conn p bs) r (upd w p (w p + bs.length)) = absConn conn r w := by
  funext q
  by_cases hq : q = p
  · subst hq
    simp only [absConn, wroteTo, upd_same, ho, if_true, List.length_append, PeerConn.mk.injEq, true_and, and_true]
    rw [show (conn q).written.length + bs.length - (w q + bs.length) = (conn q).written.length - w q by omega]
    rw [List.take_append_of_le_length (by omega)]
  · exact absConn_congr (by rw [wroteTo, upd_other _ _ hq]) rfl (upd_other _ _ hq)

theorem absConn_written {conn : Peer → PeerConn} {r : Peer → Bytes} {w : Peer → Nat} {p : Peer} {pre bytes : Bytes} (ho : (conn p).isOpen = true ∨ w p = 0)
    (hpre : (conn p).written = pre ++ bytes.take (w p)) (hl : w p ≤ bytes.length) : (absConn conn r w p).written = pre := by
  have h : ∀ x : Nat, x = w p → (pre ++ bytes.take x).take ((pre ++ bytes.take x).length - x) = pre := by
    intro x hx
    rw [List.length_append, List.length_take, show pre.length + min x bytes.length - x = pre.length by omega]
    simp
  rcases ho with ho | ho
  · simp only [absConn, ho, if_true, hpre]; exact h _ rfl
  · simp only [absConn]
    split
    · rw [hpre]; exact h _ rfl
    · rw [hpre, ho]; simp

theorem absConn_forgetWrote {conn conn' : Peer → PeerConn} {r : Peer → Bytes} {w : Peer → Nat} {p : Peer} (h : ∀ q, q ≠ p → conn' q = conn q) :
    absConn conn' r (upd w p 0) = upd (absConn conn r w) p { conn' p with unread := r p ++ (conn' p).unread } := by
  funext q
  by_cases hq : q = p
  · subst hq; simp [absConn_zero]
  · rw [upd_other _ _ hq]; exact absConn_congr (h q hq) rfl (upd_other _ _ hq)

theorem absPump_forget {conn conn' : Peer → PeerConn} {pump : Peer → SessionModel.OutPump} {w : Peer → Nat} {p : Peer} {x : SessionModel.OutPump}
    (h : ∀ q, q ≠ p → conn' q = conn q) : absPump conn' (upd pump p x) (upd w p 0) = upd (absPump conn pump w) p x := by
  funext q
  by_cases hq : q = p
  · subst hq; simp only [absPump, cut, upd_same]; cases x <;> simp
  · simp only [absPump, cut, upd_other _ _ hq, h q hq]
    cases pump q <;> rfl

theorem absPump_present {conn : Peer → PeerConn} {pump : Peer → SessionModel.OutPump} {w : Peer → Nat} {p : Peer} {m : Msg} (hm : pump p = .write m)
    (ho : (conn p).isOpen = true ∨ w p = 0) : absPump conn pump w p = .write m := by
  have : cut conn w p = false := by rcases ho with ho | ho <;> simp [cut, ho]
  simp [absPump, hm, this]

theorem absBase_written {b : SessionModel.State} {r : Peer → Bytes} {w : Peer → Nat} {p : Peer} {m : Msg} {pre : Bytes} (hc : b.crashed = false)
    (hm : b.outPump p = .write m) (ho : (b.conn p).isOpen = true) (hpre : (b.conn p).written = pre ++ (sendMessage m).take (w p)) (hl : w p ≤ (sendMessage m).length) :
    SessionModel.step (absBase b r w) (.outWrite p none) =
      some (absBase { b with conn := wroteTo b.conn p ((sendMessage m).drop (w p)), outPump := upd b.outPump p .recv } r (upd w p 0)) := by
  have e1 : (absBase b r w).outPump p = .write m := absPump_present hm (.inl ho)
  have e2 : ((absBase b r w).conn p).isOpen = true := ho
  have e3 : ((absBase b r w).conn p).written = pre := absConn_written (.inl ho) hpre hl
  simp only [SessionModel.step, e1, e2, e3]
  rw [if_neg (by simp [absBase, hc]), if_pos trivial]
  simp only [absBase, Option.some.injEq, SessionModel.State.mk.injEq, and_true, true_and]
  have hne : ∀ q, q ≠ p → wroteTo b.conn p ((sendMessage m).drop (w p)) q = b.conn q := fun q hq => upd_other _ _ hq
  rw [absConn_forgetWrote hne, absPump_forget hne]
  refine ⟨?_, rfl⟩
  simp [wroteTo, hpre, absConn, ho]

theorem absBase_writeFails {b : SessionModel.State} {r : Peer → Bytes} {w : Peer → Nat} {p : Peer} {m : Msg} {e : Err} {pre : Bytes} (hc : b.crashed = false)
    (hm : b.outPump p = .write m) (ho : (b.conn p).isOpen = true ∨ w p = 0) (hpre : (b.conn p).written = pre ++ (sendMessage m).take (w p))
    (hl : w p ≤ (sendMessage m).length) :
    SessionModel.step (absBase b r w) (.outWrite p (some (w p, e))) =
      some (absBase { b with outPump := upd b.outPump p (.exited (some (m, e))) } r (upd w p 0)) := by
  have e1 : (absBase b r w).outPump p = .write m := absPump_present hm ho
  have e2 : ((absBase b r w).conn p).isOpen = (b.conn p).isOpen := rfl
  have e3 : ((absBase b r w).conn p).written = pre := absConn_written ho hpre hl
  simp only [SessionModel.step, e1, e2, e3]
  rw [if_neg (by simp [absBase, hc]), if_pos ho]
  simp only [absBase, Option.some.injEq, SessionModel.State.mk.injEq, and_true, true_and]
  rw [absConn_forgetWrote (fun _ _ => rfl), absPump_forget (fun _ _ => rfl)]
  refine ⟨?_, rfl⟩
  rw [← hpre]
  simp [absConn]

/-- A write that was cut off counts as failed. -/
theorem absBase_cut {b : SessionModel.State} {r : Peer → Bytes} {w : Peer → Nat} {p : Peer} {m : Msg} (hm : b.outPump p = .write m)
    (ho : (b.conn p).isOpen = false) (hw : 0 < w p) :
    absBase { b with outPump := upd b.outPump p (.exited (some (m, .io 0))) } r (upd w p 0) = absBase b r w := by
  simp only [absBase, SessionModel.State.mk.injEq, and_true, true_and]
  rw [absConn_forgetWrote (fun _ _ => rfl), absPump_forget (fun _ _ => rfl)]
  constructor
  · funext q; by_cases hq : q = p
    · subst hq; simp [absConn, ho]
    · rw [upd_other _ _ hq]
  · funext q; by_cases hq : q = p
    · subst hq; simp [absPump, cut, hm, ho, hw]
    · rw [upd_other _ _ hq]

/-! ### The startup message -/

theorem absPump_idle {conn : Peer → PeerConn} {pump : Peer → SessionModel.OutPump} {w : Peer → Nat} (h : ∀ p m, pump p ≠ .write m) : absPump conn pump w = pump := by
  funext q
  have := h q
  unfold absPump
  cases hx : pump q <;> simp_all

theorem absBase_startup {b : SessionModel.State} {r : Peer → Bytes} {w : Peer → Nat} {bytes pre : Bytes} (hc : b.crashed = false) (hst : b.start = .assigned)
    (hn : ∀ p, b.outPump p = .notStarted) (ho : (b.conn .db).isOpen = true) (hpre : (b.conn .db).written = pre ++ bytes.take (w .db)) (hl : w .db ≤ bytes.length) :
    SessionModel.step (absBase b r w) (.hsStartup bytes true) =
      some (absBase { b with conn := wroteTo b.conn .db (bytes.drop (w .db)), hsWritten := upd b.hsWritten .db (b.hsWritten .db ++ bytes), inPump := (fun _ => .recv), outPump := (fun _ => .recv), proc := .select, start := .waiting } r (upd w .db 0)) := by
  have e2 : ((absBase b r w).conn .db).isOpen = true := ho
  have e3 : ((absBase b r w).conn .db).written = pre := absConn_written (.inl ho) hpre hl
  have e4 : (absBase b r w).start = .assigned := hst
  simp only [SessionModel.step, e2, e3, e4]
  rw [if_neg (by simp [absBase, hc]), if_pos (by simp), if_pos trivial]
  simp only [absBase, Option.some.injEq, SessionModel.State.mk.injEq, and_true, true_and]
  have hne : ∀ q, q ≠ .db → wroteTo b.conn .db (bytes.drop (w .db)) q = b.conn q := fun q hq => upd_other _ _ hq
  rw [absConn_forgetWrote hne, absPump_idle (by simp)]
  refine ⟨?_, rfl⟩
  simp [wroteTo, hpre, absConn, ho]

theorem absBase_startupFails {b : SessionModel.State} {r : Peer → Bytes} {w : Peer → Nat} {bytes pre : Bytes} (hc : b.crashed = false) (hst : b.start = .assigned)
    (hn : ∀ p, b.outPump p = .notStarted) (ho : (b.conn .db).isOpen = true ∨ w .db = 0) (hpre : (b.conn .db).written = pre ++ bytes.take (w .db)) (hl : w .db ≤ bytes.length) :
    SessionModel.step (absBase b r w) (.hsStartup (bytes.take (w .db)) false) =
      some (absBase { b with hsWritten := upd b.hsWritten .db (b.hsWritten .db ++ bytes.take (w .db)), start := .deferred true } r (upd w .db 0)) := by
  have e2 : ((absBase b r w).conn .db).isOpen = (b.conn .db).isOpen := rfl
  have e3 : ((absBase b r w).conn .db).written = pre := absConn_written ho hpre hl
  have e4 : (absBase b r w).start = .assigned := hst
  simp only [SessionModel.step, e2, e3, e4]
  rw [if_neg (by simp [absBase, hc]), if_pos (by rcases ho with ho | ho <;> simp [ho]), if_neg (by simp)]
  simp only [absBase, Option.some.injEq, SessionModel.State.mk.injEq, and_true, true_and]
  rw [absConn_forgetWrote (fun _ _ => rfl), absPump_idle (by simp [hn]), absPump_idle (by simp [hn])]
  refine ⟨?_, rfl⟩
  rw [← hpre]
  simp [absConn]

/-! ### The whole session -/

theorem abs_eq {s : State} (h : cutStartup s = none) : abs s = { s.sess with base := absBase s.sess.base s.rbuf s.wrote } := by
  unfold abs; rw [h]

theorem cutStartup_of_hs {s : State} (h : ∀ m, s.sess.hs ≠ .startup m) : cutStartup s = none := by
  unfold cutStartup
  split
  · rename_i m hm; exact absurd hm (h m)
  · rfl

theorem cutStartup_of_wrote {s : State} (h : s.wrote .db = 0) : cutStartup s = none := by
  unfold cutStartup cut
  split
  · simp [h]
  · rfl

theorem cutStartup_of_open {s : State} (h : (s.sess.base.conn .db).isOpen = true) : cutStartup s = none := by
  unfold cutStartup cut
  split
  · simp [h]
  · rfl

theorem cutStartup_congr {s s' : State} (h1 : s'.sess.hs = s.sess.hs) (h2 : (s'.sess.base.conn .db).isOpen = (s.sess.base.conn .db).isOpen) (h3 : s'.wrote .db = s.wrote .db) :
    cutStartup s' = cutStartup s := by
  unfold cutStartup cut
  rw [h1, h2, h3]

/-- Steps that receive and write messages; only if `F`, the startup message could not be sent. -/
def Sim (parse : Bytes → Option ConnectionParams) (F : Prop) (t t' : FullSession.State) : Prop :=
  ∃ acts, (∀ a ∈ acts, replaced a = true ∧ ∀ k, a = .startup (some k) → F) ∧ run (FullSession.step parse) t acts = some t'

theorem Sim.refl {F : Prop} {t : FullSession.State} : Sim parse F t t := ⟨[], by simp, rfl⟩

theorem Sim.one {F : Prop} {t t' : FullSession.State} {a : FullSession.Action} (h : FullSession.step parse t a = some t') (hr : replaced a = true := by rfl)
    (hF : ∀ k, a = .startup (some k) → F := by simp) : Sim parse F t t' := ⟨[a], by simp [hr]; exact hF, by simp [run, h]⟩

theorem Sim.trans {F : Prop} {t u v : FullSession.State} (h1 : Sim parse F t u) (h2 : Sim parse F u v) : Sim parse F t v := by
  obtain ⟨a1, g1, h1⟩ := h1
  obtain ⟨a2, g2, h2⟩ := h2
  exact ⟨a1 ++ a2, fun a h => (List.mem_append.mp h).elim (g1 a) (g2 a), by rw [run_append, h1]; exact h2⟩

theorem sim_base {F : Prop} {t : FullSession.State} {b' : SessionModel.State} {a : SessionModel.Action} (hh : FullSession.isHandshake a = false)
    (hc : a ≠ .callStart) (h : SessionModel.step t.base a = some b') (hr : replaced (.base a) = true := by rfl) : Sim parse F t { t with base := b' } := by
  refine .one (a := .base a) ?_ hr
  simp [FullSession.step, hh, h, hc]

/-- The step `a`, and if it closes a connection, perhaps a failing write before it. -/
def Then (parse : Bytes → Option ConnectionParams) (F : Prop) (a : FullSession.Action) (t t' : FullSession.State) : Prop :=
  ∃ u, Sim parse F t u ∧ FullSession.step parse u a = some t' ∧ (a ≠ .base .closeStep → u = t)

theorem Then.one {F : Prop} {t t' : FullSession.State} {a : FullSession.Action} (h : FullSession.step parse t a = some t') : Then parse F a t t' :=
  ⟨t, .refl, h, fun _ => rfl⟩

theorem then_base {F : Prop} {t : FullSession.State} {b' : SessionModel.State} {a : SessionModel.Action} (hh : FullSession.isHandshake a = false)
    (hc : a ≠ .callStart) (h : SessionModel.step t.base a = some b') : Then parse F (.base a) t { t with base := b' } := by
  refine .one ?_
  simp [FullSession.step, hh, h, hc]

theorem Then.after {F : Prop} {t u v : FullSession.State} (h : Sim parse F t u) (h2 : Then parse F (.base .closeStep) u v) : Then parse F (.base .closeStep) t v := by
  obtain ⟨w, g1, g2, _⟩ := h2
  exact ⟨w, h.trans g1, g2, by simp⟩

/-- The connection to the database is about to be closed although the startup message is still being sent. -/
def Closing (s : State) : Prop := s.sess.base.closer = .closeDB ∧ (s.sess.base.conn .db).isOpen = true ∧ ∃ m, s.sess.hs = .startup m

theorem open_frame {b b' : SessionModel.State} {a : SessionModel.Action} (hh : FullSession.isHandshake a = false) (hc : a ≠ .closeStep)
    (hs : SessionModel.step b a = some b') (p : Peer) : (b'.conn p).isOpen = (b.conn p).isOpen := by
  unfold SessionModel.step at hs
  split at hs
  · simp at hs
  cases a <;> simp only [FullSession.isHandshake, reduceCtorEq] at hh <;> simp only [SessionModel.State.fire] at hs <;> (repeat' split at hs) <;>
    simp only [Option.some.injEq, reduceCtorEq] at hs <;> subst hs <;> grind [upd_apply]

/-- Once `Start` has failed (here: counts as failed), it makes no difference to what others do. -/
theorem start_frame {b b' : SessionModel.State} {a : SessionModel.Action} {x : SessionModel.StartPC} {y : Peer → Bytes}
    (ha : (∃ p bs, a = .peerSends p bs) ∨ (∃ p e, a = .peerEnds p e) ∨ a = .closeStep ∨ a = .callClose ∧ b.fired = true)
    (hs : SessionModel.step b a = some b') :
    SessionModel.step { b with start := x, hsWritten := y } a = some { b' with start := x, hsWritten := y } ∧ b'.start = b.start ∧ b'.hsWritten = b.hsWritten := by
  unfold SessionModel.step at hs ⊢
  split at hs
  · simp at hs
  rename_i hcr
  rw [if_neg hcr]
  rcases ha with ⟨p, bs, rfl⟩ | ⟨p, e, rfl⟩ | rfl | ⟨rfl, hf⟩
  · simp only at hs ⊢
    split at hs
    · simp only [Option.some.injEq] at hs; subst hs; simp_all
    · simp at hs
  · simp only at hs ⊢
    split at hs
    · simp only [Option.some.injEq] at hs; subst hs; simp_all
    · simp at hs
  · simp only [SessionModel.State.closeConn] at hs ⊢
    (repeat' split at hs) <;> simp only [Option.some.injEq, reduceCtorEq] at hs <;> subst hs <;> simp_all
  · simp only [hf, if_true] at hs ⊢
    simp only [Option.some.injEq] at hs; subst hs; simp [hf]

theorem closeConn_open (b : SessionModel.State) (p q : Peer) :
    ((b.closeConn p).conn q).isOpen = if q = p ∧ (b.conn p).assigned = true then false else (b.conn q).isOpen := by
  unfold SessionModel.State.closeConn
  by_cases ha : (b.conn p).assigned = true
  · by_cases hq : q = p
    · subst hq; simp [ha]
    · simp [ha, hq, upd_other _ _ hq]
  · simp [ha]

theorem close_frame {b b' : SessionModel.State} (hs : SessionModel.step b .closeStep = some b') :
    (∀ p, (b'.conn p).isOpen = true → (b.conn p).isOpen = true) ∧
    (∀ p, (b'.conn p).isOpen = (b.conn p).isOpen ∨ (b.conn p).isOpen = true ∧ (b.conn p).assigned = true ∧
      (p = .client ∧ b.closer = .closeClient ∧ b' = { b.closeConn .client with closer := .closeDB } ∨
       p = .db ∧ b.closer = .closeDB ∧ b' = { b.closeConn .db with closer := .closeClientIn })) := by
  unfold SessionModel.step at hs
  split at hs
  · simp at hs
  simp only at hs
  (repeat' split at hs) <;> simp only [Option.some.injEq, reduceCtorEq] at hs <;> subst hs <;> refine ⟨fun q => ?_, fun q => ?_⟩ <;>
    cases q <;> simp only [closeConn_open] <;> grind [upd_apply]

/-- Closing a connection in the middle of a message of its out pump. -/
theorem close_pump {b b' : SessionModel.State} {r : Peer → Bytes} {w : Peer → Nat} {p : Peer} {m : Msg} {pre : Bytes} {c : SessionModel.CloserPC} (hcr : b.crashed = false)
    (hm : b.outPump p = .write m) (ho : (b.conn p).isOpen = true) (ha : (b.conn p).assigned = true) (hw : 0 < w p)
    (hpre : (b.conn p).written = pre ++ (sendMessage m).take (w p)) (hl : w p ≤ (sendMessage m).length)
    (hb : b' = { b.closeConn p with closer := c }) (hc : p = .client ∧ b.closer = .closeClient ∧ c = .closeDB ∨ p = .db ∧ b.closer = .closeDB ∧ c = .closeClientIn) :
    run SessionModel.step (absBase b r w) [.outWrite p (some (w p, .io 0)), .closeStep] = some (absBase b' r w) := by
  have h1 := absBase_writeFails (r := r) (e := .io 0) hcr hm (.inl ho) hpre hl
  have h2 : SessionModel.step { b with outPump := upd b.outPump p (.exited (some (m, .io 0))) } .closeStep =
      some { b' with outPump := upd b'.outPump p (.exited (some (m, .io 0))) } := by
    subst hb
    rcases hc with ⟨rfl, hc, rfl⟩ | ⟨rfl, hc, rfl⟩ <;> simp [SessionModel.step, hcr, hc, SessionModel.State.closeConn, ha]
  have h3 := absBase_close (r := r) (w := upd w p 0) (by
      intro hx; rcases hc with ⟨rfl, hc, rfl⟩ | ⟨rfl, hc, rfl⟩
      · exact .inl (upd_same _ _ _)
      · simp [hc] at hx) (by
      intro hx; rcases hc with ⟨rfl, hc, rfl⟩ | ⟨rfl, hc, rfl⟩
      · simp [hc] at hx
      · exact .inl (upd_same _ _ _)) h2
  have h4 : absBase { b' with outPump := upd b'.outPump p (.exited (some (m, .io 0))) } r (upd w p 0) = absBase b' r w := by
    refine absBase_cut ?_ ?_ hw
    · subst hb; simpa [SessionModel.State.closeConn, ha] using hm
    · subst hb; simp [SessionModel.State.closeConn, ha]
  simp only [run, h1, h3, h4, Option.bind_some]

/-- Closing the database's connection in the middle of the startup message. -/
theorem close_startup {b b' : SessionModel.State} {r : Peer → Bytes} {w : Peer → Nat} {bytes pre : Bytes} (hcr : b.crashed = false) (hst : b.start = .assigned)
    (hn : ∀ p, b.outPump p = .notStarted) (ho : (b.conn .db).isOpen = true) (ha : (b.conn .db).assigned = true)
    (hpre : (b.conn .db).written = pre ++ bytes.take (w .db)) (hl : w .db ≤ bytes.length)
    (hb : b' = { b.closeConn .db with closer := .closeClientIn }) (hc : b.closer = .closeDB) :
    run SessionModel.step (absBase b r w) [.hsStartup (bytes.take (w .db)) false, .closeStep] =
      some { absBase b' r w with start := .deferred true, hsWritten := upd b.hsWritten .db (b.hsWritten .db ++ bytes.take (w .db)) } := by
  have h1 := absBase_startupFails (r := r) hcr hst hn (.inl ho) hpre hl
  have h2 : SessionModel.step { b with hsWritten := upd b.hsWritten .db (b.hsWritten .db ++ bytes.take (w .db)), start := .deferred true } .closeStep =
      some { b' with hsWritten := upd b.hsWritten .db (b.hsWritten .db ++ bytes.take (w .db)), start := .deferred true } := by
    subst hb
    simp [SessionModel.step, hcr, hc, SessionModel.State.closeConn, ha]
  have h3 := absBase_close (r := r) (w := upd w .db 0) (by simp [hc]) (by intro _; exact .inl (upd_same _ _ _)) h2
  simp only [run, h1, h3, Option.bind_some, Option.some.injEq]
  have hn' : b'.outPump = b.outPump := by subst hb; simp [SessionModel.State.closeConn, ha]
  have ho' : (b'.conn .db).isOpen = false := by subst hb; simp [SessionModel.State.closeConn, ha]
  simp only [absBase, SessionModel.State.mk.injEq, and_true, true_and]
  rw [absPump_idle (by simp [hn', hn]), absPump_idle (by simp [hn', hn])]
  refine ⟨?_, rfl⟩
  rw [absConn_forgetWrote (fun _ _ => rfl)]
  funext q; by_cases hq : q = .db
  · subst hq; simp [absConn, ho']
  · rw [upd_other _ _ hq]

theorem sim_basestep {s : State} {b' : SessionModel.State} {a : SessionModel.Action} (hi : Inv s) (hr : replaced (.base a) = false)
    (hh : FullSession.isHandshake a = false) (hs : SessionModel.step s.sess.base a = some b') :
    Then parse (Closing s) (.base a) (abs s) (abs { s with sess := { s.sess with base := b', hs := if a = .callStart ∧ b'.start = .negotiating then .recv else s.sess.hs } }) := by
  have hcr := not_crashed hs
  have hrec : ∀ p, s.sess.base.outPump p = .recv → s.wrote p = 0 := by
    intro p hp
    refine Nat.eq_zero_of_not_pos fun h => ?_
    obtain ⟨m, g | ⟨_, x, g, _⟩, _⟩ := hi.wrote p h
    · rw [hp] at g; simp at g
    · have := ((hi.pumps (.inr (by have := hi.hs; rw [g] at this; revert this; cases s.sess.base.start <;> simp [hsOk, SessionModel.StartPC.inHandshake]))).1 p).2
      rw [hp] at this; simp at this
  cases hcut : cutStartup s with
  | some m =>
    have hm : s.sess.hs = .startup m ∧ (s.sess.base.conn .db).isOpen = false ∧ 0 < s.wrote .db := by
      unfold cutStartup at hcut
      split at hcut
      · split at hcut
        · simp_all [cut]
        · simp at hcut
      · simp at hcut
    obtain ⟨hm, ho, hw⟩ := hm
    have hst : s.sess.base.start = .assigned := by have := hi.hs; rw [hm] at this; revert this; cases s.sess.base.start <;> simp [hsOk]
    have hf : s.sess.base.fired = true := by
      have := hi.opened (.inr hst)
      cases hf : s.sess.base.fired <;> simp_all
    obtain ⟨hp, hproc⟩ := hi.pumps (.inr (by simp [hst, SessionModel.StartPC.inHandshake]))
    have ha : (∃ p bs, a = .peerSends p bs) ∨ (∃ p e, a = .peerEnds p e) ∨ a = .closeStep ∨ a = .callClose ∧ s.sess.base.fired = true := by
      unfold SessionModel.step at hs
      rw [if_neg (by simp [hcr])] at hs
      cases a <;> simp [FullSession.isHandshake, replaced, hp, hproc, hst] at hh hr hs ⊢
      exact hf
    have hac : a ≠ .callStart := by rintro rfl; simp at ha
    rw [if_neg (by simp [hac])]
    have hstep : SessionModel.step (absBase s.sess.base s.rbuf s.wrote) a = some (absBase b' s.rbuf s.wrote) := by
      by_cases hcl : a = .closeStep
      · subst hcl
        refine absBase_close (fun _ => .inl ?_) (fun _ => .inr (.inl ho)) hs
        refine Nat.eq_zero_of_not_pos fun h => ?_
        obtain ⟨m', g | ⟨g, _⟩, _⟩ := hi.wrote .client h
        · simp [hp] at g
        · simp at g
      · refine absBase_step hrec ?_ hs
        cases a <;> simp_all [plain]
    have hcut' : cutStartup { s with sess := { s.sess with base := b' } } = some m := by
      have : (b'.conn .db).isOpen = false := by
        by_cases hcl : a = .closeStep
        · subst hcl
          have := (close_frame hs).1 .db
          cases hx : (b'.conn .db).isOpen
          · rfl
          · rw [this hx] at ho; simp at ho
        · rw [open_frame hh hcl hs]; exact ho
      simp [cutStartup, hm, cut, this, hw]
    unfold abs
    rw [hcut, hcut']
    simp only
    obtain ⟨h1, h2, h3⟩ := start_frame (b := absBase s.sess.base s.rbuf s.wrote) (x := .deferred true) (y := upd (absBase s.sess.base s.rbuf s.wrote).hsWritten .db ((absBase s.sess.base s.rbuf s.wrote).hsWritten .db ++ (sendMessage (.startup m)).take (s.wrote .db))) ha hstep
    rw [h3]
    exact then_base (t := { s.sess with hs := .idle, base := { absBase s.sess.base s.rbuf s.wrote with start := .deferred true, hsWritten := upd (absBase s.sess.base s.rbuf s.wrote).hsWritten .db ((absBase s.sess.base s.rbuf s.wrote).hsWritten .db ++ (sendMessage (.startup m)).take (s.wrote .db)) } }) hh hac h1
  | none =>
    rw [abs_eq hcut]
    by_cases hcl : a = .closeStep
    · subst hcl
      simp only [reduceCtorEq, false_and, if_false]
      obtain ⟨_, hfr⟩ := close_frame hs
      by_cases hq : ∃ q, 0 < s.wrote q ∧ (b'.conn q).isOpen ≠ (s.sess.base.conn q).isOpen
      · obtain ⟨q, hw, hne⟩ := hq
        obtain ⟨ho, has, hcl⟩ := (hfr q).resolve_left hne
        obtain ⟨m, hm, hl, pre, hpre⟩ := hi.wrote q hw
        rcases hm with hm | ⟨rfl, x, hm, rfl⟩
        · have hcut' : cutStartup { s with sess := { s.sess with base := b' } } = none := by
            refine cutStartup_of_hs fun x hx => ?_
            have := ((hi.pumps (.inr (by have := hi.hs; rw [hx] at this; revert this; cases s.sess.base.start <;> simp [hsOk, SessionModel.StartPC.inHandshake]))).1 q).2
            rw [hm] at this; simp at this
          rw [abs_eq hcut']
          have key : run SessionModel.step (absBase s.sess.base s.rbuf s.wrote) [.outWrite q (some (s.wrote q, .io 0)), .closeStep] = some (absBase b' s.rbuf s.wrote) := by
            rcases hcl with ⟨rfl, hcl, hb⟩ | ⟨rfl, hcl, hb⟩
            · exact close_pump hcr hm ho has hw hpre (Nat.le_of_lt hl) hb (.inl ⟨rfl, hcl, rfl⟩)
            · exact close_pump hcr hm ho has hw hpre (Nat.le_of_lt hl) hb (.inr ⟨rfl, hcl, rfl⟩)
          obtain ⟨b1, h1, h2⟩ : ∃ b1, SessionModel.step (absBase s.sess.base s.rbuf s.wrote) (.outWrite q (some (s.wrote q, .io 0))) = some b1 ∧
              SessionModel.step b1 .closeStep = some (absBase b' s.rbuf s.wrote) := by
            simp only [run] at key
            cases hx : SessionModel.step (absBase s.sess.base s.rbuf s.wrote) (.outWrite q (some (s.wrote q, .io 0))) with
            | none => rw [hx] at key; simp at key
            | some b1 => rw [hx] at key; refine ⟨b1, rfl, ?_⟩; cases hy : SessionModel.step b1 .closeStep <;> simp_all
          exact .after (sim_base (t := { s.sess with base := absBase s.sess.base s.rbuf s.wrote }) rfl (by simp) h1) (then_base (t := { s.sess with base := b1 }) rfl (by simp) h2)
        · have hst : s.sess.base.start = .assigned := by have := hi.hs; rw [hm] at this; revert this; cases s.sess.base.start <;> simp [hsOk]
          have hn := fun p => ((hi.pumps (.inr (by simp [hst, SessionModel.StartPC.inHandshake]))).1 p).2
          obtain ⟨hcl, hb⟩ : s.sess.base.closer = .closeDB ∧ b' = { s.sess.base.closeConn .db with closer := .closeClientIn } := by
            rcases hcl with ⟨hx, _⟩ | ⟨_, hcl, hb⟩
            · simp at hx
            · exact ⟨hcl, hb⟩
          have ho' : (b'.conn .db).isOpen = false := by rw [ho] at hne; simpa using hne
          have hcut' : cutStartup { s with sess := { s.sess with base := b' } } = some x := by simp [cutStartup, hm, cut, ho', hw]
          unfold abs
          rw [hcut']
          simp only
          have key := close_startup (r := s.rbuf) hcr hst hn ho has hpre (Nat.le_of_lt hl) hb hcl
          obtain ⟨b1, h1, h2⟩ : ∃ b1, SessionModel.step (absBase s.sess.base s.rbuf s.wrote) (.hsStartup ((sendMessage (.startup x)).take (s.wrote .db)) false) = some b1 ∧
              SessionModel.step b1 .closeStep = some { absBase b' s.rbuf s.wrote with start := .deferred true, hsWritten := upd s.sess.base.hsWritten .db (s.sess.base.hsWritten .db ++ (sendMessage (.startup x)).take (s.wrote .db)) } := by
            simp only [run] at key
            cases hx : SessionModel.step (absBase s.sess.base s.rbuf s.wrote) (.hsStartup ((sendMessage (.startup x)).take (s.wrote .db)) false) with
            | none => rw [hx] at key; simp at key
            | some b1 => rw [hx] at key; refine ⟨b1, rfl, ?_⟩; cases hy : SessionModel.step b1 .closeStep <;> simp_all
          have hhs : (absBase b' s.rbuf s.wrote).hsWritten = s.sess.base.hsWritten := by
            subst hb; simp only [absBase, SessionModel.State.closeConn]; split <;> rfl
          rw [hhs]
          refine .after (.one (a := .startup (some (s.wrote .db))) (t' := { s.sess with base := b1, hs := .idle }) ?_ rfl fun _ _ => ⟨hcl, ho, x, hm⟩) (then_base (t := { s.sess with base := b1, hs := .idle }) rfl (by simp) h2)
          simp only [FullSession.step, hm, h1, Option.map_some]
      · have hq' : ∀ q, 0 < s.wrote q → (b'.conn q).isOpen = (s.sess.base.conn q).isOpen := by
          intro q hw
          cases hx : decide ((b'.conn q).isOpen = (s.sess.base.conn q).isOpen)
          · exact absurd ⟨q, hw, by simpa using hx⟩ hq
          · simpa using hx
        have hcut' : cutStartup { s with sess := { s.sess with base := b' } } = none := by
          rcases Nat.eq_zero_or_pos (s.wrote .db) with hw | hw
          · exact cutStartup_of_wrote hw
          · exact (cutStartup_congr (s := s) (s' := { s with sess := { s.sess with base := b' } }) rfl (hq' _ hw) rfl).trans hcut
        rw [abs_eq hcut']
        have close1 : ∀ p, s.sess.base.closer = .closeClient ∧ p = .client ∨ s.sess.base.closer = .closeDB ∧ p = .db → (s.sess.base.conn p).assigned = true → (b'.conn p).isOpen = false := by
          intro p hp has
          unfold SessionModel.step at hs
          rw [if_neg (by simp [hcr])] at hs
          rcases hp with ⟨hc, rfl⟩ | ⟨hc, rfl⟩ <;> simp only [hc, Option.some.injEq] at hs <;> subst hs <;> simp [closeConn_open, has]
        have hcases : ∀ p, s.sess.base.closer = .closeClient ∧ p = .client ∨ s.sess.base.closer = .closeDB ∧ p = .db →
            s.wrote p = 0 ∨ (s.sess.base.conn p).isOpen = false ∨ (s.sess.base.conn p).assigned = false := by
          intro p hp
          rcases Nat.eq_zero_or_pos (s.wrote p) with hw | hw
          · exact .inl hw
          · cases has : (s.sess.base.conn p).assigned
            · exact .inr (.inr rfl)
            · exact .inr (.inl (by rw [← hq' p hw]; exact close1 p hp has))
        exact then_base (t := { s.sess with base := absBase s.sess.base s.rbuf s.wrote }) rfl (by simp)
          (absBase_close (fun hc => hcases .client (.inl ⟨hc, rfl⟩)) (fun hc => hcases .db (.inr ⟨hc, rfl⟩)) hs)
    · have hcut' : cutStartup { s with sess := { s.sess with base := b', hs := if a = .callStart ∧ b'.start = .negotiating then .recv else s.sess.hs } } = none := by
        by_cases hx : a = .callStart ∧ b'.start = .negotiating
        · exact cutStartup_of_hs (by simp [hx])
        · simp only [if_neg hx]
          exact (cutStartup_congr (s := s) (s' := { s with sess := { s.sess with base := b' } }) rfl (open_frame hh hcl hs _) rfl).trans hcut
      rw [abs_eq hcut']
      have hstep : SessionModel.step (absBase s.sess.base s.rbuf s.wrote) a = some (absBase b' s.rbuf s.wrote) :=
        absBase_step hrec (by cases a <;> simp_all [plain, replaced, FullSession.isHandshake]) hs
      refine .one (a := .base a) ?_
      simp only [FullSession.step]
      rw [if_neg (by simp [hh]), hstep]
      rfl

theorem abs_other {s : State} {x : FullSession.State} (h : s.wrote .db = 0) :
    abs { s with sess := x } = { x with base := absBase x.base s.rbuf s.wrote } := abs_eq (cutStartup_of_wrote h)

theorem sim_fail {s : State} {x x' : FullSession.State} (hw : ∀ p, s.wrote p = 0) (hs : x.fail = some x') :
    ({ x with base := absBase x.base s.rbuf s.wrote } : FullSession.State).fail = some (abs { s with sess := x' }) := by
  simp only [FullSession.State.fail] at hs ⊢
  obtain ⟨b, hb, rfl⟩ := Option.map_eq_some_iff.mp hs
  rw [absBase_step (fun p _ => hw p) rfl hb, abs_other (hw .db)]
  rfl

theorem sim_other {s : State} {x : FullSession.State} {a : FullSession.Action} (hi : Inv s) (hr : replaced a = false)
    (hs : FullSession.step parse s.sess a = some x) : Then parse (Closing s) a (abs s) (abs { s with sess := x }) := by
  cases a with
  | base a =>
    simp only [FullSession.step] at hs
    split at hs
    · simp at hs
    · obtain ⟨b, hb, rfl⟩ := Option.map_eq_some_iff.mp hs
      exact sim_basestep hi hr (by simp_all) hb
  | recvStartup => simp [replaced] at hr
  | startup f => simp [replaced] at hr
  | reply ok =>
    refine .one (a := .reply ok) ?_
    simp only [FullSession.step] at hs ⊢
    split at hs
    · rename_i hh
      have hw := hs_wrote hi (by simp [hh]) (by simp [hh])
      rw [abs_eq (cutStartup_of_wrote (hw .db)), hh]
      simp only
      split at hs
      · rename_i hok
        obtain ⟨b, hb, rfl⟩ := Option.map_eq_some_iff.mp hs
        rw [if_pos hok, absBase_reply (hw .client) hb, abs_other (hw .db)]
        rfl
      · rename_i hok
        rw [if_neg hok, sim_fail hw hs]
    · simp at hs
  | getConfig answer =>
    refine .one (a := .getConfig answer) ?_
    simp only [FullSession.step] at hs ⊢
    split at hs
    · rename_i m hh
      have hw := hs_wrote hi (by simp [hh]) (by simp [hh])
      rw [abs_eq (cutStartup_of_wrote (hw .db)), hh]
      simp only
      split at hs
      · rename_i params hp
        split at hs
        · rename_i hd
          rw [if_pos hd]
          exact sim_fail (x := { s.sess with configs := s.sess.configs ++ [answer], hs := .config m }) hw hs
        · rename_i hd
          rw [if_neg hd]
          split at hs
          · simp at hs
          · rename_i hc
            simp only [Option.some.injEq] at hs; subst hs
            rw [if_neg (by simpa [absBase] using hc), abs_other (hw .db)]
      · exact sim_fail (x := { s.sess with configs := s.sess.configs ++ [answer], hs := .config m }) hw hs
    · simp at hs
  | dial ok =>
    refine .one (a := .dial ok) ?_
    simp only [FullSession.step] at hs ⊢
    split at hs
    · rename_i m params hh
      have hw := hs_wrote hi (by simp [hh]) (by simp [hh])
      rw [abs_eq (cutStartup_of_wrote (hw .db)), hh]
      simp only
      split at hs
      · rename_i hok
        obtain ⟨b, hb, rfl⟩ := Option.map_eq_some_iff.mp hs
        rw [if_pos hok, absBase_dial (hw .db) hb, abs_other (hw .db)]
        rfl
      · rename_i hok
        rw [if_neg hok]
        exact sim_fail (x := { s.sess with dialed := s.sess.dialed ++ [joinHostPort (params.get (ascii "host")) (params.get (ascii "port"))], hs := .dial m params }) hw hs
    · simp at hs
  | assign =>
    refine .one (a := .assign) ?_
    simp only [FullSession.step] at hs ⊢
    split at hs
    · rename_i m hh
      have hw := hs_wrote hi (by simp [hh]) (by simp [hh])
      rw [abs_eq (cutStartup_of_wrote (hw .db)), hh]
      simp only
      obtain ⟨b, hb, rfl⟩ := Option.map_eq_some_iff.mp hs
      rw [absBase_step (fun p _ => hw p) rfl hb, abs_other (hw .db)]
      rfl
    · simp at hs

theorem abs_idle {s : State} (h : s.sess.hs = .idle) : abs s = { s.sess with base := absBase s.sess.base s.rbuf s.wrote } :=
  abs_eq (cutStartup_of_hs (by simp [h]))

theorem sim_read {F : Prop} {s : State} {p : Peer} {n : Nat} {s' : State} (hi : Inv s) (hs : step parse s (.read p n) = some s') : Sim parse F (abs s) (abs s') := by
  unfold step at hs
  dsimp only at hs
  split at hs
  · simp at hs
  rename_i hcr
  have hcr : s.sess.base.crashed = false := by simpa using hcr
  split at hs
  · rename_i hg
    obtain ⟨hp, ho, h0, hn, ht⟩ := hg
    have hidle : s.sess.hs = .idle := by
      have h1 := hi.hs
      have h2 := hi.pumps
      have h3 : ¬ (s.sess.base.start = .notCalled ∨ s.sess.base.start.inHandshake = true) := by
        intro hx; have := (h2 hx).1 p; rw [hp] at this; simp at this
      revert h1 h3
      cases s.sess.hs <;> cases s.sess.base.start <;> simp [hsOk, SessionModel.StartPC.inHandshake]
    have hlen : ((s.sess.base.conn p).unread.take n).length = n := by rw [List.length_take]; omega
    split at hs
    · simp only [Option.some.injEq] at hs; subst hs
      rw [abs_idle hidle, abs_idle (by exact hidle)]
      have := absBase_read s.sess.base s.rbuf s.wrote p n
      simp only [State.with]
      rw [show upd s.sess.base.conn p _ = dropped s.sess.base.conn p n from rfl, this]
      exact .refl
    · rename_i hge
      have hfull : (s.rbuf p ++ (s.sess.base.conn p).unread.take n).length = standardTarget (s.rbuf p ++ (s.sess.base.conn p).unread.take n) := by
        have := standardTarget_append (x := (s.sess.base.conn p).unread.take n) (hi.recv hcr p hp) (by rw [hlen]; exact ht)
        omega
      have hstep := step_inRecv (b := absBase s.sess.base s.rbuf s.wrote) (p := p) hcr hp (tryRecv_abs ho hfull)
      have hc2 : ∀ x, absConn (dropped s.sess.base.conn p n) (upd (upd s.rbuf p x) p []) s.wrote =
          upd (absConn s.sess.base.conn s.rbuf s.wrote) p { absConn s.sess.base.conn s.rbuf s.wrote p with unread := (s.sess.base.conn p).unread.drop n } := by
        intro x; rw [show upd (upd s.rbuf p x) p [] = upd s.rbuf p [] from by funext q; simp only [upd_apply]; grind]; exact absConn_forget _ _ _ _ _
      split at hs <;> simp only [Option.some.injEq] at hs <;> subst hs <;> rename_i hm <;> rw [hm] at hstep <;> simp only [received] at hstep <;>
        rw [abs_idle hidle, abs_idle (by exact hidle)] <;> simp only [State.with] <;>
        refine Sim.trans (sim_base (t := { s.sess with base := absBase s.sess.base s.rbuf s.wrote }) rfl (by simp) hstep) ?_ <;>
        simp only [absBase] <;> rw [show upd s.sess.base.conn p _ = dropped s.sess.base.conn p n from rfl, absPump_read]
      · rw [hc2]; exact .refl
      · rw [hc2]; exact .refl
      · rw [absConn_read]; exact .refl
  · simp at hs

theorem sim_readFails {F : Prop} {s : State} {p : Peer} {s' : State} (hi : Inv s) (hs : step parse s (.readFails p) = some s') : Sim parse F (abs s) (abs s') := by
  unfold step at hs
  dsimp only at hs
  split at hs
  · simp at hs
  rename_i hcr
  have hcr : s.sess.base.crashed = false := by simpa using hcr
  split at hs
  · rename_i hp
    have hidle : s.sess.hs = .idle := by
      have h1 := hi.hs
      have h2 := hi.pumps
      have h3 : ¬ (s.sess.base.start = .notCalled ∨ s.sess.base.start.inHandshake = true) := by
        intro hx; have := (h2 hx).1 p; rw [hp] at this; simp at this
      revert h1 h3
      cases s.sess.hs <;> cases s.sess.base.start <;> simp [hsOk, SessionModel.StartPC.inHandshake]
    split at hs
    · rename_i e he
      simp only [Option.some.injEq] at hs; subst hs
      have hstep := step_inRecv (b := absBase s.sess.base s.rbuf s.wrote) (p := p) hcr hp (tryRecv_fails he (hi.recv hcr p hp))
      simp only [received] at hstep
      rw [abs_idle hidle, abs_idle (by exact hidle)]
      simp only [State.with]
      refine Sim.trans (sim_base (t := { s.sess with base := absBase s.sess.base s.rbuf s.wrote }) rfl (by simp) hstep) ?_
      simp only [absBase]
      rw [show upd (absConn s.sess.base.conn s.rbuf s.wrote) p _ = absConn s.sess.base.conn (if (s.sess.base.conn p).isOpen = true then upd s.rbuf p [] else s.rbuf) s.wrote from ?_]
      · exact .refl
      · funext q
        by_cases hq : q = p
        · subst hq
          rw [upd_same]
          unfold readError at he
          by_cases ho : (s.sess.base.conn q).isOpen = true
          · simp only [ho, if_true]
            rw [if_neg (by simp [ho])] at he
            split at he
            · rename_i hu; simp [absConn, hu]
            · simp at he
          · simp [absConn, ho]
        · rw [upd_other _ _ hq]
          split
          · exact absConn_congr rfl (upd_other _ _ hq).symm rfl
          · rfl
    · simp at hs
  · simp at hs

theorem step_hsRead {b : SessionModel.State} {r : Peer → Bytes} {w : Peer → Nat} {n : Nat} {buffer rest : Bytes} (hcr : b.crashed = false)
    (hst : b.start = .negotiating) (hb : r .client ++ (b.conn .client).unread = buffer ++ rest) (hn : n = (r .client ++ (b.conn .client).unread).length - rest.length) :
    SessionModel.step (absBase b r w) (.hsRead n) =
      some { absBase b r w with conn := upd (absConn b.conn r w) .client { absConn b.conn r w .client with unread := rest }, hsRead := b.hsRead ++ buffer } := by
  have hl : n = buffer.length := by rw [hn, hb]; simp
  have e1 : ((absBase b r w).conn .client).unread = buffer ++ rest := hb
  simp only [SessionModel.step, e1]
  rw [if_neg (by simp [absBase, hcr]), if_pos ⟨hst, by rw [hl]; simp⟩, hl]
  simp [absBase]

theorem take_front {x a b : Bytes} (h : x = a ++ b) : x.take (x.length - b.length) = a := by
  subst h; simp

theorem sim_readStartup {F : Prop} {s : State} {n : Nat} {s' : State} (hi : Inv s) (hs : step parse s (.readStartup n) = some s') : Sim parse F (abs s) (abs s') := by
  unfold step at hs
  dsimp only at hs
  split at hs
  · simp at hs
  rename_i hcr
  have hcr : s.sess.base.crashed = false := by simpa using hcr
  split at hs
  · rename_i hh
    have hw := hs_wrote hi (by simp [hh]) (by simp [hh])
    have hst : s.sess.base.start = .negotiating := by have := hi.hs; rw [hh] at this; revert this; cases s.sess.base.start <;> simp [hsOk]
    split at hs
    · rename_i hg
      obtain ⟨ho, h0, hn, ht⟩ := hg
      have hlen : ((s.sess.base.conn .client).unread.take n).length = n := by rw [List.length_take]; omega
      split at hs
      · simp only [Option.some.injEq] at hs; subst hs
        rw [abs_eq (cutStartup_of_wrote (hw .db)), abs_eq (cutStartup_of_wrote (by exact hw .db))]
        have := absBase_read s.sess.base s.rbuf s.wrote .client n
        simp only [State.with]
        rw [show upd s.sess.base.conn .client _ = dropped s.sess.base.conn .client n from rfl, this]
        exact .refl
      · rename_i hge
        have hfull : (s.rbuf .client ++ (s.sess.base.conn .client).unread.take n).length = startupTarget (s.rbuf .client ++ (s.sess.base.conn .client).unread.take n) := by
          have := startupTarget_append (x := (s.sess.base.conn .client).unread.take n) (hi.hsRecv hcr hh) (by rw [hlen]; exact ht)
          omega
        have hrecv := tryRecvStartup_abs (w := s.wrote) (r := s.rbuf) ho hfull
        have hsplit : s.rbuf .client ++ (s.sess.base.conn .client).unread = (s.rbuf .client ++ (s.sess.base.conn .client).unread.take n) ++ (s.sess.base.conn .client).unread.drop n := by
          simp
        have htake : (s.rbuf .client ++ (s.sess.base.conn .client).unread).take ((s.rbuf .client ++ (s.sess.base.conn .client).unread).length - ((s.sess.base.conn .client).unread.drop n).length) =
            s.rbuf .client ++ (s.sess.base.conn .client).unread.take n := by
          exact take_front hsplit
        have hread := step_hsRead (w := s.wrote) hcr hst hsplit rfl
        have hc2 : ∀ x, absConn (dropped s.sess.base.conn .client n) (upd (upd s.rbuf .client x) .client []) s.wrote =
            upd (absConn s.sess.base.conn s.rbuf s.wrote) .client { absConn s.sess.base.conn s.rbuf s.wrote .client with unread := (s.sess.base.conn .client).unread.drop n } := by
          intro x; rw [show upd (upd s.rbuf .client x) .client [] = upd s.rbuf .client [] from by funext q; simp only [upd_apply]; grind]; exact absConn_forget _ _ _ _ _
        rw [abs_eq (cutStartup_of_wrote (hw .db))]
        refine .one (a := .recvStartup) ?_
        simp only [FullSession.step, hh]
        rw [show (absBase s.sess.base s.rbuf s.wrote).conn .client = absConn s.sess.base.conn s.rbuf s.wrote .client from rfl, hrecv]
        rw [show (absConn s.sess.base.conn s.rbuf s.wrote .client).unread = s.rbuf .client ++ (s.sess.base.conn .client).unread from rfl]
        cases hm : parseStartupMessage (.startup (s.rbuf .client ++ (s.sess.base.conn .client).unread.take n)) with
        | ok m =>
          rw [hm] at hs
          simp only [htake, hread, Option.bind_some, State.with] at hs ⊢
          by_cases hv : m.protocolVersion = sslRequestMagic
          · rw [if_pos hv] at hs ⊢
            simp only [Option.some.injEq] at hs; subst hs
            rw [abs_eq (cutStartup_of_wrote (by exact hw .db))]
            simp only [absBase]
            rw [show upd s.sess.base.conn .client _ = dropped s.sess.base.conn .client n from rfl, absPump_read, hc2]
          · rw [if_neg hv] at hs ⊢
            by_cases hv2 : m.protocolVersion ≠ defaultProtocolVersion
            · rw [if_pos hv2] at hs ⊢
              simp only [Option.some.injEq] at hs; subst hs
              rw [abs_eq (cutStartup_of_wrote (by exact hw .db))]
              simp only [absBase, FullSession.State.fail, SessionModel.step, hcr, hst, if_true, Option.map_some]
              rw [show upd s.sess.base.conn .client _ = dropped s.sess.base.conn .client n from rfl, absPump_read, hc2]
              simp
            · rw [if_neg hv2] at hs ⊢
              simp only [Option.some.injEq] at hs; subst hs
              rw [abs_eq (cutStartup_of_wrote (by exact hw .db))]
              simp only [absBase]
              rw [show upd s.sess.base.conn .client _ = dropped s.sess.base.conn .client n from rfl, absPump_read, hc2]
        | err e =>
          rw [hm] at hs
          simp only [hread, Option.bind_some, State.with] at hs ⊢
          simp only [Option.some.injEq] at hs; subst hs
          rw [abs_eq (cutStartup_of_wrote (by exact hw .db))]
          simp only [absBase, FullSession.State.fail, SessionModel.step, hcr, hst, if_true, Option.map_some]
          rw [show upd s.sess.base.conn .client _ = dropped s.sess.base.conn .client n from rfl, absPump_read, hc2]
          simp
        | panic e =>
          rw [hm] at hs
          simp only [State.with] at hs ⊢
          simp only [Option.some.injEq] at hs; subst hs
          rw [abs_eq (cutStartup_of_wrote (by exact hw .db))]
          simp only [absBase, FullSession.State.crash, hcr]
          rw [show upd s.sess.base.conn .client _ = dropped s.sess.base.conn .client n from rfl, absPump_read, absConn_read]
          simp [hh]
    · simp at hs
  · simp at hs

theorem sim_readStartupFails {F : Prop} {s : State} {s' : State} (hi : Inv s) (hs : step parse s .readStartupFails = some s') : Sim parse F (abs s) (abs s') := by
  unfold step at hs
  dsimp only at hs
  split at hs
  · simp at hs
  rename_i hcr
  have hcr : s.sess.base.crashed = false := by simpa using hcr
  split at hs
  · rename_i hh
    have hw := hs_wrote hi (by simp [hh]) (by simp [hh])
    have hst : s.sess.base.start = .negotiating := by have := hi.hs; rw [hh] at this; revert this; cases s.sess.base.start <;> simp [hsOk]
    split at hs
    · rename_i e he
      have hrecv := tryRecvStartup_fails (w := s.wrote) he (hi.hsRecv hcr hh)
      rw [abs_eq (cutStartup_of_wrote (hw .db))]
      refine .one (a := .recvStartup) ?_
      simp only [FullSession.step, hh]
      rw [show (absBase s.sess.base s.rbuf s.wrote).conn .client = absConn s.sess.base.conn s.rbuf s.wrote .client from rfl, hrecv]
      rw [show (absConn s.sess.base.conn s.rbuf s.wrote .client).unread = s.rbuf .client ++ (s.sess.base.conn .client).unread from rfl]
      by_cases ho : (s.sess.base.conn .client).isOpen = true
      · have hu : (s.sess.base.conn .client).unread = [] := by
          unfold readError at he
          rw [if_neg (by simp [ho])] at he
          split at he
          · assumption
          · simp at he
        have hread := step_hsRead (b := s.sess.base) (r := s.rbuf) (w := s.wrote) (buffer := s.rbuf .client) (rest := []) hcr hst (by simp [hu]) rfl
        simp only [ho, if_true, State.with, Option.some.injEq] at hs
        subst hs
        simp only [ho, if_true, hread, Option.bind_some]
        rw [abs_eq (cutStartup_of_wrote (by exact hw .db))]
        simp only [absBase, FullSession.State.fail, SessionModel.step, hcr, hst, if_true, Option.map_some]
        rw [show absConn s.sess.base.conn (upd s.rbuf .client []) s.wrote = upd (absConn s.sess.base.conn s.rbuf s.wrote) .client { absConn s.sess.base.conn s.rbuf s.wrote .client with unread := [] } from ?_]
        · simp
        · funext q; by_cases hq : q = .client
          · subst hq; simp [absConn, hu]
          · rw [upd_other _ _ hq]; exact absConn_congr rfl (upd_other _ _ hq) rfl
      · have hread := step_hsRead (b := s.sess.base) (r := s.rbuf) (w := s.wrote) (buffer := []) (rest := s.rbuf .client ++ (s.sess.base.conn .client).unread) hcr hst (by simp) rfl
        simp only [ho, Option.some.injEq] at hs
        subst hs
        rw [if_neg (by simp [ho])]
        simp only [hread, Option.bind_some]
        rw [if_neg (by simp [ho]), abs_eq (cutStartup_of_wrote (by exact hw .db))]
        simp only [absBase, FullSession.State.fail, SessionModel.step, hcr, hst, if_true, Option.map_some]
        rw [show upd (absConn s.sess.base.conn s.rbuf s.wrote) .client _ = absConn s.sess.base.conn s.rbuf s.wrote from ?_]
        · simp
        · funext q; by_cases hq : q = .client
          · subst hq; simp [absConn]
          · rw [upd_other _ _ hq]
    · simp at hs
  · simp at hs

theorem write_idle {s : State} {p : Peer} {m : Msg} (hi : Inv s) (hm : s.sess.base.outPump p = .write m) : s.sess.hs = .idle := by
  have h1 := hi.hs
  have h2 := hi.pumps
  have h3 : ¬ (s.sess.base.start = .notCalled ∨ s.sess.base.start.inHandshake = true) := by
    intro hx; have := (h2 hx).1 p; rw [hm] at this; simp at this
  revert h1 h3
  cases s.sess.hs <;> cases s.sess.base.start <;> simp [hsOk, SessionModel.StartPC.inHandshake]

theorem wrote_le {s : State} {p : Peer} {m : Msg} (hi : Inv s) (hm : Present s p m) : s.wrote p ≤ (sendMessage m).length ∧
    s.wrote p ≤ (s.sess.base.conn p).written.length := by
  rcases Nat.eq_zero_or_pos (s.wrote p) with h | h
  · omega
  · obtain ⟨m', hp', hl, pre, hpre⟩ := hi.wrote p h
    have : m' = m := by
      have hx : ∀ x, s.sess.hs = .startup x → s.sess.base.outPump p = .notStarted := by
        intro x hx
        refine ((hi.pumps ?_).1 p).2
        have := hi.hs; rw [hx] at this; revert this; cases s.sess.base.start <;> simp [hsOk, SessionModel.StartPC.inHandshake]
      rcases hm with hp | ⟨_, x, hp, rfl⟩ <;> rcases hp' with g1 | ⟨_, y, g1, rfl⟩
      · rw [hp] at g1; simpa using g1.symm
      · have := hx y g1; rw [hp] at this; simp at this
      · have := hx x hp; rw [g1] at this; simp at this
      · rw [hp] at g1; simp at g1; simp [g1]
    subst this
    refine ⟨Nat.le_of_lt hl, ?_⟩
    rw [hpre, List.length_append, List.length_take]; omega

theorem absBase_part {b : SessionModel.State} {r : Peer → Bytes} {w : Peer → Nat} {p : Peer} {bs : Bytes} (ho : (b.conn p).isOpen = true)
    (hl : w p ≤ (b.conn p).written.length) : absBase { b with conn := wroteTo b.conn p bs } r (upd w p (w p + bs.length)) = absBase b r w := by
  simp only [absBase]
  rw [absConn_part _ _ _ _ _ ho hl, absPump_wroteTo _ _ _ _ _ _ ho (fun q hq => upd_other _ _ hq)]

theorem sim_write {F : Prop} {s : State} {p : Peer} {n : Nat} {s' : State} (hi : Inv s) (hs : step parse s (.write p n) = some s') : Sim parse F (abs s) (abs s') := by
  unfold step at hs
  dsimp only at hs
  split at hs
  · simp at hs
  rename_i hcr
  have hcr : s.sess.base.crashed = false := by simpa using hcr
  split at hs
  · rename_i m hm
    have hidle := write_idle hi hm
    obtain ⟨hl, hl'⟩ := wrote_le hi (.inl hm)
    split at hs
    · rename_i hg
      obtain ⟨ho, h0, hn⟩ := hg
      have hlen : (((sendMessage m).drop (s.wrote p)).take n).length = n := by rw [List.length_take, List.length_drop]; omega
      split at hs
      · simp only [Option.some.injEq, State.with] at hs; subst hs
        rw [abs_idle hidle, abs_idle (by exact hidle)]
        have := absBase_part (r := s.rbuf) (bs := ((sendMessage m).drop (s.wrote p)).take n) ho hl'
        rw [hlen] at this
        simp only
        rw [show upd s.sess.base.conn p _ = wroteTo s.sess.base.conn p (((sendMessage m).drop (s.wrote p)).take n) from rfl, this]
        exact .refl
      · rename_i hge
        simp only [Option.some.injEq, State.with] at hs hge; subst hs
        rw [abs_idle hidle, abs_idle (by exact hidle)]
        obtain ⟨pre, hpre⟩ := present_pre hi (.inl hm)
        have hall : ((sendMessage m).drop (s.wrote p)).take n = (sendMessage m).drop (s.wrote p) :=
          List.take_of_length_le (by rw [List.length_drop]; omega)
        have hstep := absBase_written (r := s.rbuf) hcr hm ho hpre hl
        rw [← hall] at hstep
        exact sim_base (t := { s.sess with base := absBase s.sess.base s.rbuf s.wrote }) rfl (by simp) hstep
    · simp at hs
  · simp at hs

theorem sim_writeFails {F : Prop} {s : State} {p : Peer} {e : Err} {s' : State} (hi : Inv s) (hs : step parse s (.writeFails p e) = some s') : Sim parse F (abs s) (abs s') := by
  unfold step at hs
  dsimp only at hs
  split at hs
  · simp at hs
  rename_i hcr
  have hcr : s.sess.base.crashed = false := by simpa using hcr
  split at hs
  · rename_i m hm
    have hidle := write_idle hi hm
    obtain ⟨hl, hl'⟩ := wrote_le hi (.inl hm)
    split at hs
    · rename_i hg
      simp only [Option.some.injEq, State.with] at hs; subst hs
      rw [abs_idle hidle, abs_idle (by exact hidle)]
      obtain ⟨pre, hpre⟩ := present_pre hi (.inl hm)
      by_cases hcut : (s.sess.base.conn p).isOpen = true ∨ s.wrote p = 0
      · exact sim_base (t := { s.sess with base := absBase s.sess.base s.rbuf s.wrote }) rfl (by simp) (absBase_writeFails (r := s.rbuf) (e := e) hcr hm hcut hpre hl)
      · have ho : (s.sess.base.conn p).isOpen = false := by cases h : (s.sess.base.conn p).isOpen <;> simp_all
        have hw : 0 < s.wrote p := Nat.pos_of_ne_zero fun h => hcut (.inr h)
        have he : e = .io 0 := by simpa [ho] using hg
        subst he
        simp only
        rw [absBase_cut hm ho hw]
        exact .refl
    · simp at hs
  · simp at hs

theorem sim_writeStartup {F : Prop} {s : State} {n : Nat} {s' : State} (hi : Inv s) (hs : step parse s (.writeStartup n) = some s') : Sim parse F (abs s) (abs s') := by
  unfold step at hs
  dsimp only at hs
  split at hs
  · simp at hs
  rename_i hcr
  have hcr : s.sess.base.crashed = false := by simpa using hcr
  split at hs
  · rename_i m hm
    have hst : s.sess.base.start = .assigned := by have := hi.hs; rw [hm] at this; revert this; cases s.sess.base.start <;> simp [hsOk]
    have hn0 := fun p => ((hi.pumps (.inr (by simp [hst, SessionModel.StartPC.inHandshake]))).1 p).2
    obtain ⟨hl, hl'⟩ := wrote_le hi (.inr ⟨rfl, m, hm, rfl⟩)
    split at hs
    · rename_i hg
      obtain ⟨ho, h0, hn⟩ := hg
      have hlen : (((sendMessage (.startup m)).drop (s.wrote .db)).take n).length = n := by rw [List.length_take, List.length_drop]; omega
      split at hs
      · simp only [Option.some.injEq, State.with] at hs; subst hs
        rw [abs_eq (cutStartup_of_open ho), abs_eq (cutStartup_of_open (by simpa using ho))]
        have := absBase_part (r := s.rbuf) (bs := ((sendMessage (.startup m)).drop (s.wrote .db)).take n) ho hl'
        rw [hlen] at this
        simp only
        rw [show upd s.sess.base.conn .db _ = wroteTo s.sess.base.conn .db (((sendMessage (.startup m)).drop (s.wrote .db)).take n) from rfl, this]
        exact .refl
      · rename_i hge
        simp only [Option.some.injEq, State.with] at hs hge; subst hs
        rw [abs_eq (cutStartup_of_open ho), abs_idle rfl]
        obtain ⟨pre, hpre⟩ := present_pre hi (.inr ⟨rfl, m, hm, rfl⟩)
        have hall : ((sendMessage (.startup m)).drop (s.wrote .db)).take n = (sendMessage (.startup m)).drop (s.wrote .db) :=
          List.take_of_length_le (by rw [List.length_drop]; omega)
        have hstep := absBase_startup (r := s.rbuf) hcr hst hn0 ho hpre hl
        rw [← hall] at hstep
        refine .one (a := .startup none) ?_
        simp only [FullSession.step, hm]
        rw [hstep]
        rfl
    · simp at hs
  · simp at hs

theorem sim_writeStartupFails {s : State} {s' : State} (hi : Inv s) (hs : step parse s .writeStartupFails = some s') : Sim parse True (abs s) (abs s') := by
  unfold step at hs
  dsimp only at hs
  split at hs
  · simp at hs
  rename_i hcr
  have hcr : s.sess.base.crashed = false := by simpa using hcr
  split at hs
  · rename_i m hm
    have hst : s.sess.base.start = .assigned := by have := hi.hs; rw [hm] at this; revert this; cases s.sess.base.start <;> simp [hsOk]
    have hn0 := fun p => ((hi.pumps (.inr (by simp [hst, SessionModel.StartPC.inHandshake]))).1 p).2
    obtain ⟨hl, hl'⟩ := wrote_le hi (.inr ⟨rfl, m, hm, rfl⟩)
    obtain ⟨pre, hpre⟩ := present_pre hi (.inr ⟨rfl, m, hm, rfl⟩)
    simp only [Option.some.injEq, State.with] at hs; subst hs
    by_cases hcut : (s.sess.base.conn .db).isOpen = true ∨ s.wrote .db = 0
    · rw [abs_eq (s := s) (by rcases hcut with h | h; exact cutStartup_of_open h; exact cutStartup_of_wrote h), abs_idle rfl]
      refine .one (a := .startup (some (s.wrote .db))) ?_
      simp only [FullSession.step, hm]
      rw [absBase_startupFails (r := s.rbuf) hcr hst hn0 hcut hpre hl]
      rfl
    · have ho : (s.sess.base.conn .db).isOpen = false := by cases h : (s.sess.base.conn .db).isOpen <;> simp_all
      have hw : 0 < s.wrote .db := Nat.pos_of_ne_zero fun h => hcut (.inr h)
      have hc : cutStartup s = some m := by simp [cutStartup, hm, cut, ho, hw]
      rw [abs_idle (s := { s with wrote := _, sess := { s.sess with hs := .idle, base := _ } }) rfl]
      unfold abs
      rw [hc]
      simp only [absBase]
      rw [absConn_forgetWrote (fun _ _ => rfl), absPump_idle (by simp [hn0]), absPump_idle (by simp [hn0])]
      rw [show upd (absConn s.sess.base.conn s.rbuf s.wrote) .db _ = absConn s.sess.base.conn s.rbuf s.wrote from ?_]
      · exact .refl
      · funext q; by_cases hq : q = .db
        · subst hq; simp [absConn, ho]
        · rw [upd_other _ _ hq]
  · simp at hs

/-- Reading or writing a piece. -/
theorem sim_piece {s s' : State} {a : Action} (hi : Inv s) (ha : ∀ x, a ≠ .other x) (hs : step parse s a = some s') :
    Sim parse (a = .writeStartupFails) (abs s) (abs s') := by
  cases a with
  | other a => exact absurd rfl (ha a)
  | read p n => exact sim_read hi hs
  | readFails p => exact sim_readFails hi hs
  | readStartup n => exact sim_readStartup hi hs
  | readStartupFails => exact sim_readStartupFails hi hs
  | write p n => exact sim_write hi hs
  | writeFails p e => exact sim_writeFails hi hs
  | writeStartup n => exact sim_writeStartup hi hs
  | writeStartupFails => simpa using sim_writeStartupFails hi hs

theorem sim_step {s s' : State} {a : Action} (hi : Inv s) (hs : step parse s a = some s') :
    ∃ acts, run (FullSession.step parse) (abs s) acts = some (abs s') := by
  by_cases ha : ∃ x, a = .other x
  · obtain ⟨a, rfl⟩ := ha
    unfold step at hs
    dsimp only at hs
    split at hs
    · simp at hs
    split at hs
    · simp at hs
    · obtain ⟨x, hx, rfl⟩ := Option.map_eq_some_iff.mp hs
      obtain ⟨u, ⟨acts, _, h1⟩, h2, _⟩ := sim_other hi (by simp_all) hx
      exact ⟨acts ++ [a], by rw [run_append, h1]; simp [run, h2]⟩
  · obtain ⟨acts, _, h⟩ := sim_piece hi (fun x hx => ha ⟨x, hx⟩) hs
    exact ⟨acts, h⟩

theorem abs_init : abs init = FullSession.init := by
  rw [abs_idle rfl]
  simp only [init, FullSession.init, SessionModel.init, absBase]
  rw [absPump_idle (by simp)]
  congr 2
  funext p
  simp [absConn]

theorem abs_reachable {s : State} (h : Reachable (step parse) init s) : Reachable (FullSession.step parse) FullSession.init (abs s) := by
  have := h.invariant (fun s => Inv s ∧ Reachable (FullSession.step parse) FullSession.init (abs s)) ⟨inv_init, by rw [abs_init]; exact .refl _⟩
    fun s a s' hi hs => ⟨inv_step hi.1 hs, by
      obtain ⟨acts, h⟩ := sim_step hi.1 hs
      exact hi.2.trans ⟨acts, h⟩⟩
  exact this.2

end Gevulot.Pieces
