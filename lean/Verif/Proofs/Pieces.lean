import Verif.Model.Pieces
import Verif.Proofs.FullSession

/-!
# Reading and writing piece by piece refines doing it in one step
-/

namespace Gevulot.Pieces

open SessionModel (Peer PeerConn)

/-! ### The frame readers -/

theorem standard_form {b : Bytes} (h : ¬ b.length < 5) : ∃ t v body, b = t :: (putUint32 v ++ body) := by
  obtain ⟨t, s, hs⟩ : ∃ t s, b = t :: s := by
    cases hb : b with
    | nil => rw [hb] at h; simp at h
    | cons t s => exact ⟨t, s, rfl⟩
  obtain ⟨v, rest, hv⟩ := ReadBuffer.exists_putUint32 (b := s) (by rw [hs] at h; simp at h; omega)
  exact ⟨t, v, rest, by rw [hs, hv]⟩

theorem standardTarget_form (t : Byte) (v : BitVec 32) (body : Bytes) :
    standardTarget (t :: (putUint32 v ++ body)) = 5 + (v - 4).toInt.toNat := by
  unfold standardTarget
  have h4 : (putUint32 v).length = 4 := rfl
  have ht : (t :: (putUint32 v ++ body)).take 5 = t :: (putUint32 v ++ []) := rfl
  rw [if_neg (by simp [h4]), ht, standardHeaderLength_cons]

theorem startup_form {b : Bytes} (h : ¬ b.length < 4) : ∃ v body, b = putUint32 v ++ body := by
  obtain ⟨v, rest, hv⟩ := ReadBuffer.exists_putUint32 (b := b) (by omega)
  exact ⟨v, rest, hv⟩

theorem startupTarget_form (v : BitVec 32) (body : Bytes) : startupTarget (putUint32 v ++ body) = 4 + (v - 4).toInt.toNat := by
  unfold startupTarget
  have h4 : (putUint32 v).length = 4 := rfl
  have ht : (putUint32 v ++ body).take 4 = putUint32 v ++ [] := rfl
  have hd : Dec.run ReadBuffer.readInt32 (putUint32 v ++ []) = .ok v := by unfold Dec.run; rw [ReadBuffer.readInt32_append]
  rw [if_neg (by simp [h4]), ht, hd]

/-- As long as bytes are missing there is no frame, whatever the stream ends with. -/
theorem standard_waiting {b : Bytes} (h : b.length < standardTarget b) (e : Err) : flatStandard b e = (.err e, []) := by
  by_cases h5 : b.length < 5
  · unfold flatStandard; rw [if_pos h5]
  · obtain ⟨t, v, body, rfl⟩ := standard_form h5
    rw [standardTarget_form] at h
    unfold flatStandard
    rw [if_neg h5]
    have h1 : (t :: (putUint32 v ++ body)).drop 1 = putUint32 v ++ body := rfl
    have h2 : (t :: (putUint32 v ++ body)).drop 5 = body := rfl
    have h4 : (putUint32 v).length = 4 := rfl
    rw [h1, h2, beUint32_put]
    simp only [List.length_cons, List.length_append, h4] at h
    simp only
    rw [if_neg (by omega)]

theorem startup_waiting {b : Bytes} (h : b.length < startupTarget b) (e : Err) : flatStartup b e = (.err e, []) := by
  by_cases h5 : b.length < 4
  · unfold flatStartup; rw [if_pos h5]
  · obtain ⟨v, body, rfl⟩ := startup_form h5
    rw [startupTarget_form] at h
    unfold flatStartup
    rw [if_neg h5]
    have h2 : (putUint32 v ++ body).drop 4 = body := rfl
    have h4 : (putUint32 v).length = 4 := rfl
    rw [h2, beUint32_put]
    simp only [List.length_cons, List.length_append, h4] at h
    simp only
    rw [if_neg (by omega)]

/-- When they are all there, the frame is complete, whatever follows. -/
theorem standard_complete {b : Bytes} (h : b.length = standardTarget b) (rest : Bytes) (e : Err) :
    flatStandard (b ++ rest) e = (.ok (.standard b), rest) := by
  by_cases h5 : b.length < 5
  · unfold standardTarget at h; rw [if_pos h5] at h; omega
  · obtain ⟨t, v, body, rfl⟩ := standard_form h5
    rw [standardTarget_form] at h
    have h4 : (putUint32 v).length = 4 := rfl
    exact flatStandard_form t v body rest e (by simp only [List.length_cons, List.length_append, h4] at h; omega)

theorem startup_complete {b : Bytes} (h : b.length = startupTarget b) (rest : Bytes) (e : Err) :
    flatStartup (b ++ rest) e = (.ok (.startup b), rest) := by
  by_cases h5 : b.length < 4
  · unfold startupTarget at h; rw [if_pos h5] at h; omega
  · obtain ⟨v, body, rfl⟩ := startup_form h5
    rw [startupTarget_form] at h
    have h4 : (putUint32 v).length = 4 := rfl
    have hb : body.length = (v - 4).toInt.toNat := by simp only [List.length_cons, List.length_append, h4] at h; omega
    unfold flatStartup
    rw [if_neg (by simp [h4])]
    have h1 : putUint32 v ++ body ++ rest = putUint32 v ++ (body ++ rest) := by simp
    have h2 : (putUint32 v ++ (body ++ rest)).drop 4 = body ++ rest := rfl
    have h3 : (putUint32 v ++ (body ++ rest)).take 4 = putUint32 v ++ [] := rfl
    rw [h1, h2, h3, beUint32_put]
    simp only
    rw [if_pos (by rw [List.length_append]; omega), ← hb]
    simp

/-- Never more is read than belongs to the frame. -/
theorem standardTarget_append {b x : Bytes} (h : b.length < standardTarget b) (hx : b.length + x.length ≤ standardTarget b) :
    (b ++ x).length ≤ standardTarget (b ++ x) := by
  rw [List.length_append]
  by_cases h5 : b.length < 5
  · unfold standardTarget at hx
    rw [if_pos h5] at hx
    unfold standardTarget
    split
    · omega
    · split <;> omega
  · obtain ⟨t, v, body, rfl⟩ := standard_form h5
    rw [standardTarget_form] at hx
    have : t :: (putUint32 v ++ body) ++ x = t :: (putUint32 v ++ (body ++ x)) := by simp
    rw [this, standardTarget_form]
    exact hx

theorem startupTarget_append {b x : Bytes} (h : b.length < startupTarget b) (hx : b.length + x.length ≤ startupTarget b) :
    (b ++ x).length ≤ startupTarget (b ++ x) := by
  rw [List.length_append]
  by_cases h5 : b.length < 4
  · unfold startupTarget at hx
    rw [if_pos h5] at hx
    unfold startupTarget
    split
    · omega
    · split <;> omega
  · obtain ⟨v, body, rfl⟩ := startup_form h5
    rw [startupTarget_form] at hx
    have : putUint32 v ++ body ++ x = putUint32 v ++ (body ++ x) := by simp
    rw [this, startupTarget_form]
    exact hx

theorem standardTarget_nil : standardTarget [] = 5 := rfl
theorem startupTarget_nil : startupTarget [] = 4 := rfl

/-! ### The one-step readers -/

theorem readStandard_single (b : Bytes) (e : Err) :
    (readStandardFrame ⟨[b], e⟩).1 = (flatStandard b e).1 ∧ (readStandardFrame ⟨[b], e⟩).2.bytes = (flatStandard b e).2 := by
  obtain ⟨h1, h2, _⟩ := readStandardFrame_flat ⟨[b], e⟩
  simpa [Reader.bytes] using And.intro h1 h2

theorem readStartup_single (b : Bytes) (e : Err) :
    (readStartupFrame ⟨[b], e⟩).1 = (flatStartup b e).1 ∧ (readStartupFrame ⟨[b], e⟩).2.bytes = (flatStartup b e).2 := by
  obtain ⟨h1, h2, _⟩ := readStartupFrame_flat ⟨[b], e⟩
  simpa [Reader.bytes] using And.intro h1 h2

/-- `RecvMessage` when a frame is complete. -/
theorem tryRecv_complete {c : PeerConn} {b rest : Bytes} (ho : c.isOpen = true) (hu : c.unread = b ++ rest) (h : b.length = standardTarget b) :
    SessionModel.tryRecv c = some (parseMessage (.standard b), rest) := by
  unfold SessionModel.tryRecv
  rw [if_neg (by simp [ho])]
  cases he : c.ended with
  | some e =>
    obtain ⟨h1, h2⟩ := readStandard_single (b ++ rest) e
    rw [standard_complete h] at h1 h2
    rcases hr : readStandardFrame ⟨[b ++ rest], e⟩ with ⟨o, r⟩
    rw [hr] at h1 h2
    simp only at h1 h2
    subst h1
    simp only [hu, recvMessage, hr, h2]
  | none =>
    obtain ⟨h1, h2⟩ := readStandard_single (b ++ rest) .eof
    rw [standard_complete h] at h1 h2
    rcases hr : readStandardFrame ⟨[b ++ rest], .eof⟩ with ⟨o, r⟩
    rw [hr] at h1 h2
    simp only at h1 h2
    subst h1
    simp only [hu, hr, h2]

/-- `RecvMessage` when bytes are missing: it waits, or fails with the error the stream ends with. -/
theorem tryRecv_waiting {c : PeerConn} (ho : c.isOpen = true) (h : c.unread.length < standardTarget c.unread) :
    SessionModel.tryRecv c = c.ended.map fun e => (.err e, []) := by
  unfold SessionModel.tryRecv
  rw [if_neg (by simp [ho])]
  cases he : c.ended with
  | some e =>
    obtain ⟨h1, h2⟩ := readStandard_single c.unread e
    rw [standard_waiting h] at h1 h2
    rcases hr : readStandardFrame ⟨[c.unread], e⟩ with ⟨o, r⟩
    rw [hr] at h1 h2
    simp only at h1 h2
    subst h1
    simp only [recvMessage, hr, h2, Option.map_some]
  | none =>
    obtain ⟨h1, h2⟩ := readStandard_single c.unread .eof
    rw [standard_waiting h] at h1 h2
    rcases hr : readStandardFrame ⟨[c.unread], .eof⟩ with ⟨o, r⟩
    rw [hr] at h1 h2
    simp only at h1 h2
    subst h1
    simp only [Option.map_none]

theorem tryRecvStartup_complete {c : PeerConn} {b rest : Bytes} (ho : c.isOpen = true) (hu : c.unread = b ++ rest) (h : b.length = startupTarget b) :
    FullSession.tryRecvStartup c = some (parseStartupMessage (.startup b), rest) := by
  unfold FullSession.tryRecvStartup
  rw [if_neg (by simp [ho])]
  cases he : c.ended with
  | some e =>
    obtain ⟨h1, h2⟩ := readStartup_single (b ++ rest) e
    rw [startup_complete h] at h1 h2
    rcases hr : readStartupFrame ⟨[b ++ rest], e⟩ with ⟨o, r⟩
    rw [hr] at h1 h2
    simp only at h1 h2
    subst h1
    simp only [hu, recvStartupMessage, hr, h2]
  | none =>
    obtain ⟨h1, h2⟩ := readStartup_single (b ++ rest) .eof
    rw [startup_complete h] at h1 h2
    rcases hr : readStartupFrame ⟨[b ++ rest], .eof⟩ with ⟨o, r⟩
    rw [hr] at h1 h2
    simp only at h1 h2
    subst h1
    simp only [hu, hr, h2]

theorem tryRecvStartup_waiting {c : PeerConn} (ho : c.isOpen = true) (h : c.unread.length < startupTarget c.unread) :
    FullSession.tryRecvStartup c = c.ended.map fun e => (.err e, []) := by
  unfold FullSession.tryRecvStartup
  rw [if_neg (by simp [ho])]
  cases he : c.ended with
  | some e =>
    obtain ⟨h1, h2⟩ := readStartup_single c.unread e
    rw [startup_waiting h] at h1 h2
    rcases hr : readStartupFrame ⟨[c.unread], e⟩ with ⟨o, r⟩
    rw [hr] at h1 h2
    simp only at h1 h2
    subst h1
    simp only [recvStartupMessage, hr, h2, Option.map_some]
  | none =>
    obtain ⟨h1, h2⟩ := readStartup_single c.unread .eof
    rw [startup_waiting h] at h1 h2
    rcases hr : readStartupFrame ⟨[c.unread], .eof⟩ with ⟨o, r⟩
    rw [hr] at h1 h2
    simp only at h1 h2
    subst h1
    simp only [Option.map_none]

end Gevulot.Pieces
