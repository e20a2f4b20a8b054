import Verif.Proofs.PiecesEnd

/-!
# Reading and writing in one step, done piece by piece

The converse of Proofs/PiecesRefine.lean: what a session can do that reads and writes each message in one step, it can do reading and writing
piece by piece: a byte at a time, for example.
-/

namespace Gevulot.Pieces

open SessionModel (Peer PeerConn)

variable {parse : Bytes → Option ConnectionParams}

theorem standardTarget_eq {b : Bytes} (h : 5 ≤ b.length) (x : Bytes) : standardTarget (b ++ x) = standardTarget b := by
  unfold standardTarget
  rw [if_neg (by simp; omega), if_neg (by omega), List.take_append_of_le_length h]

theorem startupTarget_eq {b : Bytes} (h : 4 ≤ b.length) (x : Bytes) : startupTarget (b ++ x) = startupTarget b := by
  unfold startupTarget
  rw [if_neg (by simp; omega), if_neg (by omega), List.take_append_of_le_length h]

/-- As long as the frame is not complete, the reader waits. -/
theorem standard_before {b x : Bytes} (h : (b ++ x).length < standardTarget (b ++ x) ∨ (b ++ x).length = standardTarget (b ++ x) ∧ x ≠ []) :
    b.length < standardTarget b := by
  by_cases h5 : 5 ≤ b.length
  · rw [standardTarget_eq h5] at h
    rcases h with h | ⟨h, hx⟩
    · simp at h; omega
    · have := List.length_pos_iff.mpr hx
      simp at h; omega
  · have := standardTarget_pos b; omega

theorem startup_before {b x : Bytes} (h : (b ++ x).length < startupTarget (b ++ x) ∨ (b ++ x).length = startupTarget (b ++ x) ∧ x ≠ []) :
    b.length < startupTarget b := by
  by_cases h5 : 4 ≤ b.length
  · rw [startupTarget_eq h5] at h
    rcases h with h | ⟨h, hx⟩
    · simp at h; omega
    · have := List.length_pos_iff.mpr hx
      simp at h; omega
  · have := startupTarget_pos b; omega

/-- Either there is a complete frame or there is not. -/
theorem standard_split (u : Bytes) : u.length < standardTarget u ∨ ∃ b rest, u = b ++ rest ∧ b.length = standardTarget b := by
  by_cases h : u.length < standardTarget u
  · exact .inl h
  · right
    have h5 : 5 ≤ (u.take (standardTarget u)).length := by have := standardTarget_pos u; simp; omega
    refine ⟨u.take (standardTarget u), u.drop (standardTarget u), by simp, ?_⟩
    have := standardTarget_eq h5 (u.drop (standardTarget u))
    rw [List.take_append_drop] at this
    rw [← this]; simp; omega

theorem startup_split (u : Bytes) : u.length < startupTarget u ∨ ∃ b rest, u = b ++ rest ∧ b.length = startupTarget b := by
  by_cases h : u.length < startupTarget u
  · exact .inl h
  · right
    have h5 : 4 ≤ (u.take (startupTarget u)).length := by have := startupTarget_pos u; simp; omega
    refine ⟨u.take (startupTarget u), u.drop (startupTarget u), by simp, ?_⟩
    have := startupTarget_eq h5 (u.drop (startupTarget u))
    rw [List.take_append_drop] at this
    rw [← this]; simp; omega

/-- `x` was read from `p`, and `rest` is still to be read. -/
def State.got (s : State) (p : Peer) (x rest : Bytes) : State :=
  { s with rbuf := upd s.rbuf p (s.rbuf p ++ x) }.with fun b => { b with conn := upd b.conn p { b.conn p with unread := rest } }

theorem upd_upd {α β : Type} [DecidableEq α] (f : α → β) (a : α) (b c : β) : upd (upd f a b) a c = upd f a c := by
  funext x
  by_cases h : x = a
  · subst h; simp
  · simp [upd_other _ _ h]

theorem upd_eta {α β : Type} [DecidableEq α] (f : α → β) (a : α) (b : β) (h : f a = b) : upd f a b = f := by
  funext x
  by_cases hx : x = a
  · subst hx; simp [h]
  · simp [upd_other _ _ hx]

theorem got_got (s : State) (p : Peer) (x y r r' : Bytes) : (s.got p x r).got p y r' = s.got p (x ++ y) r' := by
  simp [State.got, State.with, upd_upd]

theorem got_nil (s : State) (p : Peer) : s.got p [] (s.sess.base.conn p).unread = s := by
  simp [State.got, State.with, upd_eta]

/-- The bytes of an incomplete frame are read one by one. -/
theorem read_bytes {s : State} {p : Peer} (hc : s.sess.base.crashed = false) (hp : s.sess.base.inPump p = .recv) (ho : (s.sess.base.conn p).isOpen = true)
    {u rest : Bytes} (hu : (s.sess.base.conn p).unread = u ++ rest) (hlt : (s.rbuf p ++ u).length < standardTarget (s.rbuf p ++ u)) :
    run (step parse) s (List.replicate u.length (.read p 1)) = some (s.got p u rest) := by
  induction u generalizing s with
  | nil =>
    simp only [List.nil_append] at hu
    rw [← hu, got_nil]
    rfl
  | cons x u ih =>
    have h0 : (s.rbuf p).length < standardTarget (s.rbuf p) := standard_before (.inl hlt)
    have h1 : (s.rbuf p ++ [x]).length < standardTarget (s.rbuf p ++ [x]) := standard_before (x := u) (.inl (by simpa using hlt))
    have hs : step parse s (.read p 1) = some (s.got p [x] (u ++ rest)) := by
      simp only [step, hc, Bool.false_eq_true, if_false]
      rw [if_pos ⟨hp, ho, by omega, by rw [hu]; simp, by omega⟩, hu]
      simp only [List.cons_append, List.take_succ_cons, List.take_zero]
      refine (if_pos h1).trans ?_
      simp [State.got, State.with, hu]
    simp only [List.length_cons, List.replicate_succ, run, hs]
    rw [ih (s := s.got p [x] (u ++ rest)) hc hp (by simpa [State.got, State.with] using ho) (by simp [State.got, State.with])
      (by simpa [State.got, State.with] using hlt), got_got]
    rfl

theorem readStartup_bytes {s : State} (hc : s.sess.base.crashed = false) (hp : s.sess.hs = .recv) (ho : (s.sess.base.conn .client).isOpen = true)
    {u rest : Bytes} (hu : (s.sess.base.conn .client).unread = u ++ rest) (hlt : (s.rbuf .client ++ u).length < startupTarget (s.rbuf .client ++ u)) :
    run (step parse) s (List.replicate u.length (.readStartup 1)) = some (s.got .client u rest) := by
  induction u generalizing s with
  | nil =>
    simp only [List.nil_append] at hu
    rw [← hu, got_nil]
    rfl
  | cons x u ih =>
    have h0 : (s.rbuf .client).length < startupTarget (s.rbuf .client) := startup_before (.inl hlt)
    have h1 : (s.rbuf .client ++ [x]).length < startupTarget (s.rbuf .client ++ [x]) := startup_before (x := u) (.inl (by simpa using hlt))
    have hs : step parse s (.readStartup 1) = some (s.got .client [x] (u ++ rest)) := by
      simp only [step, hc, hp, Bool.false_eq_true, if_false]
      rw [if_pos ⟨ho, by omega, by rw [hu]; simp, by omega⟩, hu]
      simp only [List.cons_append, List.take_succ_cons, List.take_zero]
      refine (if_pos h1).trans ?_
      simp [State.got, State.with, hu]
    simp only [List.length_cons, List.replicate_succ, run, hs]
    rw [ih (s := s.got .client [x] (u ++ rest)) hc hp (by simpa [State.got, State.with] using ho) (by simp [State.got, State.with])
      (by simpa [State.got, State.with] using hlt), got_got]
    rfl

/-- Nothing is half read or half written. -/
def whole (t : FullSession.State) : State := { sess := t, rbuf := fun _ => [], wrote := fun _ => 0 }

theorem abs_whole (t : FullSession.State) : abs (whole t) = t := by
  rw [abs_eq (cutStartup_of_wrote rfl), absBase_same (w := (whole t).wrote) (fun _ => rfl)]
  rfl

/-- What the pieces of a step are. -/
def Splits (parse : Bytes → Option ConnectionParams) (a : FullSession.Action) (t t' : FullSession.State) : Prop :=
  ∃ acts s', (∀ x ∈ acts, (∀ b, x ≠ .other b) ∧ (x = .writeStartupFails → ∃ k, a = .startup (some k))) ∧ run (step parse) (whole t) acts = some s' ∧
    abs s' = t' ∧ (t'.base.crashed = false → s' = whole t')

theorem Splits.of_eq {a : FullSession.Action} {t t' : FullSession.State} {acts : List Action} {s' : State}
    (h : ∀ x ∈ acts, (∀ b, x ≠ .other b) ∧ (x = .writeStartupFails → ∃ k, a = .startup (some k)))
    (hr : run (step parse) (whole t) acts = some s') (he : s' = whole t') : Splits parse a t t' :=
  ⟨acts, s', h, hr, by rw [he, abs_whole], fun _ => he⟩

theorem const_upd {α β : Type} [DecidableEq α] (a : α) (b : β) : upd (fun _ => b) a b = fun _ => b := upd_eta _ _ _ rfl

theorem split_inRecv {t t' : FullSession.State} {p : Peer} (h : FullSession.step parse t (.base (.inRecv p)) = some t') :
    Splits parse (.base (.inRecv p)) t t' := by
  have hc : t.base.crashed = false := FullSession.alive h
  simp only [FullSession.step, FullSession.isHandshake, Bool.false_eq_true, if_false, SessionModel.step, hc] at h
  obtain ⟨b, hb, rfl⟩ := Option.map_eq_some_iff.mp h
  split at hb
  · rename_i hp
    by_cases ho : (t.base.conn p).isOpen = true
    · rcases standard_split (t.base.conn p).unread with hw | ⟨f, rest, hf, hl⟩
      · -- the stream ends
        rw [tryRecv_waiting ho hw] at hb
        cases he : (t.base.conn p).ended with
        | none => rw [he] at hb; simp at hb
        | some e =>
          rw [he] at hb
          simp only [Option.map_some, Option.some.injEq] at hb
          subst hb
          have hr := read_bytes (parse := parse) (s := whole t) (p := p) hc hp ho (u := (t.base.conn p).unread) (rest := []) (by simp [whole]) (by simpa [whole] using hw)
          refine Splits.of_eq (acts := List.replicate (t.base.conn p).unread.length (.read p 1) ++ [.readFails p]) ?_
            (by rw [run_append, hr]
                simp only [Option.bind_some, run, step, State.got, State.with, whole]
                simp only [hc, hp, Bool.false_eq_true, if_false, if_true, readError, upd_same, ho, he]
                rfl) ?_
          · intro x hx
            rcases List.mem_append.mp hx with hx | hx
            · rw [(List.mem_replicate.mp hx).2]; simp
            · simp only [List.mem_singleton] at hx; subst hx; simp
          · simp [whole, upd_upd, const_upd, *]
      · -- a frame
        rw [tryRecv_complete ho hf hl] at hb
        obtain ⟨f', x, rfl⟩ : ∃ f' x, f = f' ++ [x] := by
          rcases List.eq_nil_or_concat f with rfl | ⟨f', x, rfl⟩
          · simp [standardTarget_nil] at hl
          · exact ⟨f', x, by simp⟩
        have hlt : f'.length < standardTarget f' := standard_before (.inr ⟨hl, by simp⟩)
        have hr := read_bytes (parse := parse) (s := whole t) (p := p) hc hp ho (u := f') (rest := x :: rest) (by simp [whole, hf]) (by simpa [whole] using hlt)
        have hin : ∀ y ∈ List.replicate f'.length (Action.read p 1) ++ [.read p 1], (∀ b, y ≠ .other b) ∧
            (y = .writeStartupFails → ∃ k, FullSession.Action.base (.inRecv p) = .startup (some k)) := by
          intro y hy
          rcases List.mem_append.mp hy with hy | hy
          · rw [(List.mem_replicate.mp hy).2]; simp
          · simp only [List.mem_singleton] at hy; subst hy; simp
        have hlast : run (step parse) (whole t) (List.replicate f'.length (.read p 1) ++ [.read p 1]) =
            match parseMessage (.standard (f' ++ [x])) with
            | .ok m => some ((whole t).with fun b => { b with conn := upd b.conn p { b.conn p with unread := rest }, inPump := upd b.inPump p (.send m) })
            | .err e => some ((whole t).with fun b => { b with conn := upd b.conn p { b.conn p with unread := rest }, inPump := upd b.inPump p (.exited e) })
            | .panic _ => some (((whole t).got p (f' ++ [x]) rest).with fun b => { b with crashed := true }) := by
          rw [run_append, hr]
          simp only [Option.bind_some, run, step, State.got, State.with, whole, List.nil_append, upd_same]
          simp only [hc, hp, ho, Bool.false_eq_true, if_false, true_and, Nat.lt_add_one]
          rw [if_pos (by refine ⟨?_, ?_⟩ <;> (try simp) <;> omega)]
          simp only [List.take_succ_cons, List.take_zero, List.drop_succ_cons, List.drop_zero]
          rw [if_neg (by omega)]
          cases parseMessage (.standard (f' ++ [x])) <;> simp [upd_upd, const_upd]
        cases hm : parseMessage (.standard (f' ++ [x])) with
        | ok m =>
          rw [hm] at hb hlast
          simp only [Option.some.injEq] at hb
          subst hb
          exact Splits.of_eq hin hlast (by simp [whole, State.with, hc])
        | err e =>
          rw [hm] at hb hlast
          simp only [Option.some.injEq] at hb
          subst hb
          exact Splits.of_eq hin hlast (by simp [whole, State.with, hc])
        | panic e =>
          rw [hm] at hb hlast
          simp only [Option.some.injEq] at hb
          subst hb
          refine ⟨_, _, hin, hlast, ?_, by simp⟩
          rw [abs_eq (cutStartup_of_wrote rfl)]
          simp only [State.got, State.with, whole, List.nil_append]
          rw [absBase_same (fun _ => rfl)]
          simp only
          congr 2
          funext q
          by_cases hq : q = p
          · subst hq; simp [← hf]
          · simp [upd_other _ _ hq]
    · -- we have closed the connection
      simp only [Bool.not_eq_true] at ho
      rw [show SessionModel.tryRecv (t.base.conn p) = some (.err (.io 0), (t.base.conn p).unread) by unfold SessionModel.tryRecv; rw [if_pos ho]] at hb
      simp only [Option.some.injEq] at hb
      subst hb
      refine Splits.of_eq (acts := [.readFails p]) (by simp) (by
        simp only [run, step, whole, hc, hp, Bool.false_eq_true, if_false, if_true, readError, ho]; rfl) ?_
      simp [whole, State.with, upd_eta, hc]
  · simp at hb

theorem split_outWrite {t t' : FullSession.State} {p : Peer} {f : Option (Nat × Err)} (hp : Possible t (.base (.outWrite p f)))
    (h : FullSession.step parse t (.base (.outWrite p f)) = some t') : Splits parse (.base (.outWrite p f)) t t' := by
  have hc : t.base.crashed = false := FullSession.alive h
  simp only [FullSession.step, FullSession.isHandshake, Bool.false_eq_true, if_false, SessionModel.step, hc] at h
  obtain ⟨b, hb, rfl⟩ := Option.map_eq_some_iff.mp h
  split at hb
  · rename_i m hm
    cases f with
    | none =>
      simp only at hb
      split at hb
      · rename_i ho
        simp only [Option.some.injEq] at hb
        subst hb
        refine Splits.of_eq (acts := [.write p (sendMessage m).length]) (by simp) (by
          simp only [run, step, whole, hc, hm, Bool.false_eq_true, if_false, ho, true_and]
          rw [if_pos ⟨by by_cases hn : sendMessage m = []
                         · exact .inr hn
                         · exact .inl (List.length_pos_iff.mpr hn), by omega⟩]
          simp only [State.with, Nat.zero_add, Nat.lt_irrefl, if_false, List.drop_zero, List.take_length]
          rfl) ?_
        simp [whole, const_upd, *]
      · simp at hb
    | some f =>
      obtain ⟨n, e⟩ := f
      obtain ⟨hn, he⟩ := hp m hm
      simp only at hb
      split at hb
      · rename_i ho
        simp only [Option.some.injEq] at hb
        subst hb
        by_cases h0 : n = 0
        · subst h0
          refine Splits.of_eq (acts := [.writeFails p e]) (by simp) (by
            have hx : (t.base.conn p).isOpen = true ∨ e = .io 0 := by
              cases hx : (t.base.conn p).isOpen with
              | true => exact .inl rfl
              | false => exact .inr (he hx)
            simp only [run, step, whole, hc, hm, Bool.false_eq_true, if_false, hx, if_true]
            rfl) ?_
          simp [whole, State.with, upd_eta, *]
        · have ho' : (t.base.conn p).isOpen = true := by
            rcases ho with ho | ho
            · exact ho
            · exact absurd ho h0
          refine Splits.of_eq (acts := [.write p n, .writeFails p e]) (by simp) (by
            simp only [run, step, whole, hc, hm, Bool.false_eq_true, if_false, ho', true_and]
            rw [if_pos ⟨.inl (by omega), by omega⟩]
            simp only [State.with, Nat.zero_add, hn, if_true, hc, hm, Bool.false_eq_true, if_false, upd_same, ho', true_or]
            rfl) ?_
          simp [whole, upd_upd, const_upd, *]
      · simp at hb
  · simp at hb

theorem split_startup {t t' : FullSession.State} {f : Option Nat} (hp : Possible t (.startup f))
    (h : FullSession.step parse t (.startup f) = some t') : Splits parse (.startup f) t t' := by
  have hc : t.base.crashed = false := FullSession.alive h
  simp only [FullSession.step] at h
  split at h
  · rename_i m hm
    cases f with
    | none =>
      simp only at h
      obtain ⟨b, hb, rfl⟩ := Option.map_eq_some_iff.mp h
      simp only [SessionModel.step, hc, Bool.false_eq_true, if_false, and_false, or_false, reduceCtorEq] at hb
      split at hb
      · rename_i ho
        simp only [if_true, Option.some.injEq] at hb
        subst hb
        refine Splits.of_eq (acts := [.writeStartup (sendMessage (.startup m)).length]) (by simp) (by
          simp only [run, step, whole, hc, hm, Bool.false_eq_true, if_false, ho.2, true_and]
          rw [if_pos ⟨by by_cases hn : sendMessage (.startup m) = []
                         · exact .inr hn
                         · exact .inl (List.length_pos_iff.mpr hn), by omega⟩]
          simp only [State.with, Nat.zero_add, Nat.lt_irrefl, if_false, List.drop_zero, List.take_length]
          rfl) ?_
        simp [whole, const_upd, *]
      · simp at hb
    | some n =>
      obtain ⟨hn, he⟩ := hp m hm
      simp only at h
      obtain ⟨b, hb, rfl⟩ := Option.map_eq_some_iff.mp h
      simp only [SessionModel.step, hc, Bool.false_eq_true, if_false, and_true] at hb
      split at hb
      · rename_i ho
        simp only [Option.some.injEq] at hb
        subst hb
        by_cases h0 : n = 0
        · subst h0
          refine Splits.of_eq (acts := [.writeStartupFails]) (by simp) (by
            simp only [run, step, whole, hc, hm, Bool.false_eq_true, if_false]
            rfl) ?_
          simp [whole, State.with, upd_eta, *]
        · have ho' : (t.base.conn .db).isOpen = true := by
            cases hx : (t.base.conn .db).isOpen with
            | true => rfl
            | false => exact absurd (he hx) h0
          refine Splits.of_eq (acts := [.writeStartup n, .writeStartupFails]) (by simp) (by
            simp only [run, step, whole, hc, hm, Bool.false_eq_true, if_false, ho', true_and]
            rw [if_pos ⟨.inl (by omega), by omega⟩]
            simp only [State.with, Nat.zero_add, hn, if_true, hc, hm, Bool.false_eq_true, if_false, upd_same, ho']
            rfl) ?_
          simp [whole, upd_upd, const_upd, *]
      · simp at hb
  · simp at h

theorem split_recvStartup {t t' : FullSession.State} (h : FullSession.step parse t .recvStartup = some t') : Splits parse .recvStartup t t' := by
  have hc : t.base.crashed = false := FullSession.alive h
  simp only [FullSession.step] at h
  split at h
  · rename_i hp
    by_cases ho : (t.base.conn .client).isOpen = true
    · rcases startup_split (t.base.conn .client).unread with hw | ⟨f, rest, hf, hl⟩
      · -- the stream ends
        rw [tryRecvStartup_waiting ho hw] at h
        cases he : (t.base.conn .client).ended with
        | none => rw [he] at h; simp at h
        | some e =>
          rw [he] at h
          simp only [Option.map_some, List.length_nil, Nat.sub_zero, SessionModel.step, hc, Bool.false_eq_true, if_false, Nat.le_refl, and_true] at h
          split at h
          · rename_i hst
            simp only [Option.bind_some, FullSession.State.fail, SessionModel.step, hst, Bool.false_eq_true, if_false, if_true, Option.map_some,
              Option.some.injEq] at h
            subst h
            have hr := readStartup_bytes (parse := parse) (s := whole t) hc hp ho (u := (t.base.conn .client).unread) (rest := []) (by simp [whole])
              (by simpa [whole] using hw)
            refine Splits.of_eq (acts := List.replicate (t.base.conn .client).unread.length (.readStartup 1) ++ [.readStartupFails]) ?_
              (by rw [run_append, hr]
                  simp only [Option.bind_some, run, step, State.got, State.with, whole]
                  simp only [hc, hp, Bool.false_eq_true, if_false, if_true, readError, upd_same, ho, he]
                  rfl) ?_
            · intro x hx
              rcases List.mem_append.mp hx with hx | hx
              · rw [(List.mem_replicate.mp hx).2]; simp
              · simp only [List.mem_singleton] at hx; subst hx; simp
            · simp [whole, upd_upd, const_upd, *]
          · simp at h
      · -- a packet
        rw [tryRecvStartup_complete ho hf hl] at h
        obtain ⟨f', x, rfl⟩ : ∃ f' x, f = f' ++ [x] := by
          rcases List.eq_nil_or_concat f with rfl | ⟨f', x, rfl⟩
          · simp [startupTarget_nil] at hl
          · exact ⟨f', x, by simp⟩
        have hlt : f'.length < startupTarget f' := startup_before (.inr ⟨hl, by simp⟩)
        have hr := readStartup_bytes (parse := parse) (s := whole t) hc hp ho (u := f') (rest := x :: rest) (by simp [whole, hf]) (by simpa [whole] using hlt)
        have hin : ∀ y ∈ List.replicate f'.length (Action.readStartup 1) ++ [.readStartup 1], (∀ b, y ≠ .other b) ∧
            (y = .writeStartupFails → ∃ k, FullSession.Action.recvStartup = .startup (some k)) := by
          intro y hy
          rcases List.mem_append.mp hy with hy | hy
          · rw [(List.mem_replicate.mp hy).2]; simp
          · simp only [List.mem_singleton] at hy; subst hy; simp
        have hn : (t.base.conn .client).unread.length - rest.length = (f' ++ [x]).length := by rw [hf]; simp; omega
        have ht : (t.base.conn .client).unread.take (f' ++ [x]).length = f' ++ [x] := by rw [hf]; exact List.take_left' rfl
        have hd : (t.base.conn .client).unread.drop (f' ++ [x]).length = rest := by rw [hf]; exact List.drop_left' rfl
        have hle : (f' ++ [x]).length ≤ (t.base.conn .client).unread.length := by rw [hf]; simp
        let read (t : FullSession.State) : FullSession.State :=
          { t with base := { t.base with conn := upd t.base.conn .client { t.base.conn .client with unread := rest }, hsRead := t.base.hsRead ++ (f' ++ [x]) } }
        have hlast : run (step parse) (whole t) (List.replicate f'.length (.readStartup 1) ++ [.readStartup 1]) =
            match parseStartupMessage (.startup (f' ++ [x])) with
            | .ok m =>
              let y := { read t with packets := t.packets ++ [(f' ++ [x], m)] }
              if m.protocolVersion = sslRequestMagic then some (whole { y with hs := .reply })
              else if m.protocolVersion ≠ defaultProtocolVersion then some (whole { y with hs := .idle, base := { y.base with start := .deferred true } })
              else some (whole { y with hs := .config m })
            | .err _ => some (whole { read t with hs := .idle, base := { (read t).base with start := .deferred true } })
            | .panic _ => some (((whole t).got .client (f' ++ [x]) rest).with fun b => { b with crashed := true }) := by
          rw [run_append, hr]
          simp only [Option.bind_some, run, step, State.got, State.with, whole, List.nil_append, upd_same]
          simp only [hc, hp, ho, Bool.false_eq_true, if_false, true_and, Nat.lt_add_one]
          rw [if_pos ⟨by simp, by omega⟩]
          simp only [List.take_succ_cons, List.take_zero, List.drop_succ_cons, List.drop_zero]
          rw [if_neg (by omega)]
          cases parseStartupMessage (.startup (f' ++ [x])) with
          | ok m =>
            by_cases h1 : m.protocolVersion = sslRequestMagic
            · simp [upd_upd, const_upd, hc, ho, read, h1]
            · by_cases h2 : m.protocolVersion = defaultProtocolVersion
              · have h3 : ¬ defaultProtocolVersion = sslRequestMagic := by decide
                simp [upd_upd, const_upd, hc, ho, read, h2, h3]
              · simp [upd_upd, const_upd, hc, ho, read, h1, h2]
          | err e => simp [upd_upd, const_upd, hc, ho, read]
          | panic e => simp [upd_upd]
        cases hm : parseStartupMessage (.startup (f' ++ [x])) with
        | ok m =>
          rw [hm] at h hlast
          simp only [hn, SessionModel.step, hc, Bool.false_eq_true, if_false, hle, and_true, ht, hd] at h hlast
          split at h
          · rename_i hst
            simp only [Option.bind_some, FullSession.State.fail, SessionModel.step, hst, Bool.false_eq_true, if_false, if_true, Option.map_some] at h
            by_cases h1 : m.protocolVersion = sslRequestMagic
            · rw [if_pos h1] at h hlast
              simp only [Option.some.injEq] at h
              subst h
              exact Splits.of_eq hin hlast (by simp [read, hst, hc])
            · rw [if_neg h1] at h hlast
              by_cases h2 : m.protocolVersion ≠ defaultProtocolVersion
              · rw [if_pos h2] at h hlast
                simp only [Option.some.injEq] at h
                subst h
                exact Splits.of_eq hin hlast (by simp [read, hc])
              · rw [if_neg h2] at h hlast
                simp only [Option.some.injEq] at h
                subst h
                exact Splits.of_eq hin hlast (by simp [read, hst, hc])
          · simp at h
        | err e =>
          rw [hm] at h hlast
          simp only [hn, SessionModel.step, hc, Bool.false_eq_true, if_false, hle, and_true, ht, hd] at h hlast
          split at h
          · rename_i hst
            simp only [Option.bind_some, FullSession.State.fail, SessionModel.step, hst, Bool.false_eq_true, if_false, if_true, Option.map_some,
              Option.some.injEq] at h
            subst h
            exact Splits.of_eq hin hlast (by simp [read, hc])
          · simp at h
        | panic e =>
          rw [hm] at h hlast
          simp only [FullSession.State.crash, hc, Bool.false_eq_true, if_false, Option.some.injEq] at h
          subst h
          refine ⟨_, _, hin, hlast, ?_, by simp⟩
          rw [abs_eq (cutStartup_of_wrote rfl)]
          simp only [State.got, State.with, whole, List.nil_append]
          rw [absBase_same (fun _ => rfl)]
          simp only
          congr 2
          funext q
          by_cases hq : q = .client
          · subst hq; simp [← hf]
          · simp [upd_other _ _ hq]
    · -- we have closed the connection
      simp only [Bool.not_eq_true] at ho
      rw [show FullSession.tryRecvStartup (t.base.conn .client) = some (.err (.io 0), (t.base.conn .client).unread) by
        unfold FullSession.tryRecvStartup; rw [if_pos ho]] at h
      simp only [Nat.sub_self, SessionModel.step, hc, Bool.false_eq_true, if_false, Nat.zero_le, and_true, List.take_zero, List.drop_zero, List.append_nil] at h
      split at h
      · rename_i hst
        simp only [Option.bind_some, FullSession.State.fail, SessionModel.step, hst, Bool.false_eq_true, if_false, if_true, Option.map_some,
          Option.some.injEq] at h
        subst h
        refine Splits.of_eq (acts := [.readStartupFails]) (by simp) (by
          simp only [run, step, whole, hc, hp, Bool.false_eq_true, if_false, readError, ho, if_true]
          rfl) ?_
        simp [whole, upd_eta]
      · simp at h
  · simp at h

/-- What is done in one step can be done in pieces. -/
theorem split_step {t t' : FullSession.State} {a : FullSession.Action} (hr : replaced a = true) (hp : Possible t a)
    (h : FullSession.step parse t a = some t') : Splits parse a t t' := by
  cases a with
  | base a =>
    cases a <;> simp [replaced] at hr
    · exact split_inRecv h
    · exact split_outWrite hp h
  | recvStartup => exact split_recvStartup h
  | startup f => exact split_startup hp h
  | _ => simp [replaced] at hr

theorem crashed_run {t t' : FullSession.State} {acts : List FullSession.Action} (hc : t.base.crashed = true) (h : PossibleRun parse t acts t') : t' = t := by
  cases h with
  | nil => rfl
  | cons _ hs _ => rw [FullSession.alive hs] at hc; simp at hc

theorem split_run {t t' : FullSession.State} {acts : List FullSession.Action} (h : PossibleRun parse t acts t') :
    ∃ acts' s', run (step parse) (whole t) acts' = some s' ∧ abs s' = t' ∧ (t'.base.crashed = false → s' = whole t') := by
  induction h with
  | nil t => exact ⟨[], _, rfl, abs_whole t, fun _ => rfl⟩
  | @cons t a u acts t' hp hs hr ih =>
    have hc := FullSession.alive hs
    by_cases hrep : replaced a = true
    · obtain ⟨xs, s', -, h1, h2, h3⟩ := split_step hrep hp hs
      cases hu : u.base.crashed with
      | true => exact ⟨xs, s', h1, by rw [h2, crashed_run hu hr], fun hx => by rw [crashed_run hu hr, hu] at hx; simp at hx⟩
      | false =>
        obtain ⟨ys, s'', k1, k2, k3⟩ := ih
        exact ⟨xs ++ ys, s'', by rw [run_append, h1, h3 hu]; exact k1, k2, k3⟩
    · obtain ⟨ys, s'', k1, k2, k3⟩ := ih
      have h1 : step parse (whole t) (.other a) = some (whole u) := by
        simp only [step, whole, hc, Bool.false_eq_true, if_false, hrep, hs, Option.map_some]
      exact ⟨.other a :: ys, s'', by simp only [run, h1]; exact k1, k2, k3⟩

end Gevulot.Pieces
