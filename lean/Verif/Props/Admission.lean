import Verif.Props.FullSession
import Verif.Proofs.FullSessionTold

/-!
# C83: a client that is admitted gets its session

C67–C69 say what a session does not do. This is what it does: nobody calls `Close`, the configuration admits the client, its
database can be dialled, and writing to either succeeds.
-/

namespace Gevulot.FullSession

open SessionModel (Peer)

variable {parse : Bytes → Option ConnectionParams}

/-- Nobody calls `Close`, and nothing fails: the database can be dialled, the writes of the handshake succeed. -/
def Undisturbed : Action → Prop
  | .base .callClose => False
  | .reply ok => ok = true
  | .dial ok => ok = true
  | .startup failure => failure = none
  | _ => True

/-- And the configuration can be had and admits `m`. -/
def Favourable (parse : Bytes → Option ConnectionParams) (m : StartupMessage) (a : Action) : Prop :=
  Undisturbed a ∧ ∀ answer, a = .getConfig answer → ∃ url settings, answer = some url ∧ parse url = some settings ∧ Spec.Admitted m settings

/-- What the client has sent begins with SSL requests and a startup packet with `m`. -/
def Opens (m : StartupMessage) (sent : Bytes) : Prop :=
  ∃ (requests : List Bytes) (pkt more : Bytes), (∀ b ∈ requests, Spec.SSLRequest b) ∧ Spec.StartupPacket pkt m ∧ sent = requests.flatten ++ pkt ++ more

/-- What the client has sent begins with only one such message. -/
theorem opens_unique {requests requests' : List Bytes} {pkt pkt' more more' : Bytes} {m m' : StartupMessage}
    (hr : ∀ b ∈ requests, Spec.SSLRequest b) (hp : Spec.StartupPacket pkt m) (hv : m.protocolVersion.toNat ≠ 80877103)
    (hr' : ∀ b ∈ requests', Spec.SSLRequest b) (hp' : Spec.StartupPacket pkt' m') (hv' : m'.protocolVersion.toNat ≠ 80877103)
    (he : requests.flatten ++ pkt ++ more = requests'.flatten ++ pkt' ++ more') : requests = requests' ∧ m = m' := by
  induction requests generalizing requests' with
  | nil =>
    cases requests' with
    | nil => exact ⟨rfl, (packet_unique hp hp' (x := more) (x' := more') (by simpa using he)).2.1⟩
    | cons b bs =>
      obtain ⟨mb, hb, hbv⟩ := hr' b (by simp)
      obtain ⟨_, g, _⟩ := packet_unique hp hb (x := more) (x' := bs.flatten ++ pkt' ++ more') (by simpa using he)
      rw [g] at hv; exact absurd hbv hv
  | cons b bs ih =>
    obtain ⟨mb, hb, hbv⟩ := hr b (by simp)
    cases requests' with
    | nil =>
      obtain ⟨_, g, _⟩ := packet_unique hp' hb (x := more') (x' := bs.flatten ++ pkt ++ more) (by simpa using he.symm)
      rw [g] at hv'; exact absurd hbv hv'
    | cons b' bs' =>
      obtain ⟨mb', hb', _⟩ := hr' b' (by simp)
      obtain ⟨rfl, _, g⟩ := packet_unique hb hb' (x := bs.flatten ++ pkt ++ more) (x' := bs'.flatten ++ pkt' ++ more') (by simpa using he)
      obtain ⟨rfl, g'⟩ := ih (fun b hb => hr b (by simp [hb])) (fun b hb => hr' b (by simp [hb])) g
      exact ⟨rfl, g'⟩

/-- `RecvStartupMessage` does not fail on the beginning of a packet, as long as there may be more. -/
theorem tryRecvStartup_err {c : SessionModel.PeerConn} {e : Err} {rest pkt x y : Bytes} {m : StartupMessage}
    (h : tryRecvStartup c = some (.err e, rest)) (ho : c.isOpen = true) (hp : Spec.StartupPacket pkt m) (hx : c.ended ≠ none → x = []) :
    c.unread ++ x ≠ pkt ++ y := by
  intro he
  unfold tryRecvStartup at h
  simp only [ho, Bool.true_eq_false, if_false] at h
  split at h
  · rename_i f hf
    rw [hx (by rw [hf]; simp), List.append_nil] at he
    obtain ⟨r, h1, _⟩ := hp y f
    rw [he, h1] at h
    simp at h
  · split at h
    · rename_i f r hf
      simp only [Option.some.injEq, Prod.mk.injEq] at h
      obtain ⟨g1, g2, -⟩ := readStartupFrame_flat ⟨[c.unread], .eof⟩
      rw [hf] at g1 g2
      simp only [Reader.bytes, List.flatten_cons, List.flatten_nil, List.append_nil] at g1 g2
      obtain ⟨len, body, rfl, hb, hl, -⟩ := flatStartup_ok (Prod.ext g1.symm rfl)
      obtain ⟨r', h1, _⟩ := hp y .eof
      have h2 := (recvStartupMessage_eq ⟨[pkt ++ y], .eof⟩).1
      rw [h1] at h2
      simp only [Reader.bytes, List.flatten_cons, List.flatten_nil, List.append_nil] at h2
      rw [← he, hb, List.append_assoc, flatStartup_form len body _ .eof hl] at h2
      simp only at h2
      rw [h.1] at h2
      simp at h2
    · simp at h
    · simp at h

/-- What the client has sent only grows, and not after it has hung up. -/
theorem sent_step {b b' : SessionModel.State} {a : SessionModel.Action} (hs : SessionModel.step b a = some b') (p : Peer) :
    (∃ x, (b'.conn p).sent = (b.conn p).sent ++ x ∧ ((b.conn p).ended ≠ none → x = [])) ∧ ((b.conn p).ended ≠ none → (b'.conn p).ended ≠ none) := by
  have key : (b'.conn p).sent = (b.conn p).sent ∨ (∃ x, (b'.conn p).sent = (b.conn p).sent ++ x ∧ (b.conn p).ended = none) := by
    session_cases hs <;> grind [upd_apply]
  have key2 : (b.conn p).ended ≠ none → (b'.conn p).ended ≠ none := by
    session_cases hs <;> grind [upd_apply]
  refine ⟨?_, key2⟩
  rcases key with h | ⟨x, h, hx⟩
  · exact ⟨[], by simp [h], fun _ => rfl⟩
  · exact ⟨x, h, fun hn => absurd hx hn⟩

theorem sent_run {b b' : SessionModel.State} {acts : List SessionModel.Action} (h : run SessionModel.step b acts = some b') (p : Peer) :
    (∃ x, (b'.conn p).sent = (b.conn p).sent ++ x ∧ ((b.conn p).ended ≠ none → x = [])) ∧ ((b.conn p).ended ≠ none → (b'.conn p).ended ≠ none) := by
  refine run_invariant (fun c => (∃ x, (c.conn p).sent = (b.conn p).sent ++ x ∧ ((b.conn p).ended ≠ none → x = [])) ∧
    ((b.conn p).ended ≠ none → (c.conn p).ended ≠ none)) ⟨⟨[], by simp, fun _ => rfl⟩, id⟩ ?_ h
  rintro c a c' ⟨⟨x, h1, h2⟩, h3⟩ hs
  obtain ⟨⟨y, g1, g2⟩, g3⟩ := sent_step hs p
  refine ⟨⟨x ++ y, by rw [g1, h1, List.append_assoc], fun hn => ?_⟩, fun hn => g3 (h3 hn)⟩
  rw [h2 hn, g2 (h3 hn)]; rfl

/-- Whatever the client goes on to send, it will not have been `m`. -/
def Hopeless (parse : Bytes → Option ConnectionParams) (m : StartupMessage) (s : State) : Prop :=
  ∀ acts s', run (step parse) s acts = some s' → ¬ Opens m (s'.base.conn .client).sent

theorem hopeless_next {m : StartupMessage} {s s' : State} {a : Action} (h : Hopeless parse m s) (hs : step parse s a = some s') : Hopeless parse m s' := by
  intro acts s'' hr
  exact h (a :: acts) s'' (by simp only [run, hs]; exact hr)

theorem hopeless_of {m : StartupMessage} {s : State}
    (h : ∀ x, ((s.base.conn .client).ended ≠ none → x = []) → ¬ Opens m ((s.base.conn .client).sent ++ x)) : Hopeless parse m s := by
  intro acts s' hr
  obtain ⟨acts', hr', -⟩ := run_base hr
  obtain ⟨⟨x, h1, h2⟩, -⟩ := sent_run hr' .client
  rw [h1]
  exact h x h2

/-- How the handshake stands as long as everything is favourable. -/
structure Way (parse : Bytes → Option ConnectionParams) (m : StartupMessage) (s : State) : Prop where
  idle : s.hs = .idle → s.base.start = .notCalled ∨ s.base.proc ≠ .notStarted ∨ Hopeless parse m s
  other : ∀ m', (s.hs = .config m' ∨ (∃ x, s.hs = .dial m' x) ∨ s.hs = .assign m' ∨ s.hs = .startup m') → m' = m ∨ Hopeless parse m s
  unfired : s.hs ≠ .idle ∨ s.base.start = .notCalled ∨ s.base.proc ≠ .notStarted → s.base.fired = false

theorem way_init (m : StartupMessage) : Way parse m init := by
  refine ⟨fun _ => .inl rfl, ?_, fun _ => rfl⟩
  rintro m' (h | ⟨x, h⟩ | h | h) <;> simp [init] at h

theorem way_fail {m : StartupMessage} {s s' : State} (he : SessionModel.Early s.base) (h : s.fail = some s') (hh : Hopeless parse m s') : Way parse m s' := by
  unfold State.fail at h
  obtain ⟨b, hb, rfl⟩ := Option.map_eq_some_iff.mp h
  obtain ⟨rfl, hst⟩ := hsFail_frame hb
  refine ⟨fun _ => .inr (.inr hh), ?_, ?_⟩
  · rintro m' (h | ⟨x, h⟩ | h | h) <;> simp at h
  · rintro (h | h | h)
    · simp at h
    · simp at h
    · exact absurd (not_started he (by rw [hst]; rfl)) h

theorem fired_frame {b b' : SessionModel.State} {a : SessionModel.Action} (he : SessionModel.Early b) (hs : SessionModel.step b a = some b') (ha : a ≠ .callClose)
    (hx : SessionModel.ExitInv b)
    (hd : b.start.inHandshake = true ∨ b.start = .notCalled ∨ b.proc ≠ .notStarted) (hf : b.fired = false) : b'.fired = false := by
  obtain ⟨h1, h2, h3, h4⟩ := he
  obtain ⟨g1, g2, g3, g4, g5⟩ := hx
  session_cases hs <;> grind [SessionModel.StartPC.inHandshake]

theorem way_step {m : StartupMessage} {s s' : State} {a : Action} (hv : m.protocolVersion.toNat = 196608) (hr : Reachable (step parse) init s)
    (h : Way parse m s) (ha : Favourable parse m a) (hs : step parse s a = some s') : Way parse m s' := by
  have hi := hinv_of_reachable hr
  have hi' := hinv_of_reachable (hr.next hs)
  have hinv := SessionModel.inv_of_reachable (base_reachable hr)
  have hinv' := SessionModel.inv_of_reachable (base_reachable (hr.next hs))
  have hnext : Hopeless parse m s → Hopeless parse m s' := fun hx => hopeless_next hx hs
  have unread : ∀ x : State, HInv parse x → x.base.start.inHandshake = true → x.hs ≠ .idle →
      (x.base.conn .client).sent = x.packets.flatMap Prod.fst ++ (x.base.conn .client).unread := by
    intro x hx h1 h2
    obtain ⟨junk, r1, r2⟩ := hx.read
    have hj : junk = [] := Decidable.byContradiction fun hj => h2 (r2 hj).1
    have hu : (x.base.conn .client).sent = x.base.hsRead ++ (x.base.conn .client).unread := (hx.early.pumps .client (not_started hx.early h1)).2.2.2.2.1
    rw [hu, r1, hj, List.append_nil]
  cases a with
  | base a =>
    simp only [step] at hs
    split at hs
    · simp at hs
    rename_i hh
    obtain ⟨b, hb, rfl⟩ := Option.map_eq_some_iff.mp hs
    obtain ⟨-, -, f3, f4⟩ := base_frame (by simpa using hh) hi.early hb
    have hcl : a ≠ .callClose := by rintro rfl; exact ha.1
    have hin : s.hs ≠ .idle → s.base.start.inHandshake = true := by
      intro hx
      have hst := hi.stage
      unfold Stage at hst
      split at hst <;> rename_i he <;> first | (exact absurd he hx) | (rw [hst.1]; rfl)
    by_cases hc : a = .callStart ∧ b.start = .negotiating
    · have hst : s.base.start = .notCalled := by
        have := hc.1; subst this
        session_case hb <;> assumption
      have hfr := fired_frame hi.early hb hcl hinv.exit (.inr (.inl hst)) (h.unfired (.inr (.inl hst)))
      rw [if_pos hc] at *
      exact ⟨by simp, by simp, fun _ => hfr⟩
    · rw [if_neg hc] at *
      refine ⟨fun hx => ?_, fun m' hx => (h.other m' hx).imp id hnext, fun hx => ?_⟩
      · rcases h.idle hx with h1 | h1 | h1
        · rcases f4 with f4 | ⟨x, y, z⟩ | ⟨g1, g2, g3⟩
          · exact .inl (by rw [f4, h1])
          · exact absurd ⟨x, z⟩ hc
          · -- `Start` of a closed session
            exfalso
            have hff := h.unfired (.inr (.inl h1))
            have : b.start = .notCalled := by
              session_cases hb <;> simp_all
            exact g3 this
        · exact .inr (.inl (fun hx => h1 (f3.mp hx)))
        · exact .inr (.inr (hnext h1))
      · rcases hx with hx | hx | hx
        · exact fired_frame hi.early hb hcl hinv.exit (.inl (hin hx)) (h.unfired (.inl hx))
        · have hst : s.base.start = .notCalled := by
            rcases f4 with f4 | ⟨x, y, z⟩ | ⟨g1, g2, g3⟩
            · rw [← f4]; exact hx
            · exact y
            · exact absurd hx g3
          exact fired_frame hi.early hb hcl hinv.exit (.inr (.inl hst)) (h.unfired (.inr (.inl hst)))
        · have hx' : s.base.proc ≠ .notStarted := fun hy => hx (f3.mpr hy)
          exact fired_frame hi.early hb hcl hinv.exit (.inr (.inr hx')) (h.unfired (.inr (.inr hx')))
  | recvStartup =>
    have hs0 := hs
    simp only [step] at hs
    split at hs
    case h_2 => simp at hs
    rename_i hhs
    have hst := hi.stage
    unfold Stage at hst
    simp only [hhs] at hst
    have hf := h.unfired (.inl (by rw [hhs]; simp))
    have hsent := unread s hi (by rw [hst.1]; rfl) (by rw [hhs]; simp)
    have hopen : (s.base.conn .client).isOpen = true := by
      have h1 := hinv.close.fired
      have h2 := hinv.close.client.2.2
      rw [hf] at h1
      simp only [Bool.false_eq_true, false_iff] at h1
      rw [h2]
      simp; omega
    have hread : ∀ {n b}, SessionModel.step s.base (.hsRead n) = some b → b.fired = s.base.fired := by
      intro n b hb
      session_case hb
      rfl
    split at hs
    · simp at hs
    · rename_i m' rest hm'
      obtain ⟨b, hb, hs⟩ := Option.bind_eq_some_iff.mp hs
      split at hs
      · simp only [Option.some.injEq] at hs; subst hs
        refine ⟨by simp, by simp, fun _ => ?_⟩
        rw [← hf]; exact hread hb
      · rename_i hmagic
        have hv' : m'.protocolVersion.toNat ≠ 80877103 := fun hx => hmagic ((ssl_magic_iff m').mpr hx)
        -- once a packet with another message has been read there is no hope
        have hopeless : m ≠ m' → Hopeless parse m s := by
          intro hne
          refine hopeless_of fun x _ => ?_
          rintro ⟨requests, pkt, more, hreq, hp, he⟩
          obtain ⟨pkt', hu, hp'⟩ := tryRecvStartup_ok hm'
          refine hne (opens_unique (requests := requests) (requests' := s.packets.map Prod.fst) (pkt' := pkt') (more := more)
            (more' := rest ++ x) hreq hp (by omega) ?_ hp' hv' ?_).2
          · intro c hc
            obtain ⟨y, hy, rfl⟩ := List.mem_map.mp hc
            exact ⟨y.2, hi.valid y hy, hst.2.1 y hy⟩
          · rw [← he, hsent, hu]
            simp [List.flatMap]
        split at hs
        · rename_i hver
          refine way_fail (SessionModel.early_step hi.early hb) hs (hopeless_next (hopeless ?_) hs0)
          rintro rfl
          exact hver ((version3_iff m).mpr hv)
        · simp only [Option.some.injEq] at hs; subst hs
          refine ⟨by simp, ?_, fun _ => ?_⟩
          · rintro m'' (hx | ⟨x, hx⟩ | hx | hx) <;> simp at hx
            subst hx
            by_cases hne : m = m'
            · exact .inl hne.symm
            · exact .inr (hopeless_next (hopeless hne) hs0)
          · rw [← hf]; exact hread hb
    · rename_i e rest hm'
      obtain ⟨b, hb, hs⟩ := Option.bind_eq_some_iff.mp hs
      refine way_fail (SessionModel.early_step hi.early hb) hs (hopeless_next (hopeless_of fun x hx => ?_) hs0)
      rintro ⟨requests, pkt, more, hreq, hp, he⟩
      rw [hsent, List.append_assoc] at he
      obtain ⟨pkt', m'', rest', g1, g2⟩ := packets_prefix hi.valid hst.2.1 hreq hp (by omega) he
      exact tryRecvStartup_err hm' hopen g2 hx g1
    · rename_i hp; exact absurd hp tryRecvStartup_no_panic
  | reply ok =>
    have hok : ok = true := ha.1
    subst hok
    simp only [step] at hs
    split at hs
    case h_2 => simp at hs
    rename_i hhs
    simp only [if_true] at hs
    obtain ⟨b, hb, rfl⟩ := Option.map_eq_some_iff.mp hs
    refine ⟨by simp, by simp, fun _ => ?_⟩
    have hf := h.unfired (.inl (by rw [hhs]; simp))
    rw [← hf]
    session_case hb
    rfl
  | getConfig answer =>
    obtain ⟨url, settings, rfl, hurl, hadm⟩ := ha.2 _ rfl
    have hs0 := hs
    simp only [step] at hs
    split at hs
    case h_2 => simp at hs
    rename_i m' hhs
    have hf := h.unfired (.inl (by rw [hhs]; simp))
    simp only [Option.bind_some, hurl] at hs
    split at hs
    · rename_i hdb
      refine way_fail (s := { s with configs := s.configs ++ [some url] }) hi.early hs ?_
      rcases h.other m' (.inl hhs) with rfl | hx
      · rw [getParameter_eq] at hdb
        exact absurd hadm.2 hdb
      · exact hnext hx
    · split at hs
      · simp at hs
      · simp only [Option.some.injEq] at hs; subst hs
        refine ⟨by simp, ?_, fun _ => hf⟩
        rintro m'' (hx | ⟨x, hx⟩ | hx | hx) <;> simp at hx
        obtain ⟨rfl, -⟩ := hx
        exact (h.other m' (.inl hhs)).imp id hnext
  | dial ok =>
    have hok : ok = true := ha.1
    subst hok
    simp only [step] at hs
    split at hs
    case h_2 => simp at hs
    rename_i m' x hhs
    have hf := h.unfired (.inl (by rw [hhs]; simp))
    simp only [if_true] at hs
    obtain ⟨b, hb, rfl⟩ := Option.map_eq_some_iff.mp hs
    refine ⟨by simp, ?_, fun _ => ?_⟩
    · rintro m'' (hx | ⟨x, hx⟩ | hx | hx) <;> simp at hx
      subst hx
      exact (h.other m' (.inr (.inl ⟨_, hhs⟩))).imp id hnext
    · rw [← hf]
      session_case hb
      rfl
  | assign =>
    simp only [step] at hs
    split at hs
    case h_2 => simp at hs
    rename_i m' hhs
    have hf := h.unfired (.inl (by rw [hhs]; simp))
    obtain ⟨b, hb, rfl⟩ := Option.map_eq_some_iff.mp hs
    refine ⟨by simp, ?_, fun _ => ?_⟩
    · rintro m'' (hx | ⟨x, hx⟩ | hx | hx) <;> simp at hx
      subst hx
      exact (h.other m' (.inr (.inr (.inl hhs)))).imp id hnext
    · rw [← hf]
      session_case hb
      rfl
  | startup failure =>
    have hok : failure = none := ha.1
    subst hok
    simp only [step] at hs
    split at hs
    case h_2 => simp at hs
    rename_i m' hhs
    have hf := h.unfired (.inl (by rw [hhs]; simp))
    obtain ⟨b, hb, rfl⟩ := Option.map_eq_some_iff.mp hs
    refine ⟨fun _ => .inr (.inl ?_), by simp, fun _ => ?_⟩
    · session_case hb <;> simp_all
    · rw [← hf]
      session_case hb <;> simp_all

/-- C83: the client has sent SSL requests and then a startup packet `m`, of protocol 3.0; nobody has called `Close`; every configuration
given to the session admits `m`, its database could be dialled, and the writes of the handshake succeeded. Then, when gevulot has
nothing left to do, the session is running: the handshake is over, the goroutines have been started, `Start` has not returned; the
database that was configured was dialled, once, and what it got begins with the startup message `m`. -/
theorem C83 (s : State) (m : StartupMessage) (acts : List Action) (hrun : run (step parse) init acts = some s) (hacts : ∀ a ∈ acts, Undisturbed a)
    (hconf : ∀ r ∈ s.configs, ∃ url settings, r = some url ∧ parse url = some settings ∧ Spec.Admitted m settings)
    (requests : List Bytes) (pkt more : Bytes) (hr : ∀ b ∈ requests, Spec.SSLRequest b) (hp : Spec.StartupPacket pkt m)
    (hv : m.protocolVersion.toNat = 196608) (hsent : (s.base.conn .client).sent = requests.flatten ++ pkt ++ more)
    (hc : s.base.crashed = false) (hcalled : s.base.start ≠ .notCalled) (hrest : Settled parse s) :
    s.hs = .idle ∧ s.base.proc ≠ .notStarted ∧ s.base.start = .waiting ∧
    (∃ url settings, s.configs = [some url] ∧ parse url = some settings ∧
      s.dialed = [joinHostPort (settings.get (ascii "host")) (settings.get (ascii "port"))]) ∧
    sendMessage (.startup m) <+: (s.base.conn .db).written ∧ List.replicate requests.length Spec.no <+: (s.base.conn .client).written := by
  have h : Reachable (step parse) init s := ⟨acts, hrun⟩
  have hi := hinv_of_reachable h
  have hinv := SessionModel.inv_of_reachable (base_reachable h)
  have hw : Way parse m s :=
    (run_invariant_of (Favourable parse m) (fun x => Reachable (step parse) init x ∧ Way parse m x) ⟨Reachable.refl _, way_init m⟩
      (fun x a x' ha hx hs => ⟨hx.1.next hs, way_step hv hx.1 hx.2 ha hs⟩)
      (fun a ha => ⟨hacts a ha, fun answer e => hconf answer ((answers_run hrun).2 answer (e ▸ ha))⟩) hrun).2
  have hidle : s.hs = .idle := by
    rcases settled_hs s h hc hrest with hx | ⟨hx, hn⟩
    · exact hx
    · have hst := hi.stage
      unfold Stage at hst
      rw [hx] at hst
      obtain ⟨junk, r1, r2⟩ := hi.read
      have hj : junk = [] := junk_nil hx (by simp) r2
      have hu : (s.base.conn .client).sent = s.base.hsRead ++ (s.base.conn .client).unread :=
        (hi.early.pumps .client (not_started hi.early (by rw [hst.1]; rfl))).2.2.2.2.1
      rw [hsent, r1, hj, List.append_nil] at hu
      obtain ⟨pkt', m', rest, g1, g2⟩ := packets_prefix hi.valid hst.2.1 hr hp (by omega) hu.symm
      exact absurd hn (tryRecvStartup_packet g1 g2)
  have hproc : s.base.proc ≠ .notStarted := by
    rcases hw.idle hidle with hx | hx | hx
    · exact absurd hx hcalled
    · exact hx
    · exact absurd ⟨requests, pkt, more, hr, hp, hsent⟩ (hx [] s rfl)
  obtain ⟨requests', pkt', m', settings', h1, h2, h3, h4, h5, h6⟩ := running s h hproc
  obtain ⟨relayed, rest, w, ms, g1, g2, g3, g4⟩ := SessionModel.C33 s.base (base_reachable h) .client
  obtain ⟨relayed', rest', w', ms', d1, d2, d3, d4⟩ := SessionModel.C33 s.base (base_reachable h) .db
  have g1' : (s.base.conn .client).sent = requests'.flatten ++ pkt' ++ relayed := by rw [g1, ← h4]; rfl
  rw [hsent] at g1'
  obtain ⟨rfl, rfl⟩ := opens_unique hr hp (by omega) h1 h2 (by rw [h3.1]; decide) g1'
  refine ⟨hidle, hproc, hinv.exit.waiting hproc (hw.unfired (.inr (.inr hproc))), ?_, ?_, ?_⟩
  · have hst := hi.stage
    unfold Stage at hst
    simp only [hidle] at hst
    rcases hst.2 with ⟨-, -, -, -, hx, -⟩ | ⟨_, settings, -, -, -, ⟨url, k1, k2, -⟩, k3, -⟩
    · exact absurd hx hproc
    · exact ⟨url, settings, k1, k2, k3⟩
  · have := g3.symm
    rw [show s.base.hsWritten Peer.client.other = _ from h5] at this
    exact ⟨_, this⟩
  · have := d3.symm
    rw [show s.base.hsWritten Peer.db.other = _ from h6] at this
    exact ⟨_, this⟩

/-- C83: the client has sent an SSL request, its startup packet and a query. -/
example : let s := after traffic
    run (step exampleParse) init traffic = some s ∧ (∀ a ∈ traffic, Undisturbed a) ∧
    (∀ r ∈ s.configs, ∃ url settings, r = some url ∧ exampleParse url = some settings ∧ Spec.Admitted exampleStartup settings) ∧
    exampleStartup.protocolVersion.toNat = 196608 ∧ Spec.StartupPacket (Spec.wire (.startup exampleStartup)) exampleStartup ∧
    (s.base.conn .client).sent = [Spec.sslRequestPacket].flatten ++ Spec.wire (.startup exampleStartup) ++ (SessionModel.queryBytes ++ [0x51, 0, 0]) ∧
    s.base.crashed = false ∧ s.base.start = .waiting ∧ Settled exampleParse s := by
  refine ⟨?_, ?_, ?_, by decide, ?_, by decide +kernel, by decide +kernel, by decide +kernel, ?_⟩
  · exact after_append [] traffic (by decide +kernel) (by decide +kernel)
  · simp only [traffic, opened, opening, List.cons_append, List.nil_append, List.forall_mem_cons]
    refine ⟨trivial, trivial, trivial, rfl, trivial, trivial, rfl, trivial, rfl, ?_⟩
    simp [Undisturbed]
  · have hadm : Spec.Admitted exampleStartup exampleSettings := ⟨by decide, by decide +kernel⟩
    have hc : (after traffic).configs = [some (ascii "postgres://db.example/app")] := by decide +kernel
    intro r hr
    rw [hc, List.mem_singleton] at hr
    exact ⟨_, exampleSettings, hr, rfl, hadm⟩
  · rw [← sendMessage_eq_wire]
    exact packet_of_message (by decide +kernel)
  · have h0 : (after traffic).hs = .idle := by
      have : (match (after traffic).hs with | .idle => true | _ => false) = true := by decide +kernel
      split at this <;> simp_all
    have h1 : ∀ p, SessionModel.step (after traffic).base (.inRecv p) = none := fun p =>
      Option.isNone_iff_eq_none.mp (by cases p <;> decide +kernel)
    have h2 : ∀ p, (after traffic).base.inPump p = .recv ∧ (after traffic).base.outPump p = .recv ∧ (after traffic).base.inCh p = ⟨[], false⟩ ∧
        (after traffic).base.outCh p = ⟨[], false⟩ := fun p => by cases p <;> decide +kernel
    have h3 : (after traffic).base.proc = .select ∧ (after traffic).base.closer = .none ∧ (after traffic).base.start = .waiting ∧
        (after traffic).base.allExited = false := by decide +kernel
    generalize after traffic = s at *
    obtain ⟨g1, g2, g3, g4⟩ := h3
    intro a ha
    cases a with
    | base a =>
      cases a with
      | inRecv p => simp [step, isHandshake, h1]
      | inSend p => simp [step, isHandshake, SessionModel.step, h2]
      | procRecv p => simp [step, isHandshake, SessionModel.step, h2]
      | procSend => simp [step, isHandshake, SessionModel.step, g1]
      | outRecv p => simp [step, isHandshake, SessionModel.step, h2]
      | outWrite p f => simp [step, isHandshake, SessionModel.step, h2]
      | closeStep => simp [step, isHandshake, SessionModel.step, g2]
      | join => simp [step, isHandshake, SessionModel.step, g4]
      | startFinish => simp [step, isHandshake, SessionModel.step, g3]
      | _ => simp [Internal, SessionModel.Action.isSession] at ha
    | _ => simp [step, h0]

end Gevulot.FullSession
