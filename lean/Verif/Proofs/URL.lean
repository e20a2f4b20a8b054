import Verif.Model.URL
import Verif.Spec.URI

/-!
# `url.Parse` on URIs as documented
-/

namespace Gevulot.URLModel

open Spec

/-! ### Cutting -/

theorem cut_append {c : Byte} {a b : Bytes} (h : c ∉ a) : cut c (a ++ c :: b) = (a, c :: b) := by
  induction a with
  | nil => simp [cut]
  | cons x xs ih =>
    simp only [List.mem_cons, not_or] at h
    have := ih h.2
    simp only [cut, Prod.mk.injEq] at this ⊢
    have hx : (x != c) = true := by simpa using fun e => h.1 e.symm
    simp [hx, this]

theorem cut_none {c : Byte} {a : Bytes} (h : c ∉ a) : cut c a = (a, []) := by
  induction a with
  | nil => simp [cut]
  | cons x xs ih =>
    simp only [List.mem_cons, not_or] at h
    have := ih h.2
    simp only [cut, Prod.mk.injEq] at this ⊢
    have hx : (x != c) = true := by simpa using fun e => h.1 e.symm
    simp [hx, this]

theorem splitCut_append {c : Byte} {a b : Bytes} (h : c ∉ a) : splitCut c (a ++ c :: b) = (a, b) := by
  simp [splitCut, cut_append h]

theorem splitCut_none {c : Byte} {a : Bytes} (h : c ∉ a) : splitCut c a = (a, []) := by
  simp [splitCut, cut_none h]

theorem lastCut_none {c : Byte} {a : Bytes} (h : c ∉ a) : lastCut c a = none := by
  induction a with
  | nil => rfl
  | cons x xs ih =>
    simp only [List.mem_cons, not_or] at h
    simp [lastCut, ih h.2, Ne.symm h.1]

theorem lastCut_append {c : Byte} {a b : Bytes} (h : c ∉ b) : lastCut c (a ++ c :: b) = some (a, b) := by
  induction a with
  | nil => simp [lastCut, lastCut_none h]
  | cons x xs ih => simp [lastCut, ih]

theorem schemeLoop_letters (raw rest : Bytes) (a : Bytes) (ha : ∀ c ∈ a, isLetter c = true) (seen : Bytes) (h : seen ++ a ≠ []) :
    schemeLoop raw seen (a ++ chr ':' :: rest) = .ok (seen ++ a, rest) := by
  induction a generalizing seen with
  | nil =>
    have h1 : isLetter (chr ':') = false := by decide
    have h2 : (isDigit (chr ':') || oneOf "+-." (chr ':')) = false := by decide
    have : seen ≠ [] := by simpa using h
    simp [schemeLoop, h1, h2, this]
  | cons x xs ih =>
    have hx := ha x (by simp)
    have := ih (fun c hc => ha c (by simp [hc])) (seen ++ [x]) (by simp)
    simpa [schemeLoop, hx] using this

/-! ### Hexadecimal digits and percent-encoding -/

theorem hex_lt {c : Byte} {v : Nat} (h : HexDigit c v) : v < 16 := by
  rcases h with h | h
  · exact (List.getElem?_eq_some_iff.mp h).1
  · exact (List.getElem?_eq_some_iff.mp h).1

theorem hex_table : ∀ v : Fin 16, ∀ c : Byte, ((ascii "0123456789abcdef")[v.val]? = some c ∨ (ascii "0123456789ABCDEF")[v.val]? = some c) →
    ishex c = true ∧ unhex c = BitVec.ofNat 8 v.val ∧ (v.val = 2 → c = chr '2') ∧ (v.val = 5 → c = chr '5') ∧ unreserved c = true := by
  decide +kernel

theorem hex_facts {c : Byte} {v : Nat} (h : HexDigit c v) :
    ishex c = true ∧ unhex c = BitVec.ofNat 8 v ∧ (v = 2 → c = chr '2') ∧ (v = 5 → c = chr '5') ∧ unreserved c = true :=
  hex_table ⟨v, hex_lt h⟩ c h

theorem hex_byte : ∀ x y : Fin 16, BitVec.ofNat 8 x.val <<< 4 ||| BitVec.ofNat 8 y.val = BitVec.ofNat 8 (16 * x.val + y.val) := by
  decide +kernel

theorem unescape_encoded {mode : Mode} {plain coded : Byte → Bool} (hz : mode ≠ .zone)
    (hp : ∀ c, plain c = true → c ≠ chr '%' ∧ ¬ (mode = .host ∧ c < 0x80 ∧ shouldEscape c mode) ∧ ¬ (c = chr '+' ∧ mode = .query))
    (hc : mode = .host → ∀ c, coded c = true → 128 ≤ c.toNat ∨ c = chr '%') {b text : Bytes} (h : Encoded plain coded b text) :
    unescape mode text = .ok b := by
  induction h with
  | nil => rfl
  | @char c b text h1 _ ih =>
    obtain ⟨g1, g2, g3⟩ := hp c h1
    have g2' : ¬ ((mode = .host ∨ mode = .zone) ∧ c < 0x80 ∧ shouldEscape c mode) := by
      rintro ⟨h | h, h'⟩
      · exact g2 ⟨h, h'⟩
      · exact hz h
    unfold unescape
    rw [if_neg g1, if_neg g2', ih, Res.bind_ok, if_neg g3, Res.pure_eq]
  | @code c h l x y b text h1 h2 h3 h4 _ ih =>
    obtain ⟨a1, a2, a3, a4, a5⟩ := hex_facts h2
    obtain ⟨b1, b2, b3, b4, b5⟩ := hex_facts h3
    have hx := hex_lt h2
    have hy := hex_lt h3
    have hb := hex_byte ⟨x, hx⟩ ⟨y, hy⟩
    simp only at hb
    have hhost : ¬ (mode = .host ∧ unhex h < 8 ∧ ¬ (h = chr '2' ∧ l = chr '5')) := by
      rintro ⟨g1, g2, g3⟩
      have hcn : c.toNat = 16 * x + y := by rw [h4]; simp only [BitVec.toNat_ofNat]; omega
      rcases hc g1 c h1 with g | g
      · rw [a2, BitVec.lt_def] at g2
        have h8 : (8 : Byte).toNat = 8 := by decide
        simp only [BitVec.toNat_ofNat, h8] at g2
        omega
      · have h25 : (chr '%').toNat = 37 := by decide
        rw [g, h25] at hcn
        exact g3 ⟨a3 (by omega), b4 (by omega)⟩
    show unescape mode (chr '%' :: h :: l :: text) = _
    unfold unescape
    rw [if_pos rfl]
    simp only
    rw [if_neg (by simp [a1, b1]), if_neg hhost, if_neg (fun h => hz h.1), ih, Res.bind_ok, Res.pure_eq, a2, b2, hb, ← h4]

theorem encoded_all {plain coded P : Byte → Bool} (h1 : ∀ c, plain c = true → P c = true) (h2 : P (chr '%') = true)
    (h3 : ∀ c, unreserved c = true → P c = true) {b text : Bytes} (h : Encoded plain coded b text) : ∀ c ∈ text, P c = true := by
  induction h with
  | nil => simp
  | char c h _ ih =>
    intro x hx
    rcases List.mem_cons.mp hx with rfl | hx
    · exact h1 _ h
    · exact ih _ hx
  | @code c h l x y b text h1 g2 g3 h4 _ ih =>
    intro z hz
    have : z = chr '%' ∨ z = h ∨ z = l ∨ z ∈ text := by simpa [ascii, chr] using hz
    rcases this with rfl | rfl | rfl | hz
    · exact h2
    · exact h3 _ (hex_facts g2).2.2.2.2
    · exact h3 _ (hex_facts g3).2.2.2.2
    · exact ih _ hz

/-! ### The characters of each part -/

/-- Neither control character nor `#`. -/
def visible (c : Byte) : Bool := !isCTL c && c != chr '#'

/-- The characters that may occur in the user and the password. -/
def userChar (c : Byte) : Bool := validUserinfo [c] && c != chr '@'

/-- In a host name and its port, without the brackets. -/
def hostChar (c : Byte) : Bool := visible c && !oneOf "@/?[]:" c

theorem user_table : ∀ c : Byte, (unreserved c || subDelim c || (ascii ":").contains c) = true →
    userChar c = true ∧ c ≠ chr '%' := by decide +kernel

theorem user_table' : ∀ c : Byte, (unreserved c || subDelim c) = true → (userChar c && c != chr ':') = true ∧ c ≠ chr '%' := by decide +kernel

theorem host_table : ∀ c : Byte, (unreserved c || subDelim c) = true →
    hostChar c = true ∧ c ≠ chr '%' ∧ shouldEscape c .host = false := by decide +kernel

theorem v6_table : ∀ c : Byte, (ascii "0123456789abcdefABCDEF:.").contains c = true →
    (visible c && !oneOf "@/?[]%" c) = true ∧ shouldEscape c .host = false := by decide +kernel

theorem digit_table : ∀ c : Byte, (ascii "0123456789").contains c = true →
    isDigit c = true ∧ hostChar c = true ∧ shouldEscape c .host = false ∧ c ≠ chr '%' := by decide +kernel

theorem path_table : ∀ c : Byte, (unreserved c || subDelim c || (ascii ":@/").contains c) = true →
    (visible c && c != chr '?') = true ∧ c ≠ chr '%' := by decide +kernel

/-- The characters of parameters that are read as they are written. -/
def safeParamChar (c : Byte) : Bool := paramChar c && !(ascii "+;").contains c

theorem param_table : ∀ c : Byte, safeParamChar c = true →
    (visible c && !oneOf "&;=" c) = true ∧ c ≠ chr '%' ∧ c ≠ chr '+' := by decide +kernel

theorem unreserved_table : ∀ c : Byte, unreserved c = true →
    (userChar c && c != chr ':') = true ∧ hostChar c = true ∧ (visible c && c != chr '?') = true ∧ (visible c && !oneOf "&;=" c) = true := by
  decide +kernel

theorem userChar_table : ∀ c : Byte, userChar c = true → (visible c && !oneOf "@/?#" c) = true := by decide +kernel

theorem hostChar_table : ∀ c : Byte, hostChar c = true → visible c = true ∧ c ≠ chr '@' ∧ c ≠ chr '/' ∧ c ≠ chr '?' ∧ c ≠ chr '[' ∧ c ≠ chr ']' ∧ c ≠ chr ':' := by
  decide +kernel

theorem not_mem_of {P : Byte → Bool} {t : Bytes} (h : ∀ c ∈ t, P c = true) {c : Byte} (hc : P c = false) : c ∉ t := by
  intro hm
  rw [h c hm] at hc
  exact absurd hc (by simp)

/-! ### User and password -/

theorem user_text {u : Option (Bytes × Option Bytes)} {text : Bytes} (h : UserText u text) :
    (u = none ∧ text = []) ∨ ∃ info t, text = t ++ ascii "@" ∧ u = some (info.username, info.password) ∧
      (∀ c ∈ t, userChar c = true) ∧ ∀ (host : Bytes) (host' : Bytes), chr '@' ∉ host → parseHost host = .ok host' →
        parseAuthority (t ++ chr '@' :: host) = .ok (some info, host') := by
  have hv : ∀ t : Bytes, (∀ c ∈ t, userChar c = true) → validUserinfo t = true := by
    intro t ht
    simp only [validUserinfo, List.all_eq_true]
    intro c hc
    have := ht c hc
    simp only [userChar, validUserinfo, List.all_cons, List.all_nil, Bool.and_true, Bool.and_eq_true] at this
    exact this.1
  have hun : ∀ (b t : Bytes), Encoded (fun c => unreserved c || subDelim c) anyByte b t → unescape .userPassword t = .ok b := fun b t h =>
    unescape_encoded (by simp) (fun c hc => ⟨(user_table' c hc).2, by simp, by simp⟩) (by simp) h
  have huc : ∀ (b t : Bytes), Encoded (fun c => unreserved c || subDelim c) anyByte b t → ∀ c ∈ t, (userChar c && c != chr ':') = true := fun b t h =>
    encoded_all (fun c hc => (user_table' c hc).1) (by decide) (fun c hc => (unreserved_table c hc).1) h
  cases h with
  | absent => exact .inl ⟨rfl, rfl⟩
  | user b t hne henc =>
    refine .inr ⟨⟨b, none⟩, t, rfl, rfl, fun c hc => ?_, fun host host' h1 h2 => ?_⟩
    · have := huc b t henc c hc
      simp only [Bool.and_eq_true] at this; exact this.1
    · have h3 : t.contains (chr ':') = false := by
        simp only [List.contains_eq_mem, decide_eq_false_iff_not]
        exact not_mem_of (huc b t henc) (by decide)
      have h4 : validUserinfo t = true := hv t fun c hc => by
        have := huc b t henc c hc
        simp only [Bool.and_eq_true] at this; exact this.1
      simp only [parseAuthority, lastCut_append h1, h2, h3, h4, hun b t henc, Res.bind_ok, Bool.not_true, Bool.not_false, if_true, if_false,
        Res.pure_eq, Bool.false_eq_true]
  | password b t p t' hne henc henc' =>
    have hp : ∀ c ∈ t', userChar c = true := encoded_all (fun c hc => (user_table c hc).1) (by decide)
      (fun c hc => by have := (unreserved_table c hc).1; simp only [Bool.and_eq_true] at this; exact this.1) henc'
    have hb : ∀ c ∈ t, userChar c = true := fun c hc => by
      have := huc b t henc c hc
      simp only [Bool.and_eq_true] at this; exact this.1
    have hall : ∀ c ∈ t ++ ascii ":" ++ t', userChar c = true := by
      intro c hc
      simp only [List.mem_append] at hc
      rcases hc with (hc | hc) | hc
      · exact hb c hc
      · have : c = chr ':' := by simpa [ascii, chr] using hc
        subst this; decide
      · exact hp c hc
    have hup : unescape .userPassword t' = .ok p :=
      unescape_encoded (by simp) (fun c hc => ⟨(user_table c hc).2, by simp, by simp⟩) (by simp) henc'
    refine .inr ⟨⟨b, some p⟩, t ++ ascii ":" ++ t', rfl, rfl, hall, fun host host' h1 h2 => ?_⟩
    have h3 : (t ++ ascii ":" ++ t').contains (chr ':') = true := by simp [ascii, chr]
    have h4 := hv _ hall
    have h5 : splitCut (chr ':') (t ++ ascii ":" ++ t') = (t, t') := by
      have : t ++ ascii ":" ++ t' = t ++ chr ':' :: t' := by simp [ascii, chr]
      rw [this]
      exact splitCut_append (not_mem_of (huc b t henc) (by decide))
    simp only [parseAuthority, lastCut_append h1, h2, h3, h4, h5, hun b t henc, hup, Res.bind_ok, Bool.not_true, if_false, Res.pure_eq,
      Bool.false_eq_true]

/-! ### Host and port -/

theorem encoded_append {plain coded : Byte → Bool} {a b a' b' : Bytes} (ha : Encoded plain coded a a') (hb : Encoded plain coded b b') :
    Encoded plain coded (a ++ b) (a' ++ b') := by
  induction ha with
  | nil => exact hb
  | char c h _ ih => exact .char c h ih
  | code c h l x y h1 h2 h3 h4 _ ih => exact .code c h l x y h1 h2 h3 h4 ih

theorem encoded_mono {plain coded plain' : Byte → Bool} (hp : ∀ c, plain c = true → plain' c = true) {b t : Bytes} (h : Encoded plain coded b t) :
    Encoded plain' coded b t := by
  induction h with
  | nil => exact .nil
  | char c h _ ih => exact .char c (hp c h) ih
  | code c h l x y h1 h2 h3 h4 _ ih => exact .code c h l x y h1 h2 h3 h4 ih

theorem encoded_self {plain coded : Byte → Bool} {b : Bytes} (h : ∀ c ∈ b, plain c = true) : Encoded plain coded b b := by
  induction b with
  | nil => exact .nil
  | cons c b ih => exact .char c (h c (by simp)) (ih fun x hx => h x (by simp [hx]))

theorem encoded_bytes {plain coded : Byte → Bool} {P : Byte → Prop} (h1 : ∀ c, plain c = true → P c) (h2 : ∀ c, coded c = true → P c) {b t : Bytes}
    (h : Encoded plain coded b t) : ∀ c ∈ b, P c := by
  induction h with
  | nil => simp
  | char c h _ ih =>
    intro x hx
    rcases List.mem_cons.mp hx with rfl | hx
    · exact h1 _ h
    · exact ih _ hx
  | code c h l x y g1 g2 g3 g4 _ ih =>
    intro x hx
    rcases List.mem_cons.mp hx with rfl | hx
    · exact h2 _ g1
    · exact ih _ hx

/-- The characters of a host name that may be percent-encoded: those that are not ASCII, and `%`. -/
def codedHost (c : Byte) : Bool := decide (128 ≤ c.toNat) || c == chr '%'

/-- What may stand in host and port. -/
def hostPlain (c : Byte) : Bool := unreserved c || subDelim c || oneOf ":[]" c

theorem hostPlain_table : ∀ c : Byte, hostPlain c = true → c ≠ chr '%' ∧ shouldEscape c .host = false := by decide +kernel

theorem unescape_host {b t : Bytes} (h : Encoded hostPlain codedHost b t) : unescape .host t = .ok b := by
  refine unescape_encoded (by simp) (fun c hc => ⟨(hostPlain_table c hc).1, ?_, by simp⟩) (fun _ c hc => ?_) h
  · simp [(hostPlain_table c hc).2]
  · simpa [codedHost] using hc

theorem cutAt_none {s : Bytes} (h : chr '%' ∉ s) : cutAt (ascii "%25") s = none := by
  induction s with
  | nil => rfl
  | cons c s ih =>
    simp only [List.mem_cons, not_or] at h
    have : (ascii "%25").isPrefixOf (c :: s) = false := by
      have : ascii "%25" = [chr '%', chr '2', chr '5'] := by decide
      rw [this]
      simp [List.isPrefixOf, h.1]
    simp [cutAt, this, ih h.2]

theorem lastCut_last {c z : Byte} (hz : z ≠ c) {s x y : Bytes} (h : lastCut c (s ++ [z]) = some (x, y)) : ∃ y', y = y' ++ [z] := by
  induction s generalizing x y with
  | nil => simp [lastCut, hz] at h
  | cons a s ih =>
    simp only [List.cons_append, lastCut] at h
    cases hc : lastCut c (s ++ [z]) with
    | some p =>
      obtain ⟨p, q⟩ := p
      rw [hc] at h
      simp only [Option.some.injEq, Prod.mk.injEq] at h
      obtain ⟨-, rfl⟩ := h
      exact ih hc
    | none =>
      rw [hc] at h
      simp only at h
      split at h
      · simp only [Option.some.injEq, Prod.mk.injEq] at h
        exact ⟨s, h.2.symm⟩
      · simp at h

theorem port_text {p : Option Bytes} {text : Bytes} (h : PortText p text) :
    (text = [] ∧ p = none) ∨ ∃ d, text = chr ':' :: d ∧ p = some d ∧ ∀ c ∈ d, (ascii "0123456789").contains c = true := by
  cases h with
  | absent => exact .inl ⟨rfl, rfl⟩
  | port d h => exact .inr ⟨d, rfl, rfl, by simpa using h⟩

theorem validPort {d : Bytes} (h : ∀ c ∈ d, (ascii "0123456789").contains c = true) : validOptionalPort (chr ':' :: d) = true := by
  simp only [validOptionalPort, beq_self_eq_true, Bool.true_and, List.all_eq_true]
  exact fun c hc => (digit_table c (h c hc)).1

theorem digits_plain {d : Bytes} (h : ∀ c ∈ d, (ascii "0123456789").contains c = true) : ∀ c ∈ d, hostPlain c = true := by
  have : ∀ c : Byte, (ascii "0123456789").contains c = true → hostPlain c = true := by decide +kernel
  exact fun c hc => this c (h c hc)

theorem colon_digits {d : Bytes} (h : ∀ c ∈ d, (ascii "0123456789").contains c = true) : chr ':' ∉ d ∧ chr ']' ∉ d := by
  constructor <;> intro hm <;> exact absurd (h _ hm) (by decide)

theorem host_text {b host : Bytes} {p : Option Bytes} {port : Bytes} (h : HostText codedHost b host) (hp : PortText p port) :
    ∃ out, parseHost (host ++ port) = .ok out ∧ splitHostPort out = (b, p.getD []) := by
  cases h with
  | name _ henc =>
    have ht : ∀ c ∈ host, hostChar c = true := by
      refine encoded_all (fun c hc => (host_table c hc).1) (by decide) (fun c hc => (unreserved_table c hc).2.1) henc
    have hb : ∀ c ∈ b, c ≠ chr ':' ∧ c ≠ chr '[' := by
      refine encoded_bytes (fun c hc => ?_) (fun c hc => ?_) henc
      · have := hostChar_table c (host_table c hc).1
        exact ⟨this.2.2.2.2.2.2, this.2.2.2.2.1⟩
      · constructor <;> rintro rfl <;> revert hc <;> decide
    have hch : chr ':' ∉ host := not_mem_of ht (by decide)
    have hcb : chr ':' ∉ b := fun h => (hb _ h).1 rfl
    have hhead : ∀ (rest : Bytes), rest.head? ≠ some (chr '[') → (host ++ rest).head? ≠ some (chr '[') := by
      intro rest hr
      cases host with
      | nil => exact hr
      | cons x xs =>
        have := hostChar_table x (ht x (by simp))
        simp only [List.cons_append, List.head?_cons, ne_eq, Option.some.injEq]
        exact this.2.2.2.2.1
    have hheadb : b.head? ≠ some (chr '[') := by
      cases b with
      | nil => simp
      | cons x xs =>
        simp only [List.head?_cons, ne_eq, Option.some.injEq]
        exact (hb x (by simp)).2
    have henc' : Encoded hostPlain codedHost b host := encoded_mono (fun c hc => by simp only [hostPlain]; rw [hc]; rfl) henc
    rcases port_text hp with ⟨rfl, rfl⟩ | ⟨d, rfl, rfl, hd⟩
    · refine ⟨b, ?_, ?_⟩
      · rw [List.append_nil, parseHost, if_neg (by simpa using hhead [] (by simp)), lastCut_none hch]
        exact unescape_host henc'
      · simp [splitHostPort, lastCut_none hcb, hheadb]
    · refine ⟨b ++ chr ':' :: d, ?_, ?_⟩
      · rw [parseHost, if_neg (hhead _ (by simp [chr])), lastCut_append (colon_digits hd).1]
        simp only [validPort hd, Bool.not_true, Bool.false_eq_true, if_false]
        exact unescape_host (encoded_append henc' (.char _ (by decide) (encoded_self (digits_plain hd))))
      · simp [splitHostPort, lastCut_append (colon_digits hd).1, validPort hd, hheadb]
  | ipv6 hall hne =>
    simp only [List.all_eq_true] at hall
    have hb : ∀ c ∈ b, hostPlain c = true ∧ c ≠ chr ']' ∧ c ≠ chr '%' := by
      have : ∀ c : Byte, (ascii "0123456789abcdefABCDEF:.").contains c = true → hostPlain c = true ∧ c ≠ chr ']' ∧ c ≠ chr '%' := by decide +kernel
      exact fun c hc => this c (hall c hc)
    have hbr : ascii "[" ++ b ++ ascii "]" = chr '[' :: b ++ [chr ']'] := by simp [ascii, chr]
    have hplain : ∀ c ∈ chr '[' :: b ++ [chr ']'], hostPlain c = true := by
      intro c hc
      simp only [List.cons_append, List.mem_cons, List.mem_append, List.not_mem_nil, or_false] at hc
      rcases hc with rfl | hc | rfl
      · decide
      · exact (hb c hc).1
      · decide
    have hlast : (chr '[' :: (b ++ [chr ']'])).getLast? = some (chr ']') := by
      rw [← List.cons_append, List.getLast?_append]; rfl
    have hpc : chr '%' ∉ chr '[' :: b := by
      intro hm
      rcases List.mem_cons.mp hm with hm | hm
      · exact absurd hm (by decide)
      · exact (hb _ hm).2.2 rfl
    rcases port_text hp with ⟨rfl, rfl⟩ | ⟨d, rfl, rfl, hd⟩
    · refine ⟨chr '[' :: b ++ [chr ']'], ?_, ?_⟩
      · rw [List.append_nil, hbr, parseHost, if_pos (by simp), lastCut_append (by simp)]
        simp only [validOptionalPort, Bool.not_true, Bool.false_eq_true, if_false, cutAt_none hpc]
        exact unescape_host (encoded_self hplain)
      · cases hl : lastCut (chr ':') (chr '[' :: b ++ [chr ']']) with
        | none => simp only [splitHostPort, hl]; simp [hlast]
        | some xy =>
          obtain ⟨x, y⟩ := xy
          obtain ⟨y', rfl⟩ := lastCut_last (by decide) hl
          have : validOptionalPort (chr ':' :: (y' ++ [chr ']'])) = false := by
            have : isDigit (chr ']') = false := by decide
            simp [validOptionalPort, this]
          simp only [splitHostPort, hl, this]; simp [hlast]
    · refine ⟨chr '[' :: b ++ [chr ']'] ++ chr ':' :: d, ?_, ?_⟩
      · have h1 : chr ']' ∉ chr ':' :: d := by
          intro hm
          rcases List.mem_cons.mp hm with hm | hm
          · exact absurd hm (by decide)
          · exact (colon_digits hd).2 hm
        have h2 : chr '[' :: b ++ [chr ']'] ++ chr ':' :: d = (chr '[' :: b) ++ chr ']' :: chr ':' :: d := by simp
        rw [hbr, parseHost, if_pos (by simp), h2, lastCut_append h1]
        simp only [validPort hd, Bool.not_true, Bool.false_eq_true, if_false, cutAt_none hpc]
        rw [← h2]
        exact unescape_host (encoded_append (encoded_self hplain) (.char _ (by decide) (encoded_self (digits_plain hd))))
      · have := lastCut_append (a := chr '[' :: b ++ [chr ']']) (colon_digits hd).1
        simp only [splitHostPort, this, validPort hd, if_true]
        simp [hlast]

theorem hostport_chars {b host : Bytes} {p : Option Bytes} {port : Bytes} (h : HostText codedHost b host) (hp : PortText p port) :
    ∀ c ∈ host ++ port, (visible c && !oneOf "@/?#" c) = true := by
  have hport : ∀ c ∈ port, (visible c && !oneOf "@/?#" c) = true := by
    rcases port_text hp with ⟨rfl, rfl⟩ | ⟨d, rfl, rfl, hd⟩
    · simp
    · have : ∀ c : Byte, (ascii "0123456789").contains c = true → (visible c && !oneOf "@/?#" c) = true := by decide +kernel
      intro c hc
      rcases List.mem_cons.mp hc with rfl | hc
      · decide
      · exact this c (hd c hc)
  intro c hc
  rcases List.mem_append.mp hc with hc | hc
  · cases h with
    | name _ henc =>
      have h1 : ∀ c : Byte, (unreserved c || subDelim c) = true → (visible c && !oneOf "@/?#" c) = true := by decide +kernel
      exact encoded_all (P := fun c => visible c && !oneOf "@/?#" c) h1 (by decide) (fun c hc => h1 c (by simp [hc])) henc c hc
    | ipv6 hall hne =>
      simp only [List.all_eq_true] at hall
      have h1 : ∀ c : Byte, (ascii "0123456789abcdefABCDEF:.").contains c = true → (visible c && !oneOf "@/?#" c) = true := by decide +kernel
      have h2 : c = chr '[' ∨ c ∈ b ∨ c = chr ']' := by simpa [ascii, chr, or_assoc] using hc
      rcases h2 with rfl | h2 | rfl
      · decide
      · exact h1 c (hall c h2)
      · decide
  · exact hport c hc

/-! ### Database and parameters -/

theorem database_text {d : Option Bytes} {text : Bytes} (h : DatabaseText d text) :
    (∀ c ∈ text, (visible c && c != chr '?') = true) ∧ (text = [] ∨ ∃ t, text = chr '/' :: t) ∧
    ∃ path, unescape .path text = .ok path ∧ ((d = none ∧ path = []) ∨ ∃ x, d = some x ∧ path = chr '/' :: x) := by
  cases h with
  | absent => exact ⟨by simp, .inl rfl, [], rfl, .inl ⟨rfl, rfl⟩⟩
  | name d t henc =>
    refine ⟨?_, .inr ⟨t, rfl⟩, chr '/' :: d, ?_, .inr ⟨d, rfl, rfl⟩⟩
    · intro c hc
      have : c = chr '/' ∨ c ∈ t := by simpa [ascii, chr] using hc
      rcases this with rfl | hc
      · decide
      · exact encoded_all (P := fun c => visible c && c != chr '?') (fun c hc => (path_table c hc).1) (by decide)
          (fun c hc => (unreserved_table c hc).2.2.1) henc c hc
    · have henc' : Encoded (fun c => unreserved c || subDelim c || (ascii ":@/").contains c) anyByte (chr '/' :: d) (chr '/' :: t) :=
        .char _ (by decide) henc
      exact unescape_encoded (by simp) (fun c hc => ⟨(path_table c hc).2, by simp, by simp⟩) (by simp) henc'

theorem pieces_ne_nil (s : Bytes) : pieces s ≠ [] := by
  cases s with
  | nil => simp [pieces]
  | cons c s =>
    simp only [pieces]
    split
    · simp
    · split <;> simp

theorem pieces_append {a b : Bytes} (h : ∀ c ∈ a, c ≠ chr '&' ∧ c ≠ chr ';') : pieces (a ++ chr '&' :: b) = a :: pieces b := by
  induction a with
  | nil => simp [pieces]
  | cons c a ih =>
    have := h c (by simp)
    rw [List.cons_append, pieces, if_neg (by simp [this]), ih fun c hc => h c (by simp [hc])]

theorem pieces_one {a : Bytes} (h : ∀ c ∈ a, c ≠ chr '&' ∧ c ≠ chr ';') : pieces a = [a] := by
  induction a with
  | nil => rfl
  | cons c a ih =>
    have := h c (by simp)
    rw [pieces, if_neg (by simp [this]), ih fun c hc => h c (by simp [hc])]

theorem param_text {kv : Bytes × Bytes} {text : Bytes} (h : ParamText safeParamChar kv text) :
    text ≠ [] ∧ (∀ c ∈ text, c ≠ chr '&' ∧ c ≠ chr ';') ∧ unescape .query (splitCut (chr '=') text).1 = .ok kv.1 ∧
    unescape .query (splitCut (chr '=') text).2 = .ok kv.2 := by
  cases h with
  | param k t v t' hne h1 h2 =>
    have hc : ∀ {b t : Bytes}, Encoded safeParamChar anyByte b t → ∀ c ∈ t, (visible c && !oneOf "&;=" c) = true := fun h =>
      encoded_all (P := fun c => visible c && !oneOf "&;=" c) (fun c hc => (param_table c hc).1) (by decide)
        (fun c hc => (unreserved_table c hc).2.2.2) h
    have hu : ∀ {b t : Bytes}, Encoded safeParamChar anyByte b t → unescape .query t = .ok b := fun h =>
      unescape_encoded (by simp) (fun c hc => ⟨(param_table c hc).2.1, by simp, fun g => (param_table c hc).2.2 g.1⟩) (by simp) h
    have ht : t ++ ascii "=" ++ t' = t ++ chr '=' :: t' := by simp [ascii, chr]
    have hs : splitCut (chr '=') (t ++ ascii "=" ++ t') = (t, t') := by
      rw [ht]; exact splitCut_append (not_mem_of (hc h1) (by decide))
    refine ⟨by simp [ht], ?_, by rw [hs]; exact hu h1, by rw [hs]; exact hu h2⟩
    have htab : ∀ c : Byte, (visible c && !oneOf "&;=" c) = true → c ≠ chr '&' ∧ c ≠ chr ';' := by decide +kernel
    intro c hm
    rw [ht] at hm
    simp only [List.mem_append, List.mem_cons] at hm
    rcases hm with hm | rfl | hm
    · exact htab c (hc h1 c hm)
    · decide
    · exact htab c (hc h2 c hm)

theorem params_text {sep : Bytes} {ps : List (Bytes × Bytes)} {rest : Bytes} (h : ParamsText safeParamChar sep ps rest) :
    ∀ (kv : Bytes × Bytes) (text : Bytes), sep = ascii "&" → ParamText safeParamChar kv text → parseQuery (text ++ rest) = kv :: ps := by
  induction h with
  | nil sep =>
    intro kv text _ hk
    obtain ⟨h1, h2, h3, h4⟩ := param_text hk
    simp [parseQuery, pieces_one h2, h1, h3, h4]
  | cons sep text' rest p ps hp _ ih =>
    intro kv text hsep hk
    obtain ⟨h1, h2, h3, h4⟩ := param_text hk
    have := ih p text' rfl hp
    have ht : text ++ (sep ++ text' ++ rest) = text ++ chr '&' :: (text' ++ rest) := by rw [hsep]; simp [ascii, chr]
    rw [ht]
    simp only [parseQuery, pieces_append h2, List.filterMap_cons, h1, if_false, h3, h4] at this ⊢
    rw [this]

theorem query_text {ps : List (Bytes × Bytes)} {text : Bytes} (h : ParamsText safeParamChar (ascii "?") ps text) :
    (text = [] ∧ ps = []) ∨ ∃ q, text = chr '?' :: q ∧ parseQuery q = ps := by
  cases h with
  | nil => exact .inl ⟨rfl, rfl⟩
  | cons _ t rest p ps hp hps => exact .inr ⟨t ++ rest, by simp [ascii, chr], params_text hps p t rfl hp⟩

theorem params_chars {sep : Bytes} {ps : List (Bytes × Bytes)} {text : Bytes} (h : ParamsText safeParamChar sep ps text) :
    (∀ c ∈ sep, visible c = true) → ∀ c ∈ text, visible c = true := by
  have hc : ∀ {b t : Bytes}, Encoded safeParamChar anyByte b t → ∀ c ∈ t, visible c = true := fun h =>
      encoded_all (fun c hc => by have := (param_table c hc).1; simp only [Bool.and_eq_true] at this; exact this.1) (by decide)
        (fun c hc => by have := (unreserved_table c hc).2.2.2; simp only [Bool.and_eq_true] at this; exact this.1) h
  induction h with
  | nil => simp
  | cons sep t rest p ps hp _ ih =>
    intro hs c hm
    simp only [List.mem_append] at hm
    rcases hm with (hm | hm) | hm
    · exact hs c hm
    · cases hp with
      | param k t v t' _ h1 h2 =>
        simp only [List.mem_append] at hm
        rcases hm with (hm | hm) | hm
        · exact hc h1 c hm
        · have : c = chr '=' := by simpa [ascii, chr] using hm
          subst this; decide
        · exact hc h2 c hm
    · exact ih (by intro c hc; have : c = chr '&' := by simpa [ascii, chr] using hc
                   subst this; decide) c hm

/-! ### The whole -/

/-- `url.Parse` of a URI as documented. -/
theorem urlParse_uri {p : Parts} {text : Bytes} (h : IsURI codedHost safeParamChar p text) :
    ∃ scheme path, (scheme = ascii "postgresql" ∨ scheme = ascii "postgres") ∧
      ((p.database = none ∧ path = []) ∨ ∃ x, p.database = some x ∧ path = chr '/' :: x) ∧
      urlParse text = .ok { scheme := scheme, user := p.user.map fun u => ⟨u.1, u.2⟩, hostname := p.host, port := p.port.getD [], path := path, queryPairs := p.params } := by
  obtain ⟨scheme, user, host, port, database, params, hs, hu, hh, hp, hd, hq, hnd, rfl⟩ := h
  obtain ⟨hd1, hd2, path, hd3, hd4⟩ := database_text hd
  obtain ⟨out, ho1, ho2⟩ := host_text hh hp
  have hhp := hostport_chars hh hp
  refine ⟨scheme, path, hs, hd4, ?_⟩
  have huser : (∀ c ∈ user, (visible c && !oneOf "/?#" c) = true) ∧
      parseAuthority (user ++ (host ++ port)) = .ok (p.user.map fun u => ⟨u.1, u.2⟩, out) := by
    have hat : chr '@' ∉ host ++ port := not_mem_of hhp (by decide)
    rcases user_text hu with ⟨h1, rfl⟩ | ⟨info, t, rfl, h1, h2, h3⟩
    · refine ⟨by simp, ?_⟩
      rw [h1, List.nil_append, parseAuthority, lastCut_none hat]
      simp only [ho1, Res.bind_ok, Res.pure_eq, Option.map_none]
    · have htab : ∀ c : Byte, userChar c = true → (visible c && !oneOf "/?#" c) = true := by decide +kernel
      refine ⟨?_, ?_⟩
      · intro c hc
        have : c ∈ t ∨ c = chr '@' := by simpa [ascii, chr] using hc
        rcases this with hc | rfl
        · exact htab c (h2 c hc)
        · decide
      · have ht : t ++ ascii "@" ++ (host ++ port) = t ++ chr '@' :: (host ++ port) := by simp [ascii, chr]
        rw [ht, h3 _ _ hat ho1, h1]
        rfl
  have hletters : ∀ c ∈ scheme, isLetter c = true := by
    rcases hs with rfl | rfl <;> decide
  have hsv : ∀ c ∈ scheme, visible c = true := by
    rcases hs with rfl | rfl <;> decide
  have hsne : scheme ≠ [] := by rcases hs with rfl | rfl <;> decide
  have hlow : toLower scheme = scheme := by rcases hs with rfl | rfl <;> decide
  have htext : scheme ++ ascii "://" ++ user ++ host ++ port ++ database ++ params =
      scheme ++ chr ':' :: (chr '/' :: chr '/' :: (user ++ (host ++ port)) ++ database ++ params) := by simp [ascii, chr]
  rw [htext]
  have hvis : ∀ c ∈ scheme ++ chr ':' :: (chr '/' :: chr '/' :: (user ++ (host ++ port)) ++ database ++ params), visible c = true := by
    have hpar := params_chars hq (by decide)
    intro c hc
    have hc : c ∈ scheme ∨ c = chr ':' ∨ c = chr '/' ∨ c = chr '/' ∨ c ∈ user ∨ c ∈ host ++ port ∨ c ∈ database ∨ c ∈ params := by
      simpa [or_assoc] using hc
    rcases hc with hc | rfl | rfl | rfl | hc | hc | hc | hc
    · exact hsv c hc
    · decide
    · decide
    · decide
    · have := huser.1 c hc; simp only [Bool.and_eq_true] at this; exact this.1
    · have := hhp c hc; simp only [Bool.and_eq_true] at this; exact this.1
    · have := hd1 c hc; simp only [Bool.and_eq_true] at this; exact this.1
    · exact hpar c hc
  generalize hraw : scheme ++ chr ':' :: (chr '/' :: chr '/' :: (user ++ (host ++ port)) ++ database ++ params) = raw at *
  have hfrag : splitCut (chr '#') raw = (raw, []) := splitCut_none (not_mem_of hvis (by decide))
  have hctl : raw.any isCTL = false := by
    simp only [List.any_eq_false]
    intro c hc
    have := hvis c hc
    simp only [visible, Bool.and_eq_true, Bool.not_eq_true'] at this
    simp [this.1]
  have hstar : raw ≠ ascii "*" := by
    rw [← hraw]
    rcases hs with rfl | rfl <;> simp [ascii]
  have hsch : schemeLoop raw [] raw = .ok (scheme, chr '/' :: chr '/' :: (user ++ (host ++ port)) ++ database ++ params) := by
    have := schemeLoop_letters raw (chr '/' :: chr '/' :: (user ++ (host ++ port)) ++ database ++ params) scheme hletters [] (by simpa using hsne)
    rw [hraw] at this
    simpa using this
  have hnoq : chr '?' ∉ chr '/' :: chr '/' :: (user ++ (host ++ port)) ++ database := by
    intro hm
    have hm : chr '?' ∈ user ∨ chr '?' ∈ host ++ port ∨ chr '?' ∈ database := by
      simpa [or_assoc, show chr '?' ≠ chr '/' by decide] using hm
    rcases hm with hm | hm | hm
    · exact not_mem_of huser.1 (by decide) hm
    · exact not_mem_of hhp (by decide) hm
    · exact not_mem_of hd1 (by decide) hm
  have hsplit : ∃ q, splitCut (chr '?') (chr '/' :: chr '/' :: (user ++ (host ++ port)) ++ database ++ params) =
      (chr '/' :: chr '/' :: (user ++ (host ++ port)) ++ database, q) ∧ parseQuery q = p.params := by
    rcases query_text hq with ⟨rfl, h1⟩ | ⟨q, rfl, h1⟩
    · exact ⟨[], by rw [List.append_nil]; exact splitCut_none hnoq, by rw [h1]; rfl⟩
    · exact ⟨q, splitCut_append hnoq, h1⟩
  obtain ⟨q, hq1, hq2⟩ := hsplit
  have hns : chr '/' ∉ user ++ (host ++ port) := by
    intro hm
    rcases List.mem_append.mp hm with hm | hm
    · exact not_mem_of huser.1 (by decide) hm
    · exact not_mem_of hhp (by decide) hm
  have hcut : cut (chr '/') (user ++ (host ++ port) ++ database) = (user ++ (host ++ port), database) := by
    rcases hd2 with rfl | ⟨t, rfl⟩
    · rw [List.append_nil]; exact cut_none hns
    · exact cut_append hns
  have hpre : (ascii "//").isPrefixOf (chr '/' :: chr '/' :: (user ++ (host ++ port)) ++ database) = true := by
    have : ascii "//" = [chr '/', chr '/'] := by decide
    simp [this, List.isPrefixOf]
  have hparse : parse raw = .ok { scheme := scheme, user := p.user.map fun u => ⟨u.1, u.2⟩, hostname := p.host, port := p.port.getD [], path := path, queryPairs := p.params } := by
    unfold parse
    rw [if_neg (by simp [hctl]), if_neg hstar, hsch, Res.bind_ok]
    simp only [hlow, hq1]
    rw [if_neg (by simp), if_neg (by simp), if_pos ⟨.inl hsne, hpre⟩]
    simp only [List.cons_append, List.drop_succ_cons, List.drop_zero, hcut, huser.2, Res.bind_ok, hd3, Res.pure_eq, ho2, hq2]
  unfold urlParse
  simp only [hfrag, hparse, Res.bind_ok, if_true, Res.pure_eq]

end Gevulot.URLModel
