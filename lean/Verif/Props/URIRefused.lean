import Verif.Props.URI

/-!
# C101: what is not a connection URI is refused

`ParseDatabaseURI` (pkg/pg/dsn.go:15-61) with `url.Parse` (Model/URL.lean).
-/

namespace Gevulot.URLModel

open Spec

/-- The text begins with one of the two scheme designators; schemes are "case-insensitive", RFC 3986 section 3.1. -/
def Designated (after : String) (text : Bytes) : Prop :=
  ∃ scheme rest, text = scheme ++ ascii ":" ++ ascii after ++ rest ∧
    (scheme.map (fun c => if 65 ≤ c.toNat ∧ c.toNat ≤ 90 then c + 32 else c) = ascii "postgresql" ∨
     scheme.map (fun c => if 65 ≤ c.toNat ∧ c.toNat ≤ 90 then c + 32 else c) = ascii "postgres")

/-- C101 as claimed: "The URI scheme designator can be either postgresql:// or postgres://". -/
def C101_claim : Prop :=
  ∀ (osUser : Option Bytes) (order : List (Bytes × List Bytes) → List (Bytes × List Bytes)), (∀ l, (order l).Perm l) →
    ∀ (text : Bytes) (settings : ConnectionParams), parseDatabaseURI urlParse osUser order text = .ok settings → Designated "//" text

theorem schemeLoop_ok {raw : Bytes} : ∀ (todo seen : Bytes), raw = seen ++ todo → ∀ {scheme rest : Bytes}, schemeLoop raw seen todo = .ok (scheme, rest) →
    scheme = [] ∨ raw = scheme ++ chr ':' :: rest := by
  intro todo
  induction todo with
  | nil => intro seen _ scheme rest h; simp only [schemeLoop, Res.ok.injEq, Prod.mk.injEq] at h; exact .inl h.1.symm
  | cons c todo ih =>
    intro seen hraw scheme rest h
    have hnext := ih (seen ++ [c]) (by simp [hraw]) (scheme := scheme) (rest := rest)
    simp only [schemeLoop] at h
    split at h
    · exact hnext h
    split at h
    · split at h
      · simp only [Res.ok.injEq, Prod.mk.injEq] at h; exact .inl h.1.symm
      · exact hnext h
    split at h
    · rename_i hc
      split at h
      · exact absurd h (by simp)
      · simp only [Res.ok.injEq, Prod.mk.injEq] at h
        obtain ⟨rfl, rfl⟩ := h
        exact .inr (by rw [hraw, hc])
    · simp only [Res.ok.injEq, Prod.mk.injEq] at h; exact .inl h.1.symm

theorem bind_ok {α β : Type} {r : Res α} {f : α → Res β} {b : β} (h : (r >>= f) = .ok b) : ∃ a, r = .ok a ∧ f a = .ok b := by
  cases r with
  | ok a => exact ⟨a, rfl, h⟩
  | err e => exact absurd h (by simp [bind, Res.bind])
  | panic => exact absurd h (by simp [bind, Res.bind])

theorem splitHostPort_digits (s : Bytes) : (splitHostPort s).2.all isDigit = true := by
  simp only [splitHostPort]
  cases lastCut (chr ':') s with
  | none => simp only; split <;> rfl
  | some hp =>
    obtain ⟨h, p⟩ := hp
    simp only
    by_cases hv : validOptionalPort (chr ':' :: p) = true
    · rw [if_pos hv]
      have hp : p.all isDigit = true := by simpa [validOptionalPort] using hv
      simp only
      split <;> exact hp
    · rw [if_neg hv]
      simp only
      split <;> rfl

theorem parse_ok {text : Bytes} {u : URL} (h : parse text = .ok u) :
    text.any isCTL = false ∧ u.port.all isDigit = true ∧ (u.scheme = [] ∨ ∃ scheme rest, text = scheme ++ chr ':' :: rest ∧ u.scheme = toLower scheme) := by
  simp only [parse] at h
  split at h
  · exact absurd h (by simp)
  rename_i hctl
  refine ⟨by simpa using hctl, ?_⟩
  split at h
  · simp only [Res.ok.injEq] at h
    subst h
    exact ⟨rfl, .inl rfl⟩
  obtain ⟨⟨scheme, rest⟩, hs, h⟩ := bind_ok h
  have hsch : toLower scheme = [] ∨ ∃ scheme' rest', text = scheme' ++ chr ':' :: rest' ∧ toLower scheme = toLower scheme' := by
    rcases schemeLoop_ok text [] rfl hs with rfl | he
    · exact .inl rfl
    · exact .inr ⟨_, _, he, rfl⟩
  simp only at h
  split at h
  · simp only [pure, Res.ok.injEq] at h
    subst h
    exact ⟨rfl, hsch⟩
  split at h
  · exact absurd h (by simp)
  split at h
  · obtain ⟨⟨user, host⟩, _, h⟩ := bind_ok h
    obtain ⟨path, _, h⟩ := bind_ok h
    simp only [pure, Res.ok.injEq] at h
    subst h
    exact ⟨splitHostPort_digits host, hsch⟩
  · obtain ⟨path, _, h⟩ := bind_ok h
    simp only [pure, Res.ok.injEq] at h
    subst h
    exact ⟨rfl, hsch⟩

/-- C101, what does hold: what is accepted begins with `postgresql:` or `postgres:`, there are no control characters in it, except
behind `#`, and the port, unless it is a parameter, is a number. -/
theorem C101_partial (osUser : Option Bytes) (order : List (Bytes × List Bytes) → List (Bytes × List Bytes)) (horder : ∀ l, (order l).Perm l)
    (text : Bytes) (settings : ConnectionParams) (h : parseDatabaseURI urlParse osUser order text = .ok settings) :
    Designated "" text ∧
    (∀ c ∈ text.takeWhile (· != BitVec.ofNat 8 '#'.toNat), 32 ≤ c.toNat ∧ c.toNat ≠ 127) ∧
    ∃ u, urlParse text = .ok u ∧ (firstQueryValue u (ascii "port") = none →
      ∃ port, settings (ascii "port") = some port ∧ port ≠ [] ∧ ∀ c ∈ port, 48 ≤ c.toNat ∧ c.toNat ≤ 57) := by
  obtain ⟨u, hu, hsch⟩ := (C24_scheme urlParse osUser order horder text).1.mp ⟨settings, h⟩
  have hu' := hu
  simp only [urlParse] at hu'
  obtain ⟨u', hp, hrest⟩ := bind_ok hu'
  have huu : u' = u := by
    split at hrest
    · simpa only [pure, Res.ok.injEq] using hrest
    · obtain ⟨_, _, hrest⟩ := bind_ok hrest
      simpa only [pure, Res.ok.injEq] using hrest
  subst huu
  obtain ⟨h1, h2, h3⟩ := parse_ok hp
  have hcut : (splitCut (chr '#') text).1 = text.takeWhile (· != BitVec.ofNat 8 '#'.toNat) := rfl
  rw [hcut] at h1 h3
  refine ⟨?_, ?_, u', hu, ?_⟩
  · rcases h3 with h3 | ⟨scheme, rest, he, hl⟩
    · rw [h3] at hsch
      exact absurd hsch (by decide)
    · refine ⟨scheme, rest ++ text.dropWhile (· != BitVec.ofNat 8 '#'.toNat), ?_, ?_⟩
      · have ht := (List.takeWhile_append_dropWhile (p := (· != BitVec.ofNat 8 '#'.toNat)) (l := text)).symm
        rw [he] at ht
        refine ht.trans ?_
        simp [ascii, chr]
      · have hm : scheme.map (fun c => if 65 ≤ c.toNat ∧ c.toNat ≤ 90 then c + 32 else c) = toLower scheme := by
          refine List.map_congr_left fun c _ => ?_
          simp [between]
        rw [hm, ← hl]
        exact hsch.symm
  · intro c hc
    have := List.any_eq_false.mp h1 c hc
    simp only [isCTL, Bool.or_eq_true, decide_eq_true_eq, beq_iff_eq, not_or, Nat.not_lt] at this
    exact ⟨this.1, fun h => this.2 (BitVec.eq_of_toNat_eq h)⟩
  · intro hq
    rw [C25_settings urlParse osUser order horder text u' settings hu h (ascii "port")]
    rw [setting, hq]
    simp only
    rw [if_neg (by decide), if_pos trivial]
    have hd : ∀ p : Bytes, p.all isDigit = true → ∀ c ∈ p, 48 ≤ c.toNat ∧ c.toNat ≤ 57 := by
      intro p hp c hc
      have := List.all_eq_true.mp hp c hc
      simpa [isDigit, between] using this
    refine ⟨_, rfl, ?_⟩
    by_cases hne : u'.port = []
    · rw [if_pos hne]
      exact ⟨by decide, hd _ (by decide)⟩
    · rw [if_neg hne]
      exact ⟨hne, hd _ h2⟩

/-- C101: without the slashes the rest is ignored: one is connected to the default database at localhost. -/
theorem C101_refuted_opaque : read "postgres:alice@db.example.com/mydb" ["host", "port", "user", "password", "database"] =
    some [some (ascii "localhost"), some (ascii "5432"), some (ascii "os"), none, some (ascii "os")] := by decide +kernel

/-- C101 is false. -/
theorem C101_refuted : ¬ C101_claim := by
  intro hC
  have hx := C101_refuted_opaque
  simp only [read] at hx
  split at hx
  · rename_i settings hs
    obtain ⟨scheme, rest, he, hsch⟩ := hC _ _ (fun _ => .refl _) _ _ hs
    have hlen : scheme.length = 10 ∨ scheme.length = 8 := by
      rcases hsch with h | h
      · exact .inl ((List.length_map ..).symm.trans (congrArg List.length h))
      · exact .inr ((List.length_map ..).symm.trans (congrArg List.length h))
    have h9 := congrArg (fun l => (List.drop scheme.length l).take 2) he
    simp only [List.append_assoc, List.drop_left] at h9
    rcases hlen with hl | hl <;> rw [hl] at h9 <;> exact absurd h9 (by simp [ascii])
  · exact absurd hx (by simp)

/-! ### Examples -/

/-- C101_partial: the scheme in capital letters is accepted -/
example : read "POSTGRES://h:5433/db#x" ["host", "port", "database"] = some [some (ascii "h"), some (ascii "5433"), some (ascii "db")] := by
  decide +kernel

/-- C101_partial: these are refused -/
example : read "mysql://localhost" [] = none ∧ read "localhost:5432/db" [] = none ∧ read "postgres://h:port/db" [] = none ∧
    read "postgres://h/d\nb" [] = none ∧ read "postgres://[::1/db" [] = none ∧ read "host=localhost" [] = none ∧ read "" [] = none := by
  decide +kernel

end Gevulot.URLModel
