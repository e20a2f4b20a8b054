import Verif.Proofs.URL
import Verif.Props.DSN

/-!
# C100: connection URIs are read as documented

`ParseDatabaseURI` with `url.Parse` of Go's standard library (Model/URL.lean), against the documentation of PostgreSQL (Spec/URI.lean) that
its comment refers to.
-/

namespace Gevulot.URLModel

open Spec

/-- C100 as claimed. (There is no parameter `database`, and `dbname` is not a setting of its own.) -/
def C100_claim : Prop :=
  ∀ (osUser : Option Bytes) (order : List (Bytes × List Bytes) → List (Bytes × List Bytes)), (∀ l, (order l).Perm l) →
    ∀ (p : Parts) (text : Bytes), IsURI anyByte paramChar p text → p.param (ascii "database") = none →
      ∃ settings, parseDatabaseURI urlParse osUser order text = .ok settings ∧ ∀ key, key ≠ ascii "dbname" → settings key = meaning p osUser key

theorem databaseInPath_slash (x : Bytes) (h : x.head? ≠ some (chr '/')) : databaseInPath (chr '/' :: x) = x := by
  cases x with
  | nil => rfl
  | cons c x =>
    have hc : ¬ c = BitVec.ofNat 8 '/'.toNat := fun e => h (by simp [e, chr])
    simp only [databaseInPath, chr, if_true, hc, if_false]

theorem nonempty_some (d : Bytes) : nonempty (some d) = if d = [] then none else some d := by
  by_cases h : d = []
  · subst h; rfl
  · rw [if_neg h]
    show Option.filter _ _ = _
    simp only [Option.filter]
    rw [if_pos (by simpa using h)]

/-- C100, what does hold: it is read as documented, if ASCII characters of the host are not percent-encoded, neither `+` nor `;` is in a
parameter without being percent-encoded, the name of the database does not begin with a slash, and is not given by a parameter,
and the user neither, unless the database is named. -/
theorem C100_partial (osUser : Option Bytes) (order : List (Bytes × List Bytes) → List (Bytes × List Bytes)) (horder : ∀ l, (order l).Perm l)
    (p : Parts) (text : Bytes) (h : UsualURI p text) :
    ∃ settings, parseDatabaseURI urlParse osUser order text = .ok settings ∧ ∀ key, settings key = meaning p osUser key := by
  obtain ⟨h, hdb, hparam, huser⟩ := h
  obtain ⟨scheme, path, hs, hpath, hparse⟩ := urlParse_uri h
  obtain ⟨settings, hset⟩ := (C24_scheme urlParse osUser order horder text).1.mpr ⟨_, hparse, hs.symm⟩
  refine ⟨settings, hset, fun key => ?_⟩
  rw [C25_settings urlParse osUser order horder text _ settings hparse hset key]
  have hq : ∀ (u : Option UserInfo) (hn po : Bytes) (k : Bytes), firstQueryValue ⟨scheme, u, hn, po, path, p.params⟩ k = p.param k := fun _ _ _ _ => rfl
  have hpd : databaseInPath path = p.database.getD [] := by
    rcases hpath with ⟨h1, rfl⟩ | ⟨x, h1, rfl⟩
    · rw [h1]; rfl
    · rw [h1, databaseInPath_slash x (hdb x h1)]; rfl
  simp only [setting, hq, meaning]
  by_cases k1 : key = ascii "host"
  · subst k1
    rw [if_pos rfl, if_pos rfl]
    cases hx : p.param (ascii "host") with
    | some v => rfl
    | none =>
      by_cases hh : p.host = [] <;> simp [nonempty_some, hh]
  by_cases k2 : key = ascii "port"
  · subst k2
    rw [if_neg k1, if_pos rfl, if_neg k1, if_pos rfl]
    cases hx : p.param (ascii "port") with
    | some v => rfl
    | none =>
      cases hp : p.port with
      | none => simp [nonempty]
      | some d => by_cases hd : d = [] <;> simp [nonempty_some, hd]
  by_cases k3 : key = ascii "user"
  · subst k3
    rw [if_neg k1, if_neg k2, if_pos rfl, if_neg k1, if_neg k2, if_pos rfl, Parts.userName]
    cases hx : p.param (ascii "user") with
    | some v => rfl
    | none =>
      cases hu : p.user with
      | none => simp [uriUser]
      | some u => simp [uriUser]
  by_cases k4 : key = ascii "password"
  · subst k4
    rw [if_neg k1, if_neg k2, if_neg k3, if_pos rfl, if_neg k1, if_neg k2, if_neg k3, if_pos rfl]
    cases hx : p.param (ascii "password") with
    | some v => rfl
    | none => cases hu : p.user <;> simp
  by_cases k5 : key = ascii "database"
  · subst k5
    rw [if_neg k1, if_neg k2, if_neg k3, if_neg k4, if_pos rfl, if_neg k1, if_neg k2, if_neg k3, if_neg k4, if_pos rfl, hparam.1, hparam.2, hpd]
    have hun : p.param (ascii "user") = none → (uriUser ⟨scheme, p.user.map fun u => ⟨u.1, u.2⟩, p.host, p.port.getD [], path, p.params⟩ osUser) = p.userName osUser := by
      intro hx
      rw [Parts.userName, hx]
      cases hu : p.user <;> simp [uriUser]
    rcases huser with hx | ⟨d, hd, hne⟩
    · rw [hun hx]
      cases hd : p.database with
      | none => simp [nonempty]
      | some d => by_cases hd' : d = [] <;> simp [nonempty_some, hd']
    · simp [hd, hne, nonempty_some]
  · rw [if_neg k1, if_neg k2, if_neg k3, if_neg k4, if_neg k5, if_neg k1, if_neg k2, if_neg k3, if_neg k4, if_neg k5]
    cases p.param key <;> rfl

/-! ### What is read differently -/

/-- `ParseDatabaseURI` for the user `os`: the error, or these settings. -/
def read (text : String) (keys : List String) : Option (List (Option Bytes)) :=
  match parseDatabaseURI urlParse (some (ascii "os")) id (ascii text) with
  | .ok settings => some (keys.map fun k => settings (ascii k))
  | _ => none

/-- C100: the host cannot be a directory of sockets, which is documented with this example. -/
theorem C100_refuted_socket : read "postgresql://%2Fvar%2Flib%2Fpostgresql/dbname" [] = none := by decide +kernel

/-- C100: slashes at the beginning of the name of the database are lost. -/
theorem C100_refuted_slash : read "postgresql://h/%2Fdb" ["database"] = some [some (ascii "db")] := by decide +kernel

/-- C100: `+` is read as a space. -/
theorem C100_refuted_plus : read "postgresql://h/db?application_name=a+b" ["application_name"] = some [some (ascii "a b")] := by decide +kernel

/-- C100: `;` ends a parameter. -/
theorem C100_refuted_semicolon : read "postgresql://h/db?application_name=a;b" ["application_name", "b"] = some [some (ascii "a"), some []] := by
  decide +kernel

/-- C100: the parameter `dbname` does not name the database. -/
theorem C100_refuted_dbname : read "postgresql:///?dbname=mydb" ["database"] = some [some (ascii "os")] := by decide +kernel

/-- C100: the default for the database is not the user, if that is given by a parameter. -/
theorem C100_refuted_user : read "postgresql:///?user=other" ["user", "database"] = some [some (ascii "other"), some (ascii "os")] := by decide +kernel

theorem encoded_plain {plain coded : Byte → Bool} (b : Bytes) (h : b.all plain = true) : Encoded plain coded b b :=
  encoded_self (by simpa using h)

/-- C100 is false. -/
theorem C100_refuted : ¬ C100_claim := by
  intro hC
  have hu : IsURI anyByte paramChar ⟨none, ascii "h", none, some (ascii "db"), [(ascii "application_name", ascii "a+b")]⟩
      (ascii "postgresql://h/db?application_name=a+b") := by
    refine ⟨_, _, _, _, _, _, .inl rfl, .absent, .name _ _ (encoded_plain (ascii "h") (by decide)), .absent,
      .name _ _ (encoded_plain (ascii "db") (by decide)), .cons _ _ _ _ _ (.param _ _ _ _ (by decide) (encoded_plain (ascii "application_name") (by decide)) (encoded_plain (ascii "a+b") (by decide))) (.nil _),
      by simp, by decide +kernel⟩
  obtain ⟨settings, h1, h2⟩ := hC (some (ascii "os")) id (fun _ => .refl _) _ _ hu (by decide)
  have h3 := h2 (ascii "application_name") (by decide)
  have h4 := C100_refuted_plus
  simp only [read, h1, List.map_cons, List.map_nil, Option.some.injEq, List.cons.injEq, and_true] at h4
  rw [h4] at h3
  exact absurd h3 (by decide)

/-! ### Examples -/

/-- C100_partial: `postgres://al%69ce:p%40ss@[::1]:5433/my%2Fdb?application_name=a%2Bb&connect_timeout=10` -/
example : UsualURI
    ⟨some (ascii "alice", some (ascii "p@ss")), ascii "::1", some (ascii "5433"), some (ascii "my/db"),
      [(ascii "application_name", ascii "a+b"), (ascii "connect_timeout", ascii "10")]⟩
    (ascii "postgres://al%69ce:p%40ss@[::1]:5433/my%2Fdb?application_name=a%2Bb&connect_timeout=10") := by
  have e1 : ∀ plain : Byte → Bool, plain = (fun c => unreserved c || subDelim c) → Encoded plain anyByte (ascii "alice") (ascii "al%69ce") := by
    rintro plain rfl
    exact encoded_append (encoded_plain (ascii "al") (by decide)) (.code _ _ _ 6 9 rfl (.inl rfl) (.inl rfl) (by decide) (encoded_plain (ascii "ce") (by decide)))
  refine ⟨?_, by decide, by decide, .inr ⟨_, rfl, by decide⟩⟩
  refine ⟨_, _, _, _, _, _, .inr rfl, .password _ (ascii "al%69ce") _ (ascii "p%40ss") (by decide) (e1 _ rfl) ?_, .ipv6 _ (by decide) (by decide), .port _ (by decide),
    .name _ (ascii "my%2Fdb") ?_, .cons _ _ _ _ _ (.param _ (ascii "application_name") _ (ascii "a%2Bb") (by decide) (encoded_plain _ (by decide)) ?_)
      (.cons _ _ _ _ _ (.param _ (ascii "connect_timeout") _ (ascii "10") (by decide) (encoded_plain _ (by decide)) (encoded_plain _ (by decide))) (.nil _)),
    by decide, by decide +kernel⟩
  · exact encoded_append (encoded_plain (ascii "p") (by decide)) (.code _ _ _ 4 0 rfl (.inl rfl) (.inl rfl) (by decide) (encoded_plain (ascii "ss") (by decide)))
  · exact encoded_append (encoded_plain (ascii "my") (by decide)) (.code _ _ _ 2 15 rfl (.inl rfl) (.inr rfl) (by decide) (encoded_plain (ascii "db") (by decide)))
  · exact encoded_append (encoded_plain (ascii "a") (by decide)) (.code _ _ _ 2 11 rfl (.inl rfl) (.inr rfl) (by decide) (encoded_plain (ascii "b") (by decide)))

/-- What comes out. -/
example : read "postgres://al%69ce:p%40ss@[::1]:5433/my%2Fdb?application_name=a%2Bb&connect_timeout=10"
    ["user", "password", "host", "port", "database", "application_name", "connect_timeout"] =
    some [some (ascii "alice"), some (ascii "p@ss"), some (ascii "::1"), some (ascii "5433"), some (ascii "my/db"), some (ascii "a+b"), some (ascii "10")] := by
  decide +kernel

end Gevulot.URLModel
