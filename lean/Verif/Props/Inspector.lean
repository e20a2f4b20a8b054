import Verif.Model.Inspector
import Mathlib.Data.List.Basic

/-!
# C62, C63: the OID mapping
-/

namespace Gevulot.InspectorModel

/-! ## C62 The OID mapping is complete or an error is returned -/

/-- What may be delivered of the result `full`: all of it, or, with an error at the end, a part from its beginning. -/
def Delivers (rows : Rows) (full : List Row) : Prop :=
  (rows.err = none ∧ rows.items = full.map .row) ∨ (∃ e, rows.err = some e ∧ rows.items <+: full.map .row)

/-- The mapping has exactly the rows. -/
def Complete (m : Mapping) (full : List Row) : Prop :=
  (∀ r ∈ full, m r.oid = some ⟨r.schema, r.table⟩) ∧ ∀ o t, m o = some t → ∃ r ∈ full, r.oid = o ∧ t = ⟨r.schema, r.table⟩

/-- C62 in full. -/
def C62_claim : Prop :=
  ∀ full rows, (full.map Row.oid).Nodup → Delivers rows full → ∀ m, oidTableMapping (.ok rows) = .ok m → Complete m full

theorem scanAll_rows (full : List Row) (m : Mapping) (hd : (full.map Row.oid).Nodup) :
    ∃ m', scanAll (full.map .row) m = .ok m' ∧ (∀ r ∈ full, m' r.oid = some ⟨r.schema, r.table⟩) ∧
      ∀ o, (∀ r ∈ full, r.oid ≠ o) → m' o = m o := by
  induction full generalizing m with
  | nil => exact ⟨m, rfl, by simp, by simp⟩
  | cons x rest ih =>
    simp only [List.map_cons, List.nodup_cons, List.mem_map, not_exists, not_and] at hd
    obtain ⟨m', h1, h2, h3⟩ := ih (fun o => if o = x.oid then some ⟨x.schema, x.table⟩ else m o) hd.2
    refine ⟨m', h1, ?_, ?_⟩
    · intro r hr
      rcases List.mem_cons.mp hr with rfl | hr
      · rw [h3 _ hd.1]; simp
      · exact h2 r hr
    · intro o ho
      rw [h3 o fun r hr => ho r (List.mem_cons_of_mem _ hr), if_neg]
      exact fun h => ho x List.mem_cons_self h.symm

theorem mapping_complete (full : List Row) (hd : (full.map Row.oid).Nodup) (err : Option Nat) :
    ∃ m, oidTableMapping (.ok ⟨full.map .row, err⟩) = .ok m ∧ Complete m full := by
  obtain ⟨m, h1, h2, h3⟩ := scanAll_rows full (fun _ => none) hd
  refine ⟨m, h1, h2, ?_⟩
  intro o t hot
  by_cases h : ∀ r ∈ full, r.oid ≠ o
  · rw [h3 o h] at hot; cases hot
  · push Not at h
    obtain ⟨r, hr, rfl⟩ := h
    rw [h2 r hr] at hot
    exact ⟨r, hr, rfl, (Option.some.inj hot).symm⟩

/-- C62, what is missing: if the whole result is delivered, the mapping is complete; if the delivery ends early with an error,
the error is lost and the mapping has what was delivered until then. -/
theorem C62_partial (full : List Row) (rows : Rows) (hd : (full.map Row.oid).Nodup) (h : Delivers rows full) :
    (rows.err = none → ∃ m, oidTableMapping (.ok rows) = .ok m ∧ Complete m full) ∧
    (∀ e, rows.err = some e → ∃ part m, part <+: full ∧ oidTableMapping (.ok rows) = .ok m ∧ Complete m part) := by
  obtain ⟨items, err⟩ := rows
  constructor
  · intro he
    rcases h with ⟨-, h⟩ | ⟨e, h, -⟩
    · simp only at h; subst h
      exact mapping_complete full hd err
    · rw [he] at h; cases h
  · intro e he
    rcases h with ⟨h, -⟩ | ⟨e', -, h⟩
    · rw [he] at h; cases h
    · obtain ⟨part, hp, rfl⟩ : ∃ part, part <+: full ∧ items = part.map .row := by
        simp only at h
        rw [List.prefix_iff_eq_take] at h
        refine ⟨full.take items.length, List.take_prefix _ _, ?_⟩
        rw [List.map_take]; exact h
      have : (part.map Row.oid).Nodup := hd.sublist (hp.sublist.map _)
      obtain ⟨m, h1, h2⟩ := mapping_complete part this err
      exact ⟨part, m, hp, h1, h2⟩

/-- C62, errors of the query and of scanning a row are returned: without the error at the end, it would hold. -/
theorem C62_partial_error (items : List Item) (err : Option Nat) :
    (∀ e, oidTableMapping (.error e) = .error e) ∧
    ((∃ e, .bad e ∈ items) ↔ ∃ e, .bad e ∈ items ∧ oidTableMapping (.ok ⟨items, err⟩) = .error e) := by
  refine ⟨fun e => rfl, ?_, fun ⟨e, h, _⟩ => ⟨e, h⟩⟩
  have : ∀ (items : List Item) (m : Mapping), (∃ e, .bad e ∈ items) → ∃ e, .bad e ∈ items ∧ scanAll items m = .error e := by
    intro items
    induction items with
    | nil => simp
    | cons x rest ih =>
      intro m h
      cases x with
      | bad e => exact ⟨e, List.mem_cons_self, rfl⟩
      | row r =>
        obtain ⟨e, he⟩ := h
        obtain ⟨e', h1, h2⟩ := ih (fun o => if o = r.oid then some ⟨r.schema, r.table⟩ else m o) ⟨e, by simpa using he⟩
        exact ⟨e', List.mem_cons_of_mem _ h1, h2⟩
  exact this items _

/-- A result of two rows. -/
def twoRows : List Row := [⟨16384, "users".toList, "public".toList⟩, ⟨16390, "orders".toList, "public".toList⟩]

/-- C62 is false: if the connection fails after the first row, the mapping lacks the second one, and there is no error. -/
theorem C62_refuted : ¬ C62_claim := by
  intro h
  have := (h twoRows ⟨[.row ⟨16384, "users".toList, "public".toList⟩], some 1⟩ (by decide) (.inr ⟨1, rfl, by decide⟩) _ rfl).1
    ⟨16390, "orders".toList, "public".toList⟩ (by decide)
  revert this
  decide

-- the hypotheses of C62 are met, with all delivered, and with a failure on the way
example : (twoRows.map Row.oid).Nodup ∧ Delivers ⟨twoRows.map .row, none⟩ twoRows ∧ Delivers ⟨(twoRows.take 1).map .row, some 3⟩ twoRows :=
  ⟨by decide, .inl ⟨rfl, rfl⟩, .inr ⟨3, rfl, by decide⟩⟩

/-! ## C63 User tables are all in the OID mapping -/

/-- The kinds of relations that are tables (ordinary and partitioned), views and materialized views. -/
def TableKind (k : Char) : Prop := k = 'r' ∨ k = 'p' ∨ k = 'v' ∨ k = 'm'

/-- The system schemas. -/
def SystemSchema (n : List Char) : Prop := n = "information_schema".toList ∨ "pg_".toList <+: n

/-- In the catalog there is a relation `oid` with the name `table`, of the kind `k`, in the schema `schema`. -/
def InCatalog (cat : Catalog) (oid : Nat) (table schema : List Char) (k : Char) : Prop :=
  ∃ ns, ⟨oid, table, ns, k⟩ ∈ cat.classes ∧ ⟨ns, schema⟩ ∈ cat.namespaces

/-- C63 in full. -/
def C63_claim : Prop :=
  ∀ cat oid table schema k, InCatalog cat oid table schema k → TableKind k → ¬ SystemSchema schema → ⟨oid, table, schema⟩ ∈ query cat

/-- What `LIKE` means: how a text matches a pattern. -/
inductive Matches : List Char → List Char → Prop
  | nil : Matches [] []
  | any (u : List Char) {p s : List Char} : Matches p s → Matches ('%' :: p) (u ++ s)
  | one (c : Char) {p s : List Char} : Matches p s → Matches ('_' :: p) (c :: s)
  | escaped (x : Char) {p s : List Char} : Matches p s → Matches ('\\' :: x :: p) (x :: s)
  | char (x : Char) {p s : List Char} : x ≠ '%' → x ≠ '_' → (x = '\\' → p = []) → Matches p s → Matches (x :: p) (x :: s)

/-- C63, the `LIKE` of the query is that of SQL, for all patterns and texts. -/
theorem C63_partial_like (p s : List Char) : like p s = true ↔ Matches p s := by
  induction p, s using like.induct with
  | case1 s =>
    simp only [like, List.isEmpty_iff]
    exact ⟨fun h => h ▸ .nil, fun h => by cases h; rfl⟩
  | case2 p s ih =>
    simp only [like, List.any_eq_true, List.mem_range, ih]
    constructor
    · rintro ⟨n, -, h⟩
      have := Matches.any (s.take n) h
      rwa [List.take_append_drop] at this
    · intro h
      cases h with
      | any u h => exact ⟨u.length, by simp; omega, by simpa using h⟩
      | char _ h => exact absurd rfl h
  | case3 p =>
    simp only [like, Bool.false_eq_true, false_iff]
    intro h; cases h
  | case4 p c s ih =>
    simp only [like, ih]
    refine ⟨.one c, fun h => ?_⟩
    cases h with
    | one _ h => exact h
    | char _ _ h => exact absurd rfl h
  | case5 x p =>
    simp only [like, Bool.false_eq_true, false_iff]
    intro h; cases h
  | case6 x p c s ih =>
    simp only [like, Bool.and_eq_true, beq_iff_eq, ih]
    constructor
    · rintro ⟨rfl, h⟩; exact .escaped c h
    · intro h
      cases h with
      | escaped _ h => exact ⟨rfl, h⟩
      | char _ _ _ h => exact absurd (h rfl) (by simp)
  | case7 x p h1 h2 h3 =>
    rw [like] <;> try assumption
    simp only [Bool.false_eq_true, false_iff]
    generalize hq : x :: p = q
    generalize ht : ([] : List Char) = t
    intro h
    cases h with
    | nil => simp at hq
    | any u h => exact h1 (List.cons.inj hq).1
    | _ => simp at ht
  | case8 x p h1 h2 h3 c s ih =>
    rw [like] <;> try assumption
    simp only [Bool.and_eq_true, beq_iff_eq, ih]
    constructor
    · rintro ⟨rfl, h⟩
      refine .char c h1 h2 (fun hc => ?_) h
      cases p with
      | nil => rfl
      | cons y p => exact absurd rfl (h3 y p hc)
    · generalize hq : x :: p = q
      generalize ht : c :: s = t
      intro h
      cases h with
      | nil => simp at hq
      | any u h => exact absurd (List.cons.inj hq).1 h1
      | one c' h => exact absurd (List.cons.inj hq).1 h2
      | escaped y h =>
        obtain ⟨rfl, rfl⟩ := List.cons.inj hq
        exact absurd rfl (h3 _ _ rfl)
      | char y _ _ _ h =>
        obtain ⟨rfl, rfl⟩ := List.cons.inj hq
        obtain ⟨rfl, rfl⟩ := List.cons.inj ht
        exact ⟨rfl, h⟩

-- the underscore is a wildcard, unless escaped
example : Matches "pg_%".toList "pgboss".toList ∧ ¬ Matches "pg\\_%".toList "pgboss".toList ∧ Matches "pg\\_%".toList "pg_toast".toList := by
  simp only [← C63_partial_like]
  decide

theorem like_any (s : List Char) : like ['%'] s = true := by
  simp only [like, List.any_eq_true, List.mem_range]
  exact ⟨s.length, by omega, by simp⟩

/-- What the pattern matches: `_` stands for any character. -/
theorem like_pg (s : List Char) : like "pg_%".toList s = true ↔ "pg".toList <+: s ∧ 3 ≤ s.length := by
  have hp : "pg_%".toList = ['p', 'g', '_', '%'] := rfl
  have hg : "pg".toList = ['p', 'g'] := rfl
  rw [hp, hg]
  match s with
  | [] => simp [like]
  | [a] => simp [like]
  | [a, b] => simp [like]
  | a :: b :: c :: r =>
    have h1 : like ['p', 'g', '_', '%'] (a :: b :: c :: r) = (a == 'p' && (b == 'g' && like ['%'] r)) := rfl
    rw [h1, like_any]
    simp only [Bool.and_true, Bool.and_eq_true, beq_iff_eq, List.cons_prefix_cons, List.nil_prefix, and_true, List.length_cons]
    constructor
    · rintro ⟨rfl, rfl⟩; exact ⟨⟨rfl, rfl⟩, by omega⟩
    · rintro ⟨⟨rfl, rfl⟩, -⟩; exact ⟨rfl, rfl⟩

/-- C63, what is missing, exactly: left out are also the schemas whose name begins with "pg" and is longer than that, and the
partitioned tables. -/
theorem C63_partial (cat : Catalog) (oid : Nat) (table schema : List Char) :
    ⟨oid, table, schema⟩ ∈ query cat ↔
      ∃ k, InCatalog cat oid table schema k ∧ (k = 'r' ∨ k = 'v' ∨ k = 'm') ∧ schema ≠ "information_schema".toList ∧
        ¬ ("pg".toList <+: schema ∧ 3 ≤ schema.length) := by
  have hk : ∀ c n, keep c n = true ↔ (c.relkind = 'r' ∨ c.relkind = 'v' ∨ c.relkind = 'm') ∧ n.nspname ≠ "information_schema".toList ∧
        ¬ ("pg".toList <+: n.nspname ∧ 3 ≤ n.nspname.length) := by
    intro c n
    rw [← like_pg]
    simp only [keep, List.contains_cons, List.contains_nil, Bool.and_eq_true, Bool.not_eq_true', Bool.or_false, beq_eq_false_iff_ne,
      Bool.or_eq_true, beq_iff_eq, Bool.not_eq_true, ne_eq]
    tauto
  constructor
  · intro h
    simp only [query, List.mem_flatMap, List.mem_map, List.mem_filter, Bool.and_eq_true, beq_iff_eq, Row.mk.injEq] at h
    obtain ⟨c, hc, n, ⟨hn, h1, h2⟩, rfl, rfl, rfl⟩ := h
    exact ⟨c.relkind, ⟨c.relnamespace, hc, h1 ▸ hn⟩, (hk c n).mp h2⟩
  · rintro ⟨k, ⟨ns, hc, hn⟩, h⟩
    simp only [query, List.mem_flatMap, List.mem_map, List.mem_filter, Bool.and_eq_true, beq_iff_eq, Row.mk.injEq]
    exact ⟨_, hc, _, ⟨hn, rfl, (hk ⟨oid, table, ns, k⟩ ⟨ns, schema⟩).mpr h⟩, rfl, rfl, rfl⟩

/-- C63, no system schema gets in. -/
theorem C63_partial_system (cat : Catalog) (r : Row) (h : r ∈ query cat) : ¬ SystemSchema r.schema := by
  obtain ⟨o, t, s⟩ := r
  obtain ⟨k, -, -, h1, h2⟩ := (C63_partial cat o t s).mp h
  rintro (h' | h')
  · exact h1 h'
  · obtain ⟨x, hx⟩ := h'
    simp only at hx
    subst hx
    refine h2 ⟨⟨'_' :: x, rfl⟩, ?_⟩
    simp

/-- A database with a schema "pgboss" and a partitioned table. -/
def database : Catalog :=
  ⟨[⟨16384, "users".toList, 2200, 'r'⟩, ⟨16390, "job".toList, 16386, 'r'⟩, ⟨16400, "events".toList, 2200, 'p'⟩, ⟨1259, "pg_class".toList, 11, 'r'⟩],
   [⟨11, "pg_catalog".toList⟩, ⟨2200, "public".toList⟩, ⟨16386, "pgboss".toList⟩]⟩

example : query database = [⟨16384, "users".toList, "public".toList⟩] := by decide

/-- C63 is false: in the pattern the underscore is a wildcard, so that a schema "pgboss" is left out; -/
theorem C63_refuted : ¬ C63_claim := fun h =>
  absurd (h database 16390 "job".toList "pgboss".toList 'r' ⟨16386, by decide, by decide⟩ (.inl rfl)
    (fun h => by rcases h with h | h <;> revert h <;> decide)) (by decide)

/-- and so are partitioned tables. -/
theorem C63_refuted_partitioned : ¬ C63_claim := fun h =>
  absurd (h database 16400 "events".toList "public".toList 'p' ⟨2200, by decide, by decide⟩ (.inr (.inl rfl))
    (fun h => by rcases h with h | h <;> revert h <;> decide)) (by decide)

theorem nodup_of_one {α β γ : Type} (l : List α) (f : α → β) (g : α → γ) (k : β) (hd : (l.map f).Nodup) (hk : ∀ x ∈ l, f x = k) :
    (l.map g).Nodup := by
  match l with
  | [] => simp
  | [x] => simp
  | x :: y :: r =>
    have hx := hk x (by simp)
    have hy := hk y (by simp)
    simp [hx, hy] at hd

/-- C62 and C63 together: with the whole result delivered, and the keys of the catalogs being keys, the mapping is the query. -/
theorem C63_partial_mapping (cat : Catalog) (hc : (cat.classes.map PgClass.oid).Nodup) (hn : (cat.namespaces.map PgNamespace.oid).Nodup) :
    ∃ m, oidTableMapping (.ok ⟨(query cat).map .row, none⟩) = .ok m ∧
      ∀ o s t, m o = some ⟨s, t⟩ ↔ ⟨o, t, s⟩ ∈ query cat := by
  have hd : ((query cat).map Row.oid).Nodup := by
    obtain ⟨classes, namespaces⟩ := cat
    simp only at hc hn
    induction classes with
    | nil => simp [query]
    | cons c rest ih =>
      simp only [List.map_cons, List.nodup_cons] at hc
      have h1 : query ⟨c :: rest, namespaces⟩ =
          (namespaces.filter fun n => n.oid == c.relnamespace && keep c n).map (fun n => ⟨c.oid, c.relname, n.nspname⟩) ++ query ⟨rest, namespaces⟩ := rfl
      rw [h1, List.map_append, List.nodup_append]
      refine ⟨?_, ih hc.2, ?_⟩
      · -- at most one namespace has the oid
        rw [List.map_map]
        refine nodup_of_one _ PgNamespace.oid _ c.relnamespace (hn.sublist (List.filter_sublist.map _)) fun x hx => ?_
        simp only [List.mem_filter, Bool.and_eq_true, beq_iff_eq] at hx
        exact hx.2.1
      · intro a ha b hb hab
        subst hab
        simp only [List.map_map, List.mem_map, Function.comp_apply] at ha
        obtain ⟨n, -, rfl⟩ := ha
        simp only [query, List.mem_map, List.mem_flatMap, List.mem_filter] at hb
        obtain ⟨r, ⟨c', hc', n', -, rfl⟩, h⟩ := hb
        exact hc.1 (List.mem_map.mpr ⟨c', hc', h⟩)
  obtain ⟨m, h1, h2, h3⟩ := mapping_complete (query cat) hd none
  refine ⟨m, h1, fun o s t => ⟨fun h => ?_, fun h => h2 _ h⟩⟩
  obtain ⟨⟨o', t', s'⟩, hr, rfl, h'⟩ := h3 _ _ h
  simp only [Table.mk.injEq] at h'
  obtain ⟨rfl, rfl⟩ := h'
  exact hr

-- the hypotheses of C63_partial_mapping are met
example : (database.classes.map PgClass.oid).Nodup ∧ (database.namespaces.map PgNamespace.oid).Nodup := ⟨by decide, by decide⟩

end Gevulot.InspectorModel
