/-!
# Model of the OID mapping (`/repo/pkg/pgmeta/inspector.go`)

Modelled: `OIDTableMapping` (lines 54–93), that is its catalog query and the loop over the rows.  The database, the driver
and `database/sql` are outside: the catalog is a value, what `Query` and the iteration over the rows deliver is an input.
-/

namespace Gevulot.InspectorModel

/-- SQL `LIKE` (PostgreSQL documentation 9.7.1; default escape character): `%` matches any text, `_` any one character, and a
backslash takes the meaning from the character after it.  (PostgreSQL rejects a pattern that ends in a backslash; here it
stands for itself.) -/
def like : List Char → List Char → Bool
  | [], s => s.isEmpty
  | '%' :: p, s => (List.range (s.length + 1)).any fun n => like p (s.drop n)
  | '_' :: p, s => match s with
    | [] => false
    | _ :: s => like p s
  | '\\' :: x :: p, s => match s with
    | [] => false
    | c :: s => c == x && like p s
  | x :: p, s => match s with
    | [] => false
    | c :: s => c == x && like p s

/-- A row of `pg_class`: the columns that the query uses.  `relkind` is a one-letter code. -/
structure PgClass where
  oid : Nat
  relname : List Char
  relnamespace : Nat
  relkind : Char
  deriving DecidableEq, Repr

/-- A row of `pg_namespace`. -/
structure PgNamespace where
  oid : Nat
  nspname : List Char
  deriving DecidableEq, Repr

structure Catalog where
  classes : List PgClass
  namespaces : List PgNamespace

/-- `Table` (`inspector.go:12-16`). -/
structure Table where
  schema : List Char
  name : List Char
  deriving DecidableEq, Repr

/-- A row of the result: oid, table, schema. -/
structure Row where
  oid : Nat
  table : List Char
  schema : List Char
  deriving DecidableEq, Repr

/-- The conditions of the query (`inspector.go:62-64`). -/
def keep (c : PgClass) (n : PgNamespace) : Bool :=
  !(["information_schema".toList].contains n.nspname) && !(like "pg_%".toList n.nspname) && ['r', 'm', 'v'].contains c.relkind

/-- The query (`inspector.go:56-64`): the join of the two catalogs, filtered.  The order is that of the catalogs; the query has
no `ORDER BY`, and the theorems do not depend on the order. -/
def query (cat : Catalog) : List Row :=
  cat.classes.flatMap fun c =>
    (cat.namespaces.filter fun n => n.oid == c.relnamespace && keep c n).map fun n => ⟨c.oid, c.relname, n.nspname⟩

/-- What one turn of the loop meets: a row that can be scanned, or one whose scan fails. -/
inductive Item
  | row (r : Row)
  | bad (e : Nat)
  deriving DecidableEq, Repr

/-- The rows as `database/sql` gives them: `rows.Next()` returns true for each item and false after the last, whereupon
`rows.Err()` is `err`: an error if the connection failed before the end of the result. -/
structure Rows where
  items : List Item
  err : Option Nat
  deriving DecidableEq, Repr

abbrev Mapping := Nat → Option Table

/-- The loop (`inspector.go:74-89`). -/
def scanAll : List Item → Mapping → Except Nat Mapping
  | [], m => .ok m
  | .bad e :: _, _ => .error e
  | .row r :: rest, m => scanAll rest fun o => if o = r.oid then some ⟨r.schema, r.table⟩ else m o

/-- `OIDTableMapping` (`inspector.go:55-92`), given the outcome of `Query`.  The code does not look at `rows.Err()`. -/
def oidTableMapping : Except Nat Rows → Except Nat Mapping
  | .error e => .error e
  | .ok rows => scanAll rows.items fun _ => none

end Gevulot.InspectorModel
