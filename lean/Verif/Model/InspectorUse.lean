import Verif.Model.Inspector

/-!
# Model of the life of an `Inspector` (`/repo/pkg/pgmeta/inspector.go`)

Modelled: `Inspect` (lines 25–43), `DatabaseName` (46–53), `OIDTableMapping` (55–93, with the deferred `rows.Close()`; its result as in
Model/Inspector.lean), `Close` (95–98), as far as they open and close things. `database/sql` and the driver are outside: the outcome
of each of their calls is an input. As documented, a `*sql.DB` holds its connections until it is closed, and a `*sql.Rows` its connection
until it is closed (or read to the end, which is not counted on here).
-/

namespace Gevulot.InspectorModel

/-- What is open: the `*sql.DB`s, the `*sql.Rows`. -/
structure Open where
  dbs : Nat
  rows : Nat
  deriving DecidableEq, Repr

/-- `Inspect` (`inspector.go:25-43`): `opened` and `pinged` are the errors of `sql.Open` and `db.Ping()`. Returns the error. -/
def inspect (opened pinged : Option Nat) (o : Open) : Option Nat × Open :=
  match opened with
  | some e => (some e, o)
  | none =>
    let o := { o with dbs := o.dbs + 1 }
    match pinged with
    | some e => (some e, { o with dbs := o.dbs - 1 })
    | none => (none, o)

/-- The other methods, with the outcomes of what they call. -/
inductive Method where
  /-- `row.Scan`: the name, or an error -/
  | databaseName (scanned : Except Nat (List Char))
  /-- `db.Query` -/
  | oidTableMapping (queried : Except Nat Rows)

/-- A result. -/
inductive Result where
  | name (name : List Char) (err : Option Nat)
  | mapping (m : Except Nat Mapping)

/-- `DatabaseName` (`inspector.go:46-53`): `name` is the empty string if `Scan` fails; `Scan` closes the row. `OIDTableMapping`
(`inspector.go:55-93`). -/
def call (m : Method) (o : Open) : Result × Open :=
  match m with
  | .databaseName scanned =>
    match scanned with
    | .ok name => (.name name none, o)
    | .error e => (.name [] (some e), o)
  | .oidTableMapping queried =>
    match queried with
    | .error e => (.mapping (.error e), o)
    | .ok rows =>
      let o := { o with rows := o.rows + 1 }
      let r := oidTableMapping (.ok rows)
      -- the deferred `rows.Close()`, `inspector.go:71`
      (.mapping r, { o with rows := o.rows - 1 })

/-- `Close` (`inspector.go:96-98`); whatever `db.Close()` returns, the `*sql.DB` is closed. -/
def close (o : Open) : Open := { o with dbs := o.dbs - 1 }

/-- The methods called one after the other. -/
def calls (ms : List Method) (o : Open) : List Result × Open :=
  ms.foldl (fun (rs, o) m => let (r, o') := call m o; (rs ++ [r], o')) ([], o)

end Gevulot.InspectorModel
