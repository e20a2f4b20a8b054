import Verif.Model.Go

/-!
# pkg/pg/dsn.go

`url.Parse` is a parameter that returns the components the code looks at (Model/URL.lean has it as it is in Go's library). Go maps are
functions `key → Option value`; iterating over a map is iterating over a list of its entries in an arbitrary order.
-/

namespace Gevulot

/-- `url.Userinfo`: username and password, the latter with its "present" flag. -/
structure UserInfo where
  username : Bytes
  password : Option Bytes
  deriving DecidableEq, Repr

/-- The components of a `*url.URL` that pkg/pg/dsn.go uses: `Scheme`, `User` (nil or not), `Hostname()`, `Port()`, `Path`
and the key/value pairs of the query string in the order they are written. -/
structure URL where
  scheme : Bytes
  user : Option UserInfo
  hostname : Bytes
  port : Bytes
  path : Bytes
  queryPairs : List (Bytes × Bytes)
  deriving DecidableEq, Repr

/-- `values[key] = append(values[key], value)`, net/url's `Values.Add`, on the entries of the map. -/
def Values.add : List (Bytes × List Bytes) → Bytes → Bytes → List (Bytes × List Bytes)
  | [], k, v => [(k, [v])]
  | (k', vs) :: rest, k, v => if k' = k then (k', vs ++ [v]) :: rest else (k', vs) :: Values.add rest k v

/-- `url.Query()`: the entries of the `map[string][]string`, one per key. -/
def URL.query (u : URL) : List (Bytes × List Bytes) :=
  u.queryPairs.foldl (fun m kv => Values.add m kv.1 kv.2) []

/-- `ConnectionParams`, pkg/pg/dsn.go:11. -/
abbrev ConnectionParams := Bytes → Option Bytes

/-- `settings[k] = v` -/
def ConnectionParams.set (m : ConnectionParams) (k v : Bytes) : ConnectionParams :=
  fun k' => if k' = k then some v else m k'

/-- `settings[k]` as a string: `""` for a missing key. -/
def ConnectionParams.get (m : ConnectionParams) (k : Bytes) : Bytes := (m k).getD []

/-- `defaultConnectionSettings`, pkg/pg/dsn.go:64-77; `osUser` is the outcome of `user.Current()`. -/
def defaultConnectionSettings (osUser : Option Bytes) : ConnectionParams :=
  let settings : ConnectionParams := fun _ => none
  let settings := settings.set (ascii "host") (ascii "localhost")
  let settings := settings.set (ascii "port") (ascii "5432")
  match osUser with
  | some username => (settings.set (ascii "user") username).set (ascii "database") username
  | none => settings

/-- The loop of pkg/pg/dsn.go:56-58 over the entries of `url.Query()` in the order given; `v[0]` of an empty slice would
panic. -/
def applyQuery (settings : ConnectionParams) : List (Bytes × List Bytes) → Res ConnectionParams
  | [] => .ok settings
  | (k, v :: _) :: rest => applyQuery (settings.set k v) rest
  | (_, []) :: _ => .panic .index

/-- pkg/pg/dsn.go:27-54: the settings before the query is looked at. -/
def uriSettings (osUser : Option Bytes) (url : URL) : ConnectionParams :=
  let settings := defaultConnectionSettings osUser
  let settings :=
    match url.user with
    | some u =>
      let settings := settings.set (ascii "user") u.username
      match u.password with
      | some password => settings.set (ascii "password") password
      | none => settings
    | none => settings
  let settings := if url.hostname ≠ [] then settings.set (ascii "host") url.hostname else settings
  let settings := if url.port ≠ [] then settings.set (ascii "port") url.port else settings
  let database := url.path.dropWhile (fun c => c == BitVec.ofNat 8 '/'.toNat)
  if database ≠ [] then settings.set (ascii "database") database
  else settings.set (ascii "database") (settings.get (ascii "user"))

/-- `ParseDatabaseURI`, pkg/pg/dsn.go:15-61. `parse` is `url.Parse`, `osUser` the outcome of `user.Current()`, `order` the
order in which Go iterates over the query map. -/
def parseDatabaseURI (parse : Bytes → Res URL) (osUser : Option Bytes)
    (order : List (Bytes × List Bytes) → List (Bytes × List Bytes)) (connString : Bytes) : Res ConnectionParams := do
  let url ← parse connString
  if url.scheme ≠ ascii "postgres" ∧ url.scheme ≠ ascii "postgresql" then .err .notPostgresURI
  else applyQuery (uriSettings osUser url) (order url.query)

end Gevulot
