import Verif.Model.DSN

/-!
# Specification: connection settings of a URI, key by key

<https://www.postgresql.org/docs/current/libpq-connect.html#LIBPQ-CONNSTRING>
-/

namespace Gevulot.Spec

/-- The first value a query string gives to a key. -/
def firstQueryValue (u : URL) (key : Bytes) : Option Bytes :=
  (u.queryPairs.find? (fun kv => kv.1 == key)).map Prod.snd

/-- The user before the query is considered: the one in the URI, else the OS user if there is one. -/
def uriUser (u : URL) (osUser : Option Bytes) : Option Bytes :=
  match u.user with
  | some i => some i.username
  | none => osUser

/-- The path without its leading slashes. -/
def databaseInPath (path : Bytes) : Bytes :=
  match path with
  | [] => []
  | c :: cs => if c = BitVec.ofNat 8 '/'.toNat then databaseInPath cs else c :: cs

/-- The value of each key. -/
def setting (u : URL) (osUser : Option Bytes) (key : Bytes) : Option Bytes :=
  match firstQueryValue u key with
  | some v => some v
  | none =>
    if key = ascii "host" then some (if u.hostname = [] then ascii "localhost" else u.hostname)
    else if key = ascii "port" then some (if u.port = [] then ascii "5432" else u.port)
    else if key = ascii "user" then uriUser u osUser
    else if key = ascii "password" then u.user.bind UserInfo.password
    else if key = ascii "database" then
      some (if databaseInPath u.path = [] then (uriUser u osUser).getD [] else databaseInPath u.path)
    else none

end Gevulot.Spec
