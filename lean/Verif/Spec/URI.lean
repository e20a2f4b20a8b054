import Verif.Model.Go

/-!
# Specification: connection URIs as documented

<https://www.postgresql.org/docs/current/libpq-connect.html#LIBPQ-CONNSTRING> ("Connection URIs"):

    postgresql://[userspec@][hostspec][/dbname][?paramspec]
    userspec:  user[:password]
    hostspec:  [host][:port]
    paramspec: name=value[&...]

"The URI scheme designator can be either postgresql:// or postgres://. [...] The connection URI needs to be encoded with percent-encoding if
it includes symbols with special meaning in any of its parts. [...] To specify an IPv6 host address, enclose the address in square brackets."
Which characters need no encoding is taken from RFC 3986. (Several hosts in one URI are left out.)
-/

namespace Gevulot.Spec

/-- Unreserved characters, RFC 3986 section 2.3 -/
def unreserved (c : Byte) : Bool :=
  (ascii "abcdefghijklmnopqrstuvwxyzABCDEFGHIJKLMNOPQRSTUVWXYZ0123456789-._~").contains c

/-- `sub-delims`, RFC 3986 section 2.2 -/
def subDelim (c : Byte) : Bool := (ascii "!$&'()*+,;=").contains c

/-- The value of a hexadecimal digit. -/
def HexDigit (c : Byte) (v : Nat) : Prop :=
  (ascii "0123456789abcdef")[v]? = some c ∨ (ascii "0123456789ABCDEF")[v]? = some c

/-- `text` stands for `b`, RFC 3986 section 2.1: the characters for which `plain` holds may stand for themselves, and those for which
`coded` holds may be written as a percent sign and two hexadecimal digits. -/
inductive Encoded (plain coded : Byte → Bool) : Bytes → Bytes → Prop
  | nil : Encoded plain coded [] []
  | char (c : Byte) {b text : Bytes} : plain c = true → Encoded plain coded b text → Encoded plain coded (c :: b) (c :: text)
  | code (c h l : Byte) (x y : Nat) {b text : Bytes} : coded c = true → HexDigit h x → HexDigit l y → c = BitVec.ofNat 8 (16 * x + y) →
      Encoded plain coded b text → Encoded plain coded (c :: b) (ascii "%" ++ h :: l :: text)

/-- What a URI says. -/
structure Parts where
  /-- user and password -/
  user : Option (Bytes × Option Bytes)
  host : Bytes
  port : Option Bytes
  database : Option Bytes
  params : List (Bytes × Bytes)

def anyByte : Byte → Bool := fun _ => true

/-- `userspec@` -/
inductive UserText : Option (Bytes × Option Bytes) → Bytes → Prop
  | absent : UserText none []
  | user (u text : Bytes) : u ≠ [] → Encoded (fun c => unreserved c || subDelim c) anyByte u text → UserText (some (u, none)) (text ++ ascii "@")
  | password (u text p text' : Bytes) : u ≠ [] → Encoded (fun c => unreserved c || subDelim c) anyByte u text →
      Encoded (fun c => unreserved c || subDelim c || (ascii ":").contains c) anyByte p text' → UserText (some (u, some p)) (text ++ ascii ":" ++ text' ++ ascii "@")

/-- `host`: a name, or an IPv6 address in brackets; `coded`: which characters of a name may be percent-encoded -/
inductive HostText (coded : Byte → Bool) : Bytes → Bytes → Prop
  | name (b text : Bytes) : Encoded (fun c => unreserved c || subDelim c) coded b text → HostText coded b text
  | ipv6 (b : Bytes) : b.all (fun c => (ascii "0123456789abcdefABCDEF:.").contains c) = true → b ≠ [] →
      HostText coded b (ascii "[" ++ b ++ ascii "]")

/-- `:port` -/
inductive PortText : Option Bytes → Bytes → Prop
  | absent : PortText none []
  | port (d : Bytes) : d.all (fun c => (ascii "0123456789").contains c) = true → PortText (some d) (ascii ":" ++ d)

/-- `/dbname` -/
inductive DatabaseText : Option Bytes → Bytes → Prop
  | absent : DatabaseText none []
  | name (d text : Bytes) : Encoded (fun c => unreserved c || subDelim c || (ascii ":@/").contains c) anyByte d text →
      DatabaseText (some d) (ascii "/" ++ text)

/-- The characters that need no encoding in the name or the value of a parameter. -/
def paramChar (c : Byte) : Bool := (unreserved c || subDelim c || (ascii ":@/?").contains c) && !(ascii "&=").contains c

/-- `name=value` -/
inductive ParamText (plain : Byte → Bool) : Bytes × Bytes → Bytes → Prop
  | param (k text v text' : Bytes) : k ≠ [] → Encoded plain anyByte k text → Encoded plain anyByte v text' →
      ParamText plain (k, v) (text ++ ascii "=" ++ text')

/-- `name=value[&...]` after `sep` (`?` or `&`) -/
inductive ParamsText (plain : Byte → Bool) : Bytes → List (Bytes × Bytes) → Bytes → Prop
  | nil (sep : Bytes) : ParamsText plain sep [] []
  | cons (sep text rest : Bytes) (p : Bytes × Bytes) (ps : List (Bytes × Bytes)) : ParamText plain p text → ParamsText plain (ascii "&") ps rest →
      ParamsText plain sep (p :: ps) (sep ++ text ++ rest)

/-- The text of a URI. `coded`: the characters of a host name that may be percent-encoded; `plain`: the characters of parameters that need
not be. -/
def IsURI (coded plain : Byte → Bool) (p : Parts) (text : Bytes) : Prop :=
  ∃ scheme user host port database params, (scheme = ascii "postgresql" ∨ scheme = ascii "postgres") ∧ UserText p.user user ∧
    HostText coded p.host host ∧ PortText p.port port ∧ DatabaseText p.database database ∧ ParamsText plain (ascii "?") p.params params ∧
    (p.params.map Prod.fst).Nodup ∧ text = scheme ++ ascii "://" ++ user ++ host ++ port ++ database ++ params

/-- The parameter of this name. -/
def Parts.param (p : Parts) (name : Bytes) : Option Bytes := (p.params.find? (·.1 == name)).map Prod.snd

/-- The user: that of the parameters, of the URI, or of the operating system. -/
def Parts.userName (p : Parts) (osUser : Option Bytes) : Option Bytes := (p.param (ascii "user")).or ((p.user.map Prod.fst).or osUser)

/-- `b`, unless it is absent or empty. -/
def nonempty (b : Option Bytes) : Option Bytes := b.filter (· ≠ [])

/-- What a URI means: the parameters "can be used to override" what is before them; the name of the database is the parameter `dbname`;
the defaults are those of the code (pkg/pg/dsn.go:64-77), and "the default database name is the same as the user name". -/
def meaning (p : Parts) (osUser : Option Bytes) (key : Bytes) : Option Bytes :=
  if key = ascii "host" then (p.param key).or (some ((nonempty (some p.host)).getD (ascii "localhost")))
  else if key = ascii "port" then (p.param key).or (some ((nonempty p.port).getD (ascii "5432")))
  else if key = ascii "user" then p.userName osUser
  else if key = ascii "password" then (p.param key).or (p.user.bind Prod.snd)
  else if key = ascii "database" then (p.param (ascii "dbname")).or (some ((nonempty p.database).getD ((p.userName osUser).getD [])))
  else p.param key

/-- The address of a host and a port, with brackets around an IPv6 address. -/
def address (host port : Bytes) : Bytes :=
  if host.contains (BitVec.ofNat 8 ':'.toNat) then ascii "[" ++ host ++ ascii "]:" ++ port else host ++ ascii ":" ++ port

/-- The text of a URI that keeps clear of what gevulot reads differently (C100). -/
structure UsualURI (p : Parts) (text : Bytes) : Prop where
  /-- ASCII characters of the host are not percent-encoded, neither `+` nor `;` is in a parameter -/
  uri : IsURI (fun c => decide (128 ≤ c.toNat) || c == BitVec.ofNat 8 '%'.toNat) (fun c => paramChar c && !(ascii "+;").contains c) p text
  /-- the name of the database does not begin with a slash -/
  database : ∀ d, p.database = some d → d.head? ≠ some (BitVec.ofNat 8 '/'.toNat)
  /-- nor is it given by a parameter -/
  param : p.param (ascii "dbname") = none ∧ p.param (ascii "database") = none
  /-- nor is the user, unless the database is named -/
  user : p.param (ascii "user") = none ∨ ∃ d, p.database = some d ∧ d ≠ []

end Gevulot.Spec
