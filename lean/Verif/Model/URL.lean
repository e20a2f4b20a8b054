import Verif.Model.DSN

/-!
# `url.Parse` of the Go standard library (net/url/url.go, Go 1.13)

What `ParseDatabaseURI` (pkg/pg/dsn.go:15-61) relies on: `url.Parse`, `Hostname()`, `Port()`, `Query()`. The source of the standard library
is not part of /repo; the functions are modelled as they are in Go 1.13 (the version in /repo/go.mod) to 1.15 (/repo/.github/workflows/ci.yml).
(From Go 1.17 on a parameter with a `;` in it is left out instead of ending there.)

* Strings are bytes, as in Go. `for _, r := range s` in `validUserinfo` and `validOptionalPort` goes over runes; a rune that is not ASCII
  is refused there, as are all its bytes here.
* Which error is returned is a number without meaning; `ParseDatabaseURI` passes it on.
* Left out: the fields `Opaque`, `RawPath`, `ForceQuery`, `RawQuery` and `Fragment`, which `ParseDatabaseURI` does not look at. The fragment is
  unescaped, though, as that may fail. `ForceQuery` and the removal of a final `?` come to the same as splitting at the first `?`.
-/

namespace Gevulot.URLModel

/-- A character constant. -/
def chr (c : Char) : Byte := BitVec.ofNat 8 c.toNat

/-- `lo <= c && c <= hi` -/
def between (lo hi : Char) (c : Byte) : Bool := decide (lo.toNat ≤ c.toNat) && decide (c.toNat ≤ hi.toNat)

def isLetter (c : Byte) : Bool := between 'a' 'z' c || between 'A' 'Z' c
def isDigit (c : Byte) : Bool := between '0' '9' c

/-- `c` is one of these characters. -/
def oneOf (s : String) (c : Byte) : Bool := (ascii s).contains c

/-- `ishex` -/
def ishex (c : Byte) : Bool := isDigit c || between 'a' 'f' c || between 'A' 'F' c

/-- `unhex` -/
def unhex (c : Byte) : Byte :=
  if isDigit c then c - chr '0'
  else if between 'a' 'f' c then c - chr 'a' + 10
  else if between 'A' 'F' c then c - chr 'A' + 10
  else 0

/-- `encoding`: which part of the URL is being read -/
inductive Mode where
  | path
  | host
  | zone
  | userPassword
  | query
  | fragment
  deriving DecidableEq, Repr

/-- `shouldEscape`, for the modes in which it is called here -/
def shouldEscape (c : Byte) (mode : Mode) : Bool :=
  if isLetter c || isDigit c then false
  else if (mode = .host ∨ mode = .zone) && oneOf "!$&'()*+,;=:[]<>\"" c then false
  else if oneOf "-_.~" c then false
  else if oneOf "$&+,/:;=?@" c then
    match mode with
    | .path => c == chr '?'
    | .userPassword => oneOf "@/?:" c
    | .query => true
    | .fragment => false
    | _ => true
  else if mode = .fragment && oneOf "!()*" c then false
  else true

/-- `unescape`: the loop that checks and the loop that translates as one -/
def unescape (mode : Mode) : Bytes → Res Bytes
  | [] => .ok []
  | c :: rest =>
    if c = chr '%' then
      match rest with
      | h :: l :: rest =>
        if !(ishex h && ishex l) then .err (.ext 0)
        else if mode = .host ∧ unhex h < 8 ∧ ¬ (h = chr '2' ∧ l = chr '5') then .err (.ext 0)
        else if mode = .zone ∧ ¬ (h = chr '2' ∧ l = chr '5') ∧ unhex h <<< 4 ||| unhex l ≠ chr ' ' ∧ shouldEscape (unhex h <<< 4 ||| unhex l) .host then
          .err (.ext 0)
        else do
          let t ← unescape mode rest
          pure ((unhex h <<< 4 ||| unhex l) :: t)
      | _ => .err (.ext 0)
    else if (mode = .host ∨ mode = .zone) ∧ c < 0x80 ∧ shouldEscape c mode then .err (.ext 1)
    else do
      let t ← unescape mode rest
      pure ((if c = chr '+' ∧ mode = .query then chr ' ' else c) :: t)

/-- `s[:i], s[i:]` where `i` is the first index of `c`, or the length -/
def cut (c : Byte) (s : Bytes) : Bytes × Bytes := (s.takeWhile (· != c), s.dropWhile (· != c))

/-- `split(s, c, true)` -/
def splitCut (c : Byte) (s : Bytes) : Bytes × Bytes := ((cut c s).1, (cut c s).2.drop 1)

/-- `s[:i], s[i+1:]` where `i` is the last index of `c` -/
def lastCut (c : Byte) : Bytes → Option (Bytes × Bytes)
  | [] => none
  | x :: xs =>
    match lastCut c xs with
    | some (a, b) => some (x :: a, b)
    | none => if x = c then some ([], xs) else none

/-- `s[:i], s[i:]` where `i` is the first index of `t` -/
def cutAt (t : Bytes) : Bytes → Option (Bytes × Bytes)
  | [] => if t = [] then some ([], []) else none
  | x :: xs =>
    if t.isPrefixOf (x :: xs) then some ([], x :: xs)
    else
      match cutAt t xs with
      | some (a, b) => some (x :: a, b)
      | none => none

/-- `validOptionalPort` -/
def validOptionalPort : Bytes → Bool
  | [] => true
  | c :: rest => c == chr ':' && rest.all isDigit

/-- `validUserinfo` -/
def validUserinfo (s : Bytes) : Bool := s.all fun c => isLetter c || isDigit c || oneOf "-._:~!$&'()*+,;=%@" c

/-- `parseHost` -/
def parseHost (host : Bytes) : Res Bytes :=
  if host.head? = some (chr '[') then
    match lastCut (chr ']') host with
    | none => .err (.ext 2)
    | some (inside, colonPort) =>
      if !validOptionalPort colonPort then .err (.ext 3)
      else
        match cutAt (ascii "%25") inside with
        | some (addr, zone) => do
          let host1 ← unescape .host addr
          let host2 ← unescape .zone zone
          let host3 ← unescape .host (chr ']' :: colonPort)
          pure (host1 ++ host2 ++ host3)
        | none => unescape .host host
  else
    match lastCut (chr ':') host with
    | some (_, port) => if !validOptionalPort (chr ':' :: port) then .err (.ext 3) else unescape .host host
    | none => unescape .host host

/-- `parseAuthority` -/
def parseAuthority (authority : Bytes) : Res (Option UserInfo × Bytes) :=
  match lastCut (chr '@') authority with
  | none => do
    let host ← parseHost authority
    pure (none, host)
  | some (userinfo, host) => do
    let host ← parseHost host
    if !validUserinfo userinfo then .err (.ext 4)
    else if !userinfo.contains (chr ':') then
      let username ← unescape .userPassword userinfo
      pure (some ⟨username, none⟩, host)
    else
      let (username, password) := splitCut (chr ':') userinfo
      let username ← unescape .userPassword username
      let password ← unescape .userPassword password
      pure (some ⟨username, some password⟩, host)

/-- `splitHostPort`: the results of `Hostname()` and `Port()` -/
def splitHostPort (hostport : Bytes) : Bytes × Bytes :=
  let (host, port) :=
    match lastCut (chr ':') hostport with
    | some (host, port) => if validOptionalPort (chr ':' :: port) then (host, port) else (hostport, [])
    | none => (hostport, [])
  if host.head? = some (chr '[') ∧ host.getLast? = some (chr ']') then ((host.drop 1).dropLast, port) else (host, port)

/-- `getscheme`: the loop; `seen` is `rawurl[:i]` -/
def schemeLoop (rawurl seen : Bytes) : Bytes → Res (Bytes × Bytes)
  | [] => .ok ([], rawurl)
  | c :: rest =>
    if isLetter c then schemeLoop rawurl (seen ++ [c]) rest
    else if isDigit c || oneOf "+-." c then
      if seen = [] then .ok ([], rawurl) else schemeLoop rawurl (seen ++ [c]) rest
    else if c = chr ':' then
      if seen = [] then .err (.ext 5) else .ok (seen, rest)
    else .ok ([], rawurl)

/-- `strings.ToLower` of a scheme -/
def toLower (s : Bytes) : Bytes := s.map fun c => if between 'A' 'Z' c then c + 32 else c

/-- The pieces between `&` and `;`, of which those that are not empty are looked at by `parseQuery` -/
def pieces : Bytes → List Bytes
  | [] => [[]]
  | c :: rest =>
    if c = chr '&' ∨ c = chr ';' then [] :: pieces rest
    else
      match pieces rest with
      | p :: ps => (c :: p) :: ps
      | [] => [[c]]

/-- `parseQuery`: the pairs added to the map; a pair that cannot be unescaped is skipped. (`Query()` ignores the error.) -/
def parseQuery (query : Bytes) : List (Bytes × Bytes) :=
  (pieces query).filterMap fun piece =>
    if piece = [] then none
    else
      match unescape .query (splitCut (chr '=') piece).1, unescape .query (splitCut (chr '=') piece).2 with
      | .ok key, .ok value => some (key, value)
      | _, _ => none

/-- A control character, `stringContainsCTLByte` -/
def isCTL (c : Byte) : Bool := decide (c.toNat < 0x20) || c == 0x7f

/-- `parse(rawurl, false)` -/
def parse (rawurl : Bytes) : Res URL :=
  if rawurl.any isCTL then .err (.ext 6)
  else if rawurl = ascii "*" then .ok { scheme := [], user := none, hostname := [], port := [], path := ascii "*", queryPairs := [] }
  else do
    let (scheme, rest) ← schemeLoop rawurl [] rawurl
    let scheme := toLower scheme
    let (rest, rawQuery) := splitCut (chr '?') rest
    let slash := rest.head? = some (chr '/')
    if ¬ slash ∧ scheme ≠ [] then
      -- `Opaque`
      pure { scheme := scheme, user := none, hostname := [], port := [], path := [], queryPairs := parseQuery rawQuery }
    else if ¬ slash ∧ (cut (chr '/') rest).1.contains (chr ':') then .err (.ext 7)
    else if (scheme ≠ [] ∨ ¬ (ascii "///").isPrefixOf rest) ∧ (ascii "//").isPrefixOf rest then
      let (authority, rest) := cut (chr '/') (rest.drop 2)
      let (user, host) ← parseAuthority authority
      let path ← unescape .path rest
      pure { scheme := scheme, user := user, hostname := (splitHostPort host).1, port := (splitHostPort host).2, path := path, queryPairs := parseQuery rawQuery }
    else
      let path ← unescape .path rest
      pure { scheme := scheme, user := none, hostname := [], port := [], path := path, queryPairs := parseQuery rawQuery }

/-- `url.Parse` -/
def urlParse (rawurl : Bytes) : Res URL := do
  let (u, frag) := splitCut (chr '#') rawurl
  let url ← parse u
  if frag = [] then pure url
  else
    let _ ← unescape .fragment frag
    pure url

end Gevulot.URLModel
