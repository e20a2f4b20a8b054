import Verif.Model.Conn
import Verif.Model.DSN

/-!
# pkg/server/session.go: negotiateSessionParams, establishDBConnection, getDBConnnectionParam

The handshake is sequential: it runs in `Session.Start` before the session goroutines exist. The mutex of
`getDBConnnectionParam` therefore plays no role and is left out; logging is left out. What is outside is a parameter:
the configuration store, `ParseDatabaseURI` (modelled in Model/DSN.lean), `net.Dial` and the outcome of writes. A
concurrent `Close` is seen by the handshake only as errors of the connections (see Model/Session.lean for the rest).
-/

namespace Gevulot

/-- pkg/pg/startup_message.go:4 -/
def sslRequestMagic : BitVec 32 := 80877103
/-- pkg/pg/startup_message.go:7 -/
def defaultProtocolVersion : BitVec 32 := 196608

/-- The outside world of one handshake. Every function is arbitrary. -/
structure HandshakeEnv where
  /-- `DatabaseURL` of what the i-th call of `cfg.Get()` returns, or its error -/
  getConfig : Nat → Res Bytes
  /-- `pg.ParseDatabaseURI` -/
  parseURI : Bytes → Res ConnectionParams
  /-- outcome of `net.Dial("tcp", addr)` -/
  dial : Bytes → Res Unit
  /-- outcome of the i-th one-byte write to the client: `none`, or the error (and then the byte was not sent) -/
  clientWrite : Nat → Option Err
  /-- outcome of writing to the database: `none`, or an error after so many bytes -/
  dbWrite : Bytes → Option (Nat × Err)

/-- The state of the session that the handshake touches, with a record of what it did to the outside. -/
structure HandshakeState where
  /-- what is still unread of the client's stream -/
  client : Reader
  /-- bytes sent to the client -/
  toClient : Bytes := []
  /-- number of attempts to send the client a byte -/
  clientWrites : Nat := 0
  /-- `s.dbConnectionParams` -/
  params : Option ConnectionParams := none
  /-- number of calls of `cfg.Get()` -/
  getCalls : Nat := 0
  /-- addresses passed to `net.Dial`, in order -/
  dialed : List Bytes := []
  /-- `s.dbConn != nil` -/
  dbConn : Bool := false
  /-- bytes sent to the database -/
  toDB : Bytes := []

/-- A method of the session that may fail. -/
def HS (α : Type) := HandshakeState → Res α × HandshakeState

instance : Monad HS where
  pure a := fun s => (.ok a, s)
  bind x f := fun s =>
    match x s with
    | (.ok a, s) => f a s
    | (.err e, s) => (.err e, s)
    | (.panic p, s) => (.panic p, s)

/-- `net.JoinHostPort`: brackets around a host that contains a colon. -/
def joinHostPort (host port : Bytes) : Bytes :=
  if BitVec.ofNat 8 ':'.toNat ∈ host then ascii "[" ++ host ++ ascii "]:" ++ port else host ++ ascii ":" ++ port

/-- `getDBConnnectionParam`, pkg/server/session.go:323-345. -/
def getDBConnectionParam (env : HandshakeEnv) (name : Bytes) : HS Bytes := fun s =>
  match s.params with
  | some params => (.ok (params.get name), s)
  | none =>
    let config := env.getConfig s.getCalls
    let s := { s with getCalls := s.getCalls + 1 }
    match config with
    | .ok databaseURL =>
      match env.parseURI databaseURL with
      | .ok params => (.ok (params.get name), { s with params := some params })
      | .err e => (.err e, s)
      | .panic p => (.panic p, s)
    | .err e => (.err e, s)
    | .panic p => (.panic p, s)

/-- `net.Dial`, pkg/server/session.go:211-218. -/
def dialDB (env : HandshakeEnv) (addr : Bytes) : HS Unit := fun s =>
  let s := { s with dialed := s.dialed ++ [addr] }
  match env.dial addr with
  | .ok () => (.ok (), { s with dbConn := true })
  | .err e => (.err e, s)
  | .panic p => (.panic p, s)

/-- `s.dbConn.SendMessage(startupMessage)`, pkg/server/session.go:221. -/
def sendToDB (env : HandshakeEnv) (m : Msg) : HS Unit := fun s =>
  match env.dbWrite (sendMessage m) with
  | none => (.ok (), { s with toDB := s.toDB ++ sendMessage m })
  | some (n, e) => (.err e, { s with toDB := s.toDB ++ (sendMessage m).take n })

/-- `establishDBConnection`, pkg/server/session.go:196-228. -/
def establishDBConnection (env : HandshakeEnv) (startupMessage : StartupMessage) : HS Unit := do
  let host ← getDBConnectionParam env (ascii "host")
  let port ← getDBConnectionParam env (ascii "port")
  dialDB env (joinHostPort host port)
  sendToDB env (.startup startupMessage)

/-- `s.clientConn.RecvStartupMessage()` -/
def recvFromClient : HS StartupMessage := fun s =>
  let (m, client) := recvStartupMessage s.client
  (m, { s with client := client })

/-- `s.clientConn.SendByte(c)` -/
def sendByteToClient (env : HandshakeEnv) (c : Byte) : HS Unit := fun s =>
  let i := s.clientWrites
  let s := { s with clientWrites := i + 1 }
  match env.clientWrite i with
  | none => (.ok (), { s with toClient := s.toClient ++ sendByte c })
  | some e => (.err e, s)

/-- A failing step. -/
def failWith {α : Type} (e : Err) : HS α := fun s => (.err e, s)

/-- What follows once a message that is not an SSL request was received, pkg/server/session.go:175-192. -/
def acceptStartup (env : HandshakeEnv) (startupMessage : StartupMessage) : HS Unit := do
  if startupMessage.protocolVersion ≠ defaultProtocolVersion then failWith .unsupportedProtocol
  else do
    let allowedDB ← getDBConnectionParam env (ascii "database")
    if startupMessage.getParameter (ascii "database") ≠ allowedDB then failWith .databaseMismatch
    else establishDBConnection env startupMessage

/-- `negotiateSessionParams`, pkg/server/session.go:151-193. The recursion ("possibility of an infinite loop") is bounded
by `fuel`; with more fuel than client bytes the bound is never reached (C32). -/
def negotiateSessionParams (env : HandshakeEnv) : (fuel : Nat) → HS Unit
  | 0 => fun s => (.panic .outOfFuel, s)
  | fuel + 1 => do
    let startupMessage ← recvFromClient
    if startupMessage.protocolVersion = sslRequestMagic then do
      sendByteToClient env (BitVec.ofNat 8 'N'.toNat)
      negotiateSessionParams env fuel
    else acceptStartup env startupMessage

/-- The handshake of a new session (`NewSession`, pkg/server/session.go:57-69) with a client that sends what `client`
delivers. -/
def handshake (env : HandshakeEnv) (client : Reader) : Res Unit × HandshakeState :=
  negotiateSessionParams env (client.bytes.length + 1) { client := client }

end Gevulot
