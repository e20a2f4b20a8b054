import Verif.Model.Handshake
import Verif.Model.Session

/-!
# pkg/server/session.go: a whole session, with its handshake step by step

Model/Session.lean leaves open what the handshake does between the start of `Start` and the start of the goroutines;
Model/Handshake.lean says what it does, but as one sequential program over a finished stream. Here both are put together:
the handshake is a goroutine with a program counter that works on the connections of the session while the peers send,
hang up, and other goroutines call `Close`. Each of its steps is carried out by the handshake steps of Model/Session.lean,
so every execution here is one there (`base_reachable` in Proofs/FullSession.lean).

What is outside is the content of actions: the answer of `cfg.Get()`, the outcome of `net.Dial` and of writes.
`ParseDatabaseURI` is a parameter, as in Model/Handshake.lean; `none` is an error (it does not
panic: C24_scheme gives its outcome for every URI).
-/

namespace Gevulot.FullSession

open SessionModel (Peer PeerConn)

/-- Where `negotiateSessionParams` / `establishDBConnection` is. -/
inductive HsPC where
  /-- not running -/
  | idle
  /-- at `RecvStartupMessage`, session.go:155 -/
  | recv
  /-- at `SendByte('N')`, session.go:165 -/
  | reply
  /-- at the first `getDBConnnectionParam`, session.go:181; the protocol version was accepted -/
  | config (m : StartupMessage)
  /-- at `net.Dial`, session.go:211; the database name was accepted, host and port are cached -/
  | dial (m : StartupMessage) (params : ConnectionParams)
  /-- at `s.dbConn = pg.NewConn(conn)`, session.go:218 -/
  | assign (m : StartupMessage)
  /-- at `s.dbConn.SendMessage(startupMessage)`, session.go:221 -/
  | startup (m : StartupMessage)

/-- One session. -/
structure State where
  /-- connections, channels, goroutines, `Start`, `Close` -/
  base : SessionModel.State
  hs : HsPC
  /-- not in the code: the startup packets received so far, with what they were decoded to -/
  packets : List (Bytes × StartupMessage)
  /-- not in the code: the answers of `cfg.Get()` (the `DatabaseURL` of the configuration, or an error) -/
  configs : List (Option Bytes)
  /-- not in the code: the addresses passed to `net.Dial` -/
  dialed : List Bytes

/-- `NewSession`, session.go:57-69. -/
def init : State := { base := SessionModel.init, hs := .idle, packets := [], configs := [], dialed := [] }

/-- Who makes the next step. -/
inductive Action where
  /-- anything but the handshake -/
  | base (a : SessionModel.Action)
  /-- `RecvStartupMessage` returns -/
  | recvStartup
  /-- `SendByte('N')` returns, successfully or not -/
  | reply (ok : Bool)
  /-- `cfg.Get()` returns a configuration with that `DatabaseURL`, or an error -/
  | getConfig (answer : Option Bytes)
  /-- `net.Dial` returns, successfully or not -/
  | dial (ok : Bool)
  /-- `s.dbConn` is assigned -/
  | assign
  /-- `SendMessage(startupMessage)` returns: successfully, or with an error after so many bytes -/
  | startup (failure : Option Nat)
  deriving DecidableEq, Repr

/-- The steps of Model/Session.lean that stand for the handshake. -/
def isHandshake : SessionModel.Action → Bool
  | .hsRead _ | .hsReply _ | .hsFail | .hsDial | .hsAssign | .hsStartup _ _ => true
  | _ => false

/-- `RecvStartupMessage` (pkg/pg/conn.go:18-26) on what has arrived, like `SessionModel.tryRecv`: `none` while it has to
wait, otherwise its outcome and the bytes left. -/
def tryRecvStartup (c : PeerConn) : Option (Res StartupMessage × Bytes) :=
  if c.isOpen = false then some (.err (.io 0), c.unread)
  else
    match c.ended with
    | some e => let (m, r) := recvStartupMessage ⟨[c.unread], e⟩; some (m, r.bytes)
    | none =>
      match readStartupFrame ⟨[c.unread], .eof⟩ with
      | (.ok f, r) => some (parseStartupMessage f, r.bytes)
      | (.err _, _) => none
      | (.panic p, r) => some (.panic p, r.bytes)

/-- The handshake returns an error. -/
def State.fail (s : State) : Option State :=
  (SessionModel.step s.base .hsFail).map fun b => { s with base := b, hs := .idle }

/-- A panic in the handshake. -/
def State.crash (s : State) : Option State :=
  if s.base.crashed then none else some { s with base := { s.base with crashed := true } }

/-- The transitions; `parse` is `pg.ParseDatabaseURI`. -/
def step (parse : Bytes → Option ConnectionParams) (s : State) (a : Action) : Option State :=
  match a with
  | .base a =>
    if isHandshake a then none
    else (SessionModel.step s.base a).map fun b =>
      -- session.go:86: `Start` goes on with `negotiateSessionParams`
      { s with base := b, hs := if a = .callStart ∧ b.start = .negotiating then .recv else s.hs }
  | .recvStartup =>
    -- session.go:151-178
    match s.hs with
    | .recv =>
      let c := s.base.conn .client
      match tryRecvStartup c with
      | none => none
      | some (.ok m, rest) =>
        let n := c.unread.length - rest.length
        (SessionModel.step s.base (.hsRead n)).bind fun b =>
          let s := { s with base := b, packets := s.packets ++ [(c.unread.take n, m)] }
          if m.protocolVersion = sslRequestMagic then some { s with hs := .reply }
          else if m.protocolVersion ≠ defaultProtocolVersion then s.fail
          else some { s with hs := .config m }
      | some (.err _, rest) =>
        (SessionModel.step s.base (.hsRead (c.unread.length - rest.length))).bind fun b => { s with base := b }.fail
      | some (.panic _, _) => s.crash
    | _ => none
  | .reply ok =>
    -- session.go:165-172
    match s.hs with
    | .reply =>
      if ok then (SessionModel.step s.base (.hsReply (sendByte (BitVec.ofNat 8 'N'.toNat)))).map fun b => { s with base := b, hs := .recv }
      else s.fail
    | _ => none
  | .getConfig answer =>
    -- session.go:181-189, 323-345 (first call: nothing is cached yet), 198-208 (cached)
    match s.hs with
    | .config m =>
      let s := { s with configs := s.configs ++ [answer] }
      match answer.bind parse with
      | some params =>
        if m.getParameter (ascii "database") ≠ params.get (ascii "database") then s.fail
        else if s.base.crashed then none
        else some { s with hs := .dial m params }
      | none => s.fail
    | _ => none
  | .dial ok =>
    -- session.go:211-215
    match s.hs with
    | .dial m params =>
      let s := { s with dialed := s.dialed ++ [joinHostPort (params.get (ascii "host")) (params.get (ascii "port"))] }
      if ok then (SessionModel.step s.base .hsDial).map fun b => { s with base := b, hs := .assign m }
      else s.fail
    | _ => none
  | .assign =>
    -- session.go:218
    match s.hs with
    | .assign m => (SessionModel.step s.base .hsAssign).map fun b => { s with base := b, hs := .startup m }
    | _ => none
  | .startup failure =>
    -- session.go:221-227
    match s.hs with
    | .startup m =>
      match failure with
      | none => (SessionModel.step s.base (.hsStartup (sendMessage (.startup m)) true)).map fun b => { s with base := b, hs := .idle }
      | some n =>
        (SessionModel.step s.base (.hsStartup ((sendMessage (.startup m)).take n) false)).map fun b => { s with base := b, hs := .idle }
    | _ => none

end Gevulot.FullSession
