import Verif.Model.Conn
import Verif.Model.Trans

/-!
# pkg/server/session.go: Start, Close, the four pumps and startProcessing

The goroutines of one session as a transition system. Both connections are treated alike: the code has the same pump once
for the client and once for the database, so the model has one pump indexed by the peer.

* What a peer sends arrives in arbitrary pieces at arbitrary moments (`Action.peerSends`). A `RecvMessage` call takes its
  bytes from what has arrived; it blocks as long as the frame is not complete and the peer has not hung up. Taking all
  bytes of a frame at once when the last one is there is the same as taking them one by one, as nobody else reads the
  connection (C96, with Model/Pieces.lean).
* The outcome of a write is arbitrary: success, or an error after any number of bytes. A peer that does not read is a write
  step that is not taken.
* Channels are Go channels of capacity 64: sending blocks when full and panics when closed; receiving blocks when empty
  and reports closure once closed and drained. A panic ends the process: nothing steps any more.
* `Event.Fire` and `HasFired` are atomic (justified by C41, C42).
* The handshake (session.go:151-228) is sequential code, modelled in Model/Handshake.lean. Here it is a sequence of steps
  of unspecified content: take bytes from the client, send bytes to the client, dial, assign `s.dbConn`, send the startup
  message, fail. Every execution of the real handshake is one of those. `s.dbConn` is written by `Start` and read by
  `Close` without synchronisation; the model assumes sequential consistency for it.
* `errgroup.Group.Wait` waits for all goroutines of the group; they are started at once (a goroutine that starts late is
  one that does not step for a while).
* Logging is left out.
-/

namespace Gevulot.SessionModel

/-- The two ends of a session. -/
inductive Peer where
  | client
  | db
  deriving DecidableEq, Repr

/-- The opposite end. -/
def Peer.other : Peer → Peer
  | .client => .db
  | .db => .client

/-- A connection, seen from gevulot. -/
structure PeerConn where
  /-- the connection exists (the client's from the start, the database's once dialled) and we have not closed it -/
  isOpen : Bool
  /-- the field of the session (`s.clientConn`, `s.dbConn`) is not nil -/
  assigned : Bool
  /-- everything the peer has sent so far -/
  sent : Bytes
  /-- the part of it that was not read yet -/
  unread : Bytes
  /-- the error the stream ends with, once the peer has hung up -/
  ended : Option Err
  /-- everything we have written to the peer -/
  written : Bytes
  /-- number of times we closed the connection -/
  closes : Nat
  deriving DecidableEq, Repr

/-- A channel of messages. -/
structure Chan where
  buf : List Msg
  closed : Bool
  deriving DecidableEq, Repr

/-- `make(chan pg.Message, 64)`, session.go:62-65 -/
def chanCap : Nat := 64

/-- `startClientInPump`, session.go:231-241; `startDBInPump`, session.go:264-274. -/
inductive InPump where
  | notStarted
  /-- at `RecvMessage` -/
  | recv
  /-- at `s.clientIn <- message` -/
  | send (m : Msg)
  | exited (e : Err)
  deriving DecidableEq, Repr

/-- `startClientOutPump`, session.go:244-261; `startDBOutPump`, session.go:277-294. -/
inductive OutPump where
  | notStarted
  /-- at `<-s.clientOut` -/
  | recv
  /-- at `SendMessage(message)` -/
  | write (m : Msg)
  /-- returned: `none` when the channel was closed, else the write error and the message it hit -/
  | exited (failed : Option (Msg × Err))
  deriving DecidableEq, Repr

/-- `startProcessing`, session.go:297-320. -/
inductive Proc where
  | notStarted
  /-- at the `select` -/
  | select
  /-- a message received from `src` is about to be sent to the out channel of the other end -/
  | send (src : Peer) (m : Msg)
  | exited
  deriving DecidableEq, Repr

/-- `Start`, session.go:74-111. -/
inductive StartPC where
  | notCalled
  /-- in `negotiateSessionParams` before `net.Dial` returned -/
  | negotiating
  /-- `net.Dial` returned a connection, session.go:211; `s.dbConn` is not assigned yet -/
  | dialled
  /-- `s.dbConn` assigned, session.go:218; the startup message is to be sent -/
  | assigned
  /-- the goroutines run; in `g.Wait()`, session.go:102 -/
  | waiting
  /-- about to run the deferred `s.Close()`, session.go:83; the flag: whether the handshake failed -/
  | deferred (handshakeFailed : Bool)
  /-- in the deferred `s.Close()`, which is doing the closing -/
  | closing
  | returned
  deriving DecidableEq, Repr

/-- The call of `Close` that won `s.closed.Fire()`, session.go:117-147. -/
inductive CloserPC where
  /-- no call yet -/
  | none
  /-- session.go:126-130 -/
  | closeClient
  /-- session.go:132-136 -/
  | closeDB
  /-- session.go:139-142: the next of the four channels -/
  | closeClientIn
  | closeClientOut
  | closeDBIn
  | closeDBOut
  /-- returned -/
  | done
  deriving DecidableEq, Repr

/-- One session. -/
structure State where
  conn : Peer → PeerConn
  /-- `clientIn`, `dbIn` -/
  inCh : Peer → Chan
  /-- `clientOut`, `dbOut` -/
  outCh : Peer → Chan
  inPump : Peer → InPump
  outPump : Peer → OutPump
  proc : Proc
  start : StartPC
  closer : CloserPC
  /-- `s.closed` has fired -/
  fired : Bool
  /-- not in the code: whether it fired while `Start` was still in the handshake -/
  firedInHandshake : Bool
  /-- not in the code: what the handshake read from the client -/
  hsRead : Bytes
  /-- not in the code: what the handshake wrote to each peer -/
  hsWritten : Peer → Bytes
  /-- the process has panicked -/
  crashed : Bool

/-- `NewSession`, session.go:57-69. -/
def init : State :=
  { conn := fun p => { isOpen := p = .client, assigned := p = .client, sent := [], unread := [], ended := none, written := [], closes := 0 }
    inCh := fun _ => ⟨[], false⟩
    outCh := fun _ => ⟨[], false⟩
    inPump := fun _ => .notStarted
    outPump := fun _ => .notStarted
    proc := .notStarted
    start := .notCalled
    closer := .none
    fired := false
    firedInHandshake := false
    hsRead := []
    hsWritten := fun _ => []
    crashed := false }

/-- Who makes the next step. -/
inductive Action where
  /-- more bytes arrive from a peer -/
  | peerSends (p : Peer) (bs : Bytes)
  /-- a peer hangs up (or the connection breaks) -/
  | peerEnds (p : Peer) (e : Err)
  /-- someone calls `Start` -/
  | callStart
  /-- someone calls `Close` -/
  | callClose
  /-- the handshake reads some bytes from the client -/
  | hsRead (n : Nat)
  /-- the handshake sends bytes to the client -/
  | hsReply (bs : Bytes)
  /-- the handshake fails -/
  | hsFail
  /-- `net.Dial` succeeds -/
  | hsDial
  /-- `s.dbConn = pg.NewConn(conn)` -/
  | hsAssign
  /-- the startup message is written to the database; false: only a part of it, with an error -/
  | hsStartup (bs : Bytes) (ok : Bool)
  /-- an in pump receives a message -/
  | inRecv (p : Peer)
  /-- an in pump puts it into its channel -/
  | inSend (p : Peer)
  /-- the processing goroutine takes a message, or notices closure -/
  | procRecv (p : Peer)
  /-- the processing goroutine passes it on -/
  | procSend
  /-- an out pump takes a message, or notices closure -/
  | outRecv (p : Peer)
  /-- an out pump writes it: completely, or with an error after some bytes -/
  | outWrite (p : Peer) (failure : Option (Nat × Err))
  /-- the next step of the call of `Close` that does the closing -/
  | closeStep
  /-- `g.Wait()` returns -/
  | join
  /-- `Start` runs or finishes its deferred `Close` -/
  | startFinish
  deriving DecidableEq, Repr

/-- `RecvMessage` (pkg/pg/conn.go:29-82) on what has arrived: `none` while it has to wait; otherwise its outcome and the
bytes left. On a connection we have closed it returns an error (here: `io 0`, "use of closed network connection"). -/
def tryRecv (c : PeerConn) : Option (Res Msg × Bytes) :=
  if c.isOpen = false then some (.err (.io 0), c.unread)
  else
    match c.ended with
    | some e => let (m, r) := recvMessage ⟨[c.unread], e⟩; some (m, r.bytes)
    | none =>
      match readStandardFrame ⟨[c.unread], .eof⟩ with
      | (.ok f, r) => some (parseMessage f, r.bytes)
      | (.err _, _) => none
      | (.panic p, r) => some (.panic p, r.bytes)

/-- All five goroutines have returned. -/
def State.allExited (s : State) : Bool :=
  (match s.inPump .client with | .exited _ => true | _ => false) &&
  (match s.inPump .db with | .exited _ => true | _ => false) &&
  (match s.outPump .client with | .exited _ => true | _ => false) &&
  (match s.outPump .db with | .exited _ => true | _ => false) &&
  (s.proc = .exited)

/-- `Start` has not got past the handshake. -/
def StartPC.inHandshake : StartPC → Bool
  | .negotiating | .dialled | .assigned => true
  | _ => false

/-- `s.closed.Fire()` by a call that wins. -/
def State.fire (s : State) : State :=
  { s with fired := true, closer := .closeClient, firedInHandshake := s.start.inHandshake }

/-- `conn.Close()`, if the field is set. -/
def State.closeConn (s : State) (p : Peer) : State :=
  if (s.conn p).assigned then { s with conn := upd s.conn p { s.conn p with isOpen := false, closes := (s.conn p).closes + 1 } }
  else s

/-- The transitions. -/
def step (s : State) (a : Action) : Option State :=
  if s.crashed then none
  else
    match a with
    | .peerSends p bs =>
      if (s.conn p).ended = none then
        some { s with conn := upd s.conn p { s.conn p with sent := (s.conn p).sent ++ bs, unread := (s.conn p).unread ++ bs } }
      else none
    | .peerEnds p e =>
      if (s.conn p).ended = none then some { s with conn := upd s.conn p { s.conn p with ended := some e } } else none
    | .callStart =>
      -- session.go:78-80: a closed session is refused
      if s.start = .notCalled then some { s with start := if s.fired then .returned else .negotiating } else none
    | .callClose => if s.fired then some s else some s.fire
    | .hsRead n =>
      if s.start = .negotiating ∧ n ≤ (s.conn .client).unread.length then
        some { s with conn := upd s.conn .client { s.conn .client with unread := (s.conn .client).unread.drop n }, hsRead := s.hsRead ++ (s.conn .client).unread.take n }
      else none
    | .hsReply bs =>
      if s.start = .negotiating ∧ (s.conn .client).isOpen then
        some { s with conn := upd s.conn .client { s.conn .client with written := (s.conn .client).written ++ bs }, hsWritten := upd s.hsWritten .client (s.hsWritten .client ++ bs) }
      else none
    | .hsFail => if s.start = .negotiating then some { s with start := .deferred true } else none
    | .hsDial =>
      if s.start = .negotiating then
        some { s with conn := upd s.conn .db { s.conn .db with isOpen := true }, start := .dialled }
      else none
    | .hsAssign =>
      if s.start = .dialled then
        some { s with conn := upd s.conn .db { s.conn .db with assigned := true }, start := .assigned }
      else none
    | .hsStartup bs ok =>
      if s.start = .assigned ∧ ((s.conn .db).isOpen ∨ (bs = [] ∧ ok = false)) then
        let s := { s with conn := upd s.conn .db { s.conn .db with written := (s.conn .db).written ++ bs }, hsWritten := upd s.hsWritten .db (s.hsWritten .db ++ bs) }
        if ok then
          -- session.go:95-99
          some { s with inPump := fun _ => .recv, outPump := fun _ => .recv, proc := .select, start := .waiting }
        else some { s with start := .deferred true }
      else none
    | .inRecv p =>
      if s.inPump p = .recv then
        match tryRecv (s.conn p) with
        | none => none
        | some (.ok m, unread) => some { s with inPump := upd s.inPump p (.send m), conn := upd s.conn p { s.conn p with unread := unread } }
        | some (.err e, unread) => some { s with inPump := upd s.inPump p (.exited e), conn := upd s.conn p { s.conn p with unread := unread } }
        | some (.panic _, _) => some { s with crashed := true }
      else none
    | .inSend p =>
      match s.inPump p with
      | .send m =>
        if (s.inCh p).closed then some { s with crashed := true }
        else if (s.inCh p).buf.length < chanCap then
          some { s with inPump := upd s.inPump p .recv, inCh := upd s.inCh p { s.inCh p with buf := (s.inCh p).buf ++ [m] } }
        else none
      | _ => none
    | .procRecv p =>
      if s.proc = .select then
        match (s.inCh p).buf with
        | m :: rest => some { s with proc := .send p m, inCh := upd s.inCh p { s.inCh p with buf := rest } }
        | [] => if (s.inCh p).closed then some { s with proc := .exited } else none
      else none
    | .procSend =>
      match s.proc with
      | .send src m =>
        let dst := src.other
        if (s.outCh dst).closed then some { s with crashed := true }
        else if (s.outCh dst).buf.length < chanCap then
          some { s with proc := .select, outCh := upd s.outCh dst { s.outCh dst with buf := (s.outCh dst).buf ++ [m] } }
        else none
      | _ => none
    | .outRecv p =>
      if s.outPump p = .recv then
        match (s.outCh p).buf with
        | m :: rest => some { s with outPump := upd s.outPump p (.write m), outCh := upd s.outCh p { s.outCh p with buf := rest } }
        | [] => if (s.outCh p).closed then some { s with outPump := upd s.outPump p (.exited none) } else none
      else none
    | .outWrite p failure =>
      match s.outPump p with
      | .write m =>
        match failure with
        | none =>
          if (s.conn p).isOpen then
            some { s with outPump := upd s.outPump p .recv, conn := upd s.conn p { s.conn p with written := (s.conn p).written ++ sendMessage m } }
          else none
        | some (n, e) =>
          if (s.conn p).isOpen ∨ n = 0 then
            some { s with outPump := upd s.outPump p (.exited (some (m, e))), conn := upd s.conn p { s.conn p with written := (s.conn p).written ++ (sendMessage m).take n } }
          else none
      | _ => none
    | .closeStep =>
      match s.closer with
      | .none => none
      | .closeClient => some { s.closeConn .client with closer := .closeDB }
      | .closeDB => some { s.closeConn .db with closer := .closeClientIn }
      | .closeClientIn =>
        -- closing a closed channel panics
        if (s.inCh .client).closed then some { s with crashed := true }
        else some { s with inCh := upd s.inCh .client { s.inCh .client with closed := true }, closer := .closeClientOut }
      | .closeClientOut =>
        -- closing a closed channel panics
        if (s.outCh .client).closed then some { s with crashed := true }
        else some { s with outCh := upd s.outCh .client { s.outCh .client with closed := true }, closer := .closeDBIn }
      | .closeDBIn =>
        -- closing a closed channel panics
        if (s.inCh .db).closed then some { s with crashed := true }
        else some { s with inCh := upd s.inCh .db { s.inCh .db with closed := true }, closer := .closeDBOut }
      | .closeDBOut =>
        -- closing a closed channel panics
        if (s.outCh .db).closed then some { s with crashed := true }
        else some { s with outCh := upd s.outCh .db { s.outCh .db with closed := true }, closer := .done }
      | .done => none
    | .join => if s.start = .waiting ∧ s.allExited then some { s with start := .deferred false } else none
    | .startFinish =>
      match s.start with
      | .deferred _ => if s.fired then some { s with start := .returned } else some { s.fire with start := .closing }
      | .closing => if s.closer = .done then some { s with start := .returned } else none
      | _ => none

end Gevulot.SessionModel
