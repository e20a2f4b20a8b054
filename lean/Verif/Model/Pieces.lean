import Verif.Model.FullSession

/-!
# pkg/pg/standard_frame.go, startup_frame.go, conn.go in a session: reading and writing piece by piece

In Model/Session.lean and Model/FullSession.lean a message is received in one step, when all its bytes are there, and written in one
step. Here `ReadStandardFrame`, `ReadStartupFrame` and `Write` take several steps: each `Read` returns some of the bytes that have
arrived, and each step of a `Write` hands some bytes to the connection; anything may happen in between, in particular `Close`.

* A `Read` returns between one byte and as many as there are, but no more than `io.CopyN` asks for (its `io.LimitedReader`). (`Read`
  never returns 0 bytes and no error; that would only be one more step that does nothing.) It fails if we have closed the connection, and when
  the stream has ended and all that arrived was read.
* A `Write` in progress fails at any moment; if we have closed the connection it can only fail.
* `s.rbuf p` are the bytes that the frame reader of `p` has got so far: `buffer` in standard_frame.go:44 and startup_frame.go:44. The
  handshake and the in pump of the client use the same component, one after the other. `s.wrote p` is how many bytes of the message that
  is being written to `p` have been written. When a read fails its bytes are lost; they remain in `rbuf` where nobody looks at them.
* Everything else is as in Model/FullSession.lean.
-/

namespace Gevulot.Pieces

open SessionModel (Peer)
open FullSession (HsPC)

/-- What `ReadStandardFrame` (standard_frame.go:43-82) reads before it looks at what it has got: 5 bytes, and then as many as the
header says. -/
def standardTarget (buffer : Bytes) : Nat :=
  if buffer.length < 5 then 5
  else
    match standardHeaderLength (buffer.take 5) with
    | .ok frameLength => 5 + (frameLength - 4).toInt.toNat
    | _ => 5

/-- The same for `ReadStartupFrame`, startup_frame.go:43-76. -/
def startupTarget (buffer : Bytes) : Nat :=
  if buffer.length < 4 then 4
  else
    match Dec.run ReadBuffer.readInt32 (buffer.take 4) with
    | .ok frameLength => 4 + (frameLength - 4).toInt.toNat
    | _ => 4

structure State where
  sess : FullSession.State
  /-- what has been read of the next message -/
  rbuf : Peer → Bytes
  /-- how many bytes of the present message have been written -/
  wrote : Peer → Nat

def init : State := { sess := FullSession.init, rbuf := fun _ => [], wrote := fun _ => 0 }

/-- Who makes the next step. -/
inductive Action where
  /-- anything but reading and writing messages -/
  | other (a : FullSession.Action)
  /-- `Read` in `RecvMessage` of an in pump returns `n` bytes; an error -/
  | read (p : Peer) (n : Nat)
  | readFails (p : Peer)
  /-- `Read` in `RecvStartupMessage` returns `n` bytes; an error -/
  | readStartup (n : Nat)
  | readStartupFails
  /-- `n` more bytes of the message of an out pump are written; `Write` returns an error -/
  | write (p : Peer) (n : Nat)
  | writeFails (p : Peer) (e : Err)
  /-- `n` more bytes of the startup message are written; `Write` returns an error -/
  | writeStartup (n : Nat)
  | writeStartupFails
  deriving DecidableEq

/-- The steps of Model/FullSession.lean that are replaced. -/
def replaced : FullSession.Action → Bool
  | .base (.inRecv _) | .base (.outWrite _ _) | .recvStartup | .startup _ => true
  | _ => false

/-- The session with other connections, pumps, … -/
def State.with (s : State) (f : SessionModel.State → SessionModel.State) : State := { s with sess := { s.sess with base := f s.sess.base } }

/-- The error of a `Read` now, if it does not return bytes: that of a closed connection, or that the stream ends with. -/
def readError (c : SessionModel.PeerConn) : Option Err :=
  if c.isOpen = false then some (.io 0)
  else if c.unread = [] then c.ended
  else none

/-- The transitions; `parse` is `pg.ParseDatabaseURI`. -/
def step (parse : Bytes → Option ConnectionParams) (s : State) (a : Action) : Option State :=
  let b := s.sess.base
  if b.crashed then none
  else
    match a with
    | .other a => if replaced a then none else (FullSession.step parse s.sess a).map fun x => { s with sess := x }
    | .read p n =>
      -- conn.go:30
      if b.inPump p = .recv ∧ (b.conn p).isOpen ∧ 0 < n ∧ n ≤ (b.conn p).unread.length ∧ (s.rbuf p).length + n ≤ standardTarget (s.rbuf p) then
        let buffer := s.rbuf p ++ (b.conn p).unread.take n
        let s := { s with rbuf := upd s.rbuf p buffer }
        let s := s.with fun b => { b with conn := upd b.conn p { b.conn p with unread := (b.conn p).unread.drop n } }
        if buffer.length < standardTarget buffer then some s
        else
          -- standard_frame.go:81, conn.go:36-81, session.go:233-239, 266-272
          match parseMessage (.standard buffer) with
          | .ok m => some ({ s with rbuf := upd s.rbuf p [] }.with fun b => { b with inPump := upd b.inPump p (.send m) })
          | .err e => some ({ s with rbuf := upd s.rbuf p [] }.with fun b => { b with inPump := upd b.inPump p (.exited e) })
          | .panic _ => some (s.with fun b => { b with crashed := true })
      else none
    | .readFails p =>
      -- standard_frame.go:50-54, 74-78, session.go:233-237, 266-270
      if b.inPump p = .recv then
        match readError (b.conn p) with
        | some e => some ({ s with rbuf := if (b.conn p).isOpen then upd s.rbuf p [] else s.rbuf }.with fun b => { b with inPump := upd b.inPump p (.exited e) })
        | none => none
      else none
    | .readStartup n =>
      -- conn.go:19
      match s.sess.hs with
      | .recv =>
        if (b.conn .client).isOpen ∧ 0 < n ∧ n ≤ (b.conn .client).unread.length ∧ (s.rbuf .client).length + n ≤ startupTarget (s.rbuf .client) then
          let buffer := s.rbuf .client ++ (b.conn .client).unread.take n
          let s := { s with rbuf := upd s.rbuf .client buffer }
          let s := s.with fun b => { b with conn := upd b.conn .client { b.conn .client with unread := (b.conn .client).unread.drop n } }
          if buffer.length < startupTarget buffer then some s
          else
            -- startup_frame.go:75, conn.go:25, session.go:155-178
            let read (s : State) : State := { s with rbuf := upd s.rbuf .client [] }.with fun b => { b with hsRead := b.hsRead ++ buffer }
            match parseStartupMessage (.startup buffer) with
            | .ok m =>
              let s := read s
              let x := { s.sess with packets := s.sess.packets ++ [(buffer, m)] }
              if m.protocolVersion = sslRequestMagic then some { s with sess := { x with hs := .reply } }
              else if m.protocolVersion ≠ defaultProtocolVersion then some { s with sess := { x with hs := .idle, base := { x.base with start := .deferred true } } }
              else some { s with sess := { x with hs := .config m } }
            | .err _ =>
              let s := read s
              some { s with sess := { s.sess with hs := .idle, base := { s.sess.base with start := .deferred true } } }
            | .panic _ => some (s.with fun b => { b with crashed := true })
        else none
      | _ => none
    | .readStartupFails =>
      -- startup_frame.go:50-54, 68-72, session.go:155-159
      match s.sess.hs with
      | .recv =>
        match readError (b.conn .client) with
        | some _ =>
          let s := if (b.conn .client).isOpen then { s with rbuf := upd s.rbuf .client [] }.with fun b => { b with hsRead := b.hsRead ++ s.rbuf .client } else s
          some { s with sess := { s.sess with hs := .idle, base := { s.sess.base with start := .deferred true } } }
        | none => none
      | _ => none
    | .write p n =>
      -- conn.go:86, session.go:253, 286
      match b.outPump p with
      | .write m =>
        let bytes := sendMessage m
        if (b.conn p).isOpen ∧ (0 < n ∨ bytes = []) ∧ s.wrote p + n ≤ bytes.length then
          let piece := (bytes.drop (s.wrote p)).take n
          let s := s.with fun b => { b with conn := upd b.conn p { b.conn p with written := (b.conn p).written ++ piece } }
          if s.wrote p + n < bytes.length then some { s with wrote := upd s.wrote p (s.wrote p + n) }
          else some ({ s with wrote := upd s.wrote p 0 }.with fun b => { b with outPump := upd b.outPump p .recv })
        else none
      | _ => none
    | .writeFails p e =>
      match b.outPump p with
      | .write m =>
        if (b.conn p).isOpen ∨ e = .io 0 then
          some ({ s with wrote := upd s.wrote p 0 }.with fun b => { b with outPump := upd b.outPump p (.exited (some (m, e))) })
        else none
      | _ => none
    | .writeStartup n =>
      -- conn.go:86, session.go:221
      match s.sess.hs with
      | .startup m =>
        let bytes := sendMessage (.startup m)
        if (b.conn .db).isOpen ∧ (0 < n ∨ bytes = []) ∧ s.wrote .db + n ≤ bytes.length then
          let piece := (bytes.drop (s.wrote .db)).take n
          let s := s.with fun b => { b with conn := upd b.conn .db { b.conn .db with written := (b.conn .db).written ++ piece } }
          if s.wrote .db + n < bytes.length then some { s with wrote := upd s.wrote .db (s.wrote .db + n) }
          else
            -- session.go:95-99
            let s := { s with wrote := upd s.wrote .db 0 }.with fun b =>
              { b with hsWritten := upd b.hsWritten .db (b.hsWritten .db ++ bytes), inPump := fun _ => .recv, outPump := fun _ => .recv, proc := .select, start := .waiting }
            some { s with sess := { s.sess with hs := .idle } }
        else none
      | _ => none
    | .writeStartupFails =>
      match s.sess.hs with
      | .startup m =>
        let part := (sendMessage (.startup m)).take (s.wrote .db)
        let s := { s with wrote := upd s.wrote .db 0 }.with fun b => { b with hsWritten := upd b.hsWritten .db (b.hsWritten .db ++ part), start := .deferred true }
        some { s with sess := { s.sess with hs := .idle } }
      | _ => none

end Gevulot.Pieces
