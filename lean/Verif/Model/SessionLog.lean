import Verif.Model.Logging

/-!
# pkg/server/session.go: what `Start` returns, and all that a session logs

Model/FullSession.lean says what a session does. Here are added the error that `Start` returns, with the `errgroup.Group` it comes
from, and all the lines that a session logs (Model/Logging.lean has only the messages).

* `errgroup.Group` (golang.org/x/sync, not in /repo): a goroutine started with `g.Go(f)` calls `f` and, if the result is not nil, stores it unless an
  error was stored before (`errOnce`); then it calls `Done`. `Wait` returns after all of them have, with what was stored. Between
  the return of `f` and this there may be steps of anybody else (`Action.report`).
* Each of `Start`, `Close` and `startProcessing` has a log of its own: how lines of different goroutines are interleaved is left open.
  The line is added in the step that leads to it. `Close` here is the call that does the closing, whoever has called it.
* The errors in the lines about closed connections (session.go:129, 135) are left out. Of the errors of the handshake it is only said that `Start` returns them.
-/

namespace Gevulot.SessionLog

open SessionModel (Peer)

/-- The levels of logrus that are used. -/
inductive Level where
  | debug
  | info
  | error
  deriving DecidableEq, Repr

/-- The lines of a session. -/
inductive Line where
  /-- "session: initializing a new session", session.go:75 -/
  | initializing
  /-- "session: waiting for the client startup message", session.go:152 -/
  | waiting
  /-- "session: client requested SSL; denying", session.go:163 -/
  | denying
  /-- "session: error: %v", session.go:105 -/
  | error (e : Err)
  /-- "session: completed", session.go:107 -/
  | completed
  /-- "session: closed", session.go:76 -/
  | closed
  /-- "session: closing", session.go:123 -/
  | closing
  /-- "session: client connection is closed; err = %v", session.go:129 -/
  | clientClosed
  /-- "session: db connection is closed; err = %v", session.go:135 -/
  | dbClosed
  /-- "session: channels closed", session.go:144 -/
  | channelsClosed
  /-- "-> %s", "<- %s", session.go:306, 315 -/
  | relayed (l : LogModel.Line)
  deriving DecidableEq

/-- `log.Debug`, `log.Info`, `log.Error` -/
def Line.level : Line → Level
  | .waiting | .clientClosed | .dbClosed | .channelsClosed => .debug
  | .error _ => .error
  | _ => .info

/-- `configureLogger`, pkg/cli/cli.go:91-99: the level is `Info`, logrus' default, or `Debug`; a line is printed when its level is
at least that. -/
def printed (verbose : Bool) (l : Line) : Bool := verbose || l.level != .debug

/-- The goroutines of the group, session.go:95-99. -/
inductive Goroutine where
  | inPump (p : Peer)
  | outPump (p : Peer)
  | processing
  deriving DecidableEq, Repr

/-- What `Start` returns. -/
inductive Result where
  /-- `ErrSessionClosed`, session.go:79 -/
  | sessionClosed
  /-- the error of `negotiateSessionParams`, session.go:89 -/
  | handshake
  /-- what `g.Wait()` returned, session.go:102, 110 -/
  | group (e : Option Err)
  deriving DecidableEq, Repr

structure State where
  sess : FullSession.State
  /-- the goroutines that have returned and passed `errOnce`, in this order -/
  reports : List Goroutine
  /-- `g.err` -/
  first : Option Err
  /-- `err` in `Start`, once it has been determined -/
  ret : Option Result
  /-- the lines of `Start` -/
  startLog : List Line
  /-- the lines of `Close` -/
  closeLog : List Line
  /-- the lines of `startProcessing` -/
  relayLog : List Line

def init : State := { sess := FullSession.init, reports := [], first := none, ret := none, startLog := [], closeLog := [], relayLog := [] }

inductive Action where
  /-- a step of the session -/
  | sess (a : FullSession.Action)
  /-- a goroutine that has returned hands its error to the group -/
  | report (g : Goroutine)
  deriving DecidableEq

/-- What the function of a goroutine has returned: `none` if it has not, else its error or nil. -/
def returned (b : SessionModel.State) : Goroutine → Option (Option Err)
  | .inPump p => match b.inPump p with | .exited e => some (some e) | _ => none
  | .outPump p => match b.outPump p with | .exited f => some (f.map (·.2)) | _ => none
  | .processing => match b.proc with | .exited => some none | _ => none

def goroutines : List Goroutine := [.inPump .client, .outPump .client, .inPump .db, .outPump .db, .processing]

/-- The lines of `Start` and the handshake in a step from `s` to `s'`. -/
def startLines (first : Option Err) (s s' : FullSession.State) : FullSession.Action → List Line
  -- session.go:75, and then 78-80 with the deferred 76, or 152
  | .base .callStart => .initializing :: if s.base.fired then [.closed] else [.waiting]
  -- session.go:162-163
  | .recvStartup => match s'.hs with | .reply => [.denying] | _ => []
  -- session.go:172: `negotiateSessionParams` again
  | .reply true => [.waiting]
  -- session.go:102-108
  | .base .join => match first with | some e => [.error e] | none => [.completed]
  -- session.go:76: after the deferred `s.Close()`
  | .base .startFinish => if s'.base.start = .returned then [.closed] else []
  | _ => []

/-- The lines of `Close`. -/
def closeLines (s : SessionModel.State) : FullSession.Action → List Line
  | .base .callClose => if s.fired then [] else [.closing]
  | .base .startFinish => match s.start with | .deferred _ => if s.fired then [] else [.closing] | _ => []
  | .base .closeStep =>
    match s.closer with
    | .closeClient => if (s.conn .client).assigned then [.clientClosed] else []
    | .closeDB => if (s.conn .db).assigned then [.dbClosed] else []
    | .closeDBOut => if (s.outCh .db).closed then [] else [.channelsClosed]
    | _ => []
  | _ => []

/-- The lines of `startProcessing`. -/
def relayLines (s : SessionModel.State) : FullSession.Action → List Line
  | .base a => (LogModel.lines s a).map .relayed
  | _ => []

/-- What `Start` will return. -/
def nextRet (s : State) (s' : FullSession.State) : FullSession.Action → Option Result
  | .base .callStart => if s.sess.base.fired then some .sessionClosed else s.ret
  | .base .join => some (.group s.first)
  | _ => if s'.base.start = .deferred true then some .handshake else s.ret

/-- The transitions. -/
def step (parse : Bytes → Option ConnectionParams) (s : State) : Action → Option State
  | .sess a =>
    -- `g.Wait()` returns when every goroutine has called `Done`
    if a = .base .join ∧ ¬ ∀ g ∈ goroutines, g ∈ s.reports then none
    else (FullSession.step parse s.sess a).map fun x =>
      { s with
        sess := x
        ret := nextRet s x a
        startLog := s.startLog ++ startLines s.first s.sess x a
        closeLog := s.closeLog ++ closeLines s.sess.base a
        relayLog := s.relayLog ++ relayLines s.sess.base a }
  | .report g =>
    if s.sess.base.crashed ∨ g ∈ s.reports then none
    else (returned s.sess.base g).map fun r => { s with reports := s.reports ++ [g], first := s.first.or r }

end Gevulot.SessionLog
