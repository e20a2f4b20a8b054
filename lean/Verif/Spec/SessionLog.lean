import Verif.Model.SessionLog

/-!
# What a session returns and logs

What the properties C108 and C109 are stated with.
-/

namespace Gevulot.SessionLog

open SessionModel (Peer StartPC)

/-- The errors that goroutines have handed to the group, in this order. -/
def handed (s : State) : List Err := s.reports.filterMap fun g => (returned s.sess.base g).join

/-- The number of SSL requests among the startup packets. -/
def ssl (packets : List (Bytes × StartupMessage)) : Nat := (packets.filter fun x => x.2.protocolVersion = sslRequestMagic).length

/-- The beginning of the log of `Start`, with `n` SSL requests. -/
def opening (n : Nat) : List Line := .initializing :: (List.replicate n [Line.waiting, .denying]).flatten

/-- How `Start` says what came out. -/
def ending : Option Result → List Line
  | some (.group (some e)) => [.error e]
  | some (.group none) => [.completed]
  | _ => []

/-- The last line of `Start`. -/
def over : StartPC → List Line
  | .returned => [.closed]
  | _ => []

/-- What `Close` has logged; `db` says whether it has found a connection to the database. -/
def closeStory (db : Bool) : SessionModel.CloserPC → List Line
  | .none => []
  | .closeClient => [.closing]
  | .closeDB => [.closing, .clientClosed]
  | .done => [.closing, .clientClosed] ++ (if db then [.dbClosed] else []) ++ [.channelsClosed]
  | _ => [.closing, .clientClosed] ++ (if db then [.dbClosed] else [])

end Gevulot.SessionLog
