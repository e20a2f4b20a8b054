import Verif.Model.Pieces

namespace Gevulot.Spec

open SessionModel (Peer)

/-- The bytes `part` are the beginning, but not all, of the message that is being written to `p`. -/
def BeingWritten (s : Pieces.State) (p : Peer) (part : Bytes) : Prop :=
  (s.sess.base.conn p).isOpen = true ∧ ∃ m, (s.sess.base.outPump p = .write m ∨ p = .db ∧ ∃ x, s.sess.hs = .startup x ∧ m = .startup x) ∧
    ∃ more, more ≠ [] ∧ sendMessage m = part ++ more

/-- `s`, in which messages are read and written piece by piece, looks like `t`, in which each message is read in one step and written in
one step. -/
structure LooksLike (s : Pieces.State) (t : FullSession.State) : Prop where
  packets : t.packets = s.sess.packets
  configs : t.configs = s.sess.configs
  dialed : t.dialed = s.sess.dialed
  inCh : t.base.inCh = s.sess.base.inCh
  outCh : t.base.outCh = s.sess.base.outCh
  inPump : t.base.inPump = s.sess.base.inPump
  proc : t.base.proc = s.sess.base.proc
  closer : t.base.closer = s.sess.base.closer
  fired : t.base.fired = s.sess.base.fired
  crashed : t.base.crashed = s.sess.base.crashed
  hsRead : t.base.hsRead = s.sess.base.hsRead
  sent : ∀ p, (t.base.conn p).sent = (s.sess.base.conn p).sent
  ended : ∀ p, (t.base.conn p).ended = (s.sess.base.conn p).ended
  assigned : ∀ p, (t.base.conn p).assigned = (s.sess.base.conn p).assigned
  isOpen : ∀ p, (t.base.conn p).isOpen = (s.sess.base.conn p).isOpen
  closes : ∀ p, (t.base.conn p).closes = (s.sess.base.conn p).closes
  /-- what was read of a message is unread -/
  unread : ∀ p, (t.base.conn p).unread = s.rbuf p ++ (s.sess.base.conn p).unread
  /-- what was written of a message is not written -/
  written : ∀ p, ∃ part, (s.sess.base.conn p).written = (t.base.conn p).written ++ part ∧ (part ≠ [] → BeingWritten s p part)
  /-- except when the connection was closed in the middle of it: then the write has already failed -/
  outPump : ∀ p, t.base.outPump p = s.sess.base.outPump p ∨
    ∃ m, s.sess.base.outPump p = .write m ∧ (s.sess.base.conn p).isOpen = false ∧ t.base.outPump p = .exited (some (m, .io 0))
  handshake : t.base.start = s.sess.base.start ∧ t.hs = s.sess.hs ∨
    ∃ m, s.sess.hs = .startup m ∧ (s.sess.base.conn .db).isOpen = false ∧ t.base.start = .deferred true ∧ t.hs = .idle

end Gevulot.Spec

namespace Gevulot.Pieces

/-- A failing write takes less than the whole message, and nothing on a connection that we have closed; what it fails with then is that
the connection is closed. -/
def Possible (t : FullSession.State) : FullSession.Action → Prop
  | .base (.outWrite p (some (n, e))) => ∀ m, t.base.outPump p = .write m → n < (sendMessage m).length ∧ ((t.base.conn p).isOpen = false → e = .io 0)
  | .startup (some n) => ∀ m, t.hs = .startup m → n < (sendMessage (.startup m)).length ∧ ((t.base.conn .db).isOpen = false → n = 0)
  | _ => True

/-- An execution in which no write fails in a way in which none can. -/
inductive PossibleRun (parse : Bytes → Option ConnectionParams) : FullSession.State → List FullSession.Action → FullSession.State → Prop
  | nil (t) : PossibleRun parse t [] t
  | cons {t a u acts t'} : Possible t a → FullSession.step parse t a = some u → PossibleRun parse u acts t' → PossibleRun parse t (a :: acts) t'

end Gevulot.Pieces
