import Verif.Model.Pieces
import Verif.Model.Process

/-!
# The whole program, with messages read and written piece by piece

Model/Process.lean with the sessions of Model/Pieces.lean. This file only says how the two are tied together: the session of a thread is
its session in the program, together with what it has read of the next message and how much it has written of the present ones.
-/

namespace Gevulot.Whole

open ServerModel (Tid)
open SessionModel (Peer)

structure State where
  proc : Process.State
  /-- what the session of a thread has read of the next message -/
  rbuf : Tid → Peer → Bytes
  /-- how many bytes of the present message it has written -/
  wrote : Tid → Peer → Nat

def init (path : Option Nat) (text : Nat → CliModel.Text) : State :=
  { proc := Process.init path text, rbuf := fun _ _ => [], wrote := fun _ _ => 0 }

/-- The session of a thread. -/
def State.sess (s : State) (t : Tid) : Pieces.State := { sess := s.proc.sys.sess t, rbuf := s.rbuf t, wrote := s.wrote t }

/-- Who makes the next step. -/
inductive Action where
  /-- anything but reading and writing messages -/
  | other (a : Process.Action)
  /-- the session of this thread reads or writes a piece -/
  | piece (t : Tid) (a : Pieces.Action)

/-- The steps of Model/Process.lean that are replaced. -/
def replaced : Process.Action → Bool
  | .sys (.session _ a) => Pieces.replaced a
  | _ => false

/-- The transitions. -/
def step (parse : Bytes → Option ConnectionParams) (bytes : Nat → Bytes) (s : State) (a : Action) : Option State :=
  match a with
  | .other a => if replaced a then none else (Process.step parse bytes s.proc a).map fun x => { s with proc := x }
  | .piece _ (.other _) => none
  | .piece t a =>
    if s.proc.over then none
    else
      (Pieces.step parse (s.sess t) a).map fun x =>
        { proc := { s.proc with sys := { s.proc.sys with sess := upd s.proc.sys.sess t x.sess, crashed := x.sess.base.crashed } }
          rbuf := upd s.rbuf t x.rbuf
          wrote := upd s.wrote t x.wrote }

end Gevulot.Whole
