import Verif.Model.Session

/-!
# Specification: what relaying a stream of messages means
-/

namespace Gevulot.Spec

/-- `Stream bytes ms rest`: `bytes` is a sequence of frames that are received as the messages `ms`, followed by `rest`. -/
inductive Stream : Bytes → List Msg → Bytes → Prop where
  | nil (b : Bytes) : Stream b [] b
  | cons {b rest : Bytes} {m : Msg} {ms : List Msg} {r : Reader} (h : recvMessage ⟨[b], .eof⟩ = (.ok m, r))
      (tail : Stream r.bytes ms rest) : Stream b (m :: ms) rest

/-- `b` does not begin with a message: nothing can be received from it, unless more bytes follow. -/
def NoMessage (b : Bytes) : Prop := ∀ m r, recvMessage ⟨[b], .eof⟩ ≠ (.ok m, r)

end Gevulot.Spec
