import Verif.Model.FullSession

/-!
# Specification: a handshake that is not disturbed

What it means that a handshake in a running program (Model/FullSession.lean) comes to the same as `negotiateSessionParams` read
as a sequential program (Model/Handshake.lean).
-/

namespace Gevulot.Spec

/-- The outcomes of sending the client a byte, in order. -/
def replies (acts : List FullSession.Action) : List Bool :=
  acts.filterMap fun | .reply ok => some ok | _ => none

/-- The answers of `cfg.Get()`, in order. -/
def answers (acts : List FullSession.Action) : List (Option Bytes) :=
  acts.filterMap fun | .getConfig a => some a | _ => none

/-- `env` is the outside world that the handshake meets in this execution, which leads to `s`. -/
structure Outside (parse : Bytes → Option ConnectionParams) (env : HandshakeEnv) (acts : List FullSession.Action) (s : FullSession.State) : Prop where
  parse_ok : ∀ u p, parse u = some p → env.parseURI u = .ok p
  parse_err : ∀ u, parse u = none → ∃ e, env.parseURI u = .err e
  reply_ok : ∀ i, (replies acts)[i]? = some true → env.clientWrite i = none
  reply_err : ∀ i, (replies acts)[i]? = some false → ∃ e, env.clientWrite i = some e
  config_ok : ∀ i u, (answers acts)[i]? = some (some u) → env.getConfig i = .ok u
  config_err : ∀ i, (answers acts)[i]? = some none → ∃ e, env.getConfig i = .err e
  dial_ok : .dial true ∈ acts → ∀ addr ∈ s.dialed, env.dial addr = .ok ()
  dial_err : .dial false ∈ acts → ∀ addr ∈ s.dialed, ∃ e, env.dial addr = .err e
  write_ok : .startup none ∈ acts → ∀ x, s.packets.getLast? = some x → env.dbWrite (sendMessage (.startup x.2)) = none
  write_err : ∀ n, .startup (some n) ∈ acts → ∀ x, s.packets.getLast? = some x → ∃ e, env.dbWrite (sendMessage (.startup x.2)) = some (n, e)

/-- The handshake of the session came to what the sequential program `out` came to, which was given these bytes. -/
structure SameOutcome (s : FullSession.State) (given : Bytes) (out : Res Unit × HandshakeState) : Prop where
  /-- it succeeded (and the goroutines were started), or failed with an error -/
  result : (out.1 = .ok () ∧ s.base.proc ≠ .notStarted) ∨ ((∃ e, out.1 = .err e) ∧ s.base.proc = .notStarted)
  /-- it took as many of the client's bytes -/
  read : given = s.base.hsRead ++ out.2.client.bytes
  toClient : out.2.toClient = s.base.hsWritten .client
  toDB : out.2.toDB = s.base.hsWritten .db
  getCalls : out.2.getCalls = s.configs.length
  dialed : out.2.dialed = s.dialed
  dbConn : out.2.dbConn = (s.base.conn .db).assigned

end Gevulot.Spec
