import Verif.Props.URI
import Verif.Props.Whole

/-!
# C102: sessions are connected to the database that the URI in the file names

The whole program (Model/Whole.lean), with the text of the file's URI read by `ParseDatabaseURI` and `url.Parse` (Model/URL.lean).
-/

namespace Gevulot.URLModel

open Spec

/-- `ParseDatabaseURI`, as called by `getDBConnnectionParam` (pkg/server/session.go:337) -/
def reads (osUser : Option Bytes) (order : List (Bytes × List Bytes) → List (Bytes × List Bytes)) (text : Bytes) : Option ConnectionParams :=
  match parseDatabaseURI urlParse osUser order text with
  | .ok settings => some settings
  | _ => none

theorem joinHostPort_address (host port : Bytes) : joinHostPort host port = address host port := by
  simp [joinHostPort, address]

variable {osUser : Option Bytes} {order : List (Bytes × List Bytes) → List (Bytes × List Bytes)} {bytes : Nat → Bytes} {path : Option Nat} {text : Nat → CliModel.Text}

/-- C102: if a session has dialled, or written to a database, then that is due to a configuration that was in the file at some time and was read. If its
URI is one that says `p`, then the host and port of `p` were dialled, and nothing else; and the startup message of the client asked
for the database of `p`. -/
theorem C102 (horder : ∀ l, (order l).Perm l) (s : Whole.State)
    (h : Reachable (Whole.step (reads osUser order) bytes) (Whole.init path text) s) (t : ServerModel.Tid)
    (hd : (s.sess t).sess.dialed ≠ [] ∨ ((s.sess t).sess.base.conn .db).written ≠ []) :
    ∃ (c : CliModel.Config) (x : Option CliModel.Text) (requests : List Bytes) (pkt more : Bytes) (m : StartupMessage),
      x ∈ s.proc.cli.reads ∧ x ∈ s.proc.cli.history ∧ CliModel.readServerConfig x = some c ∧
      (∀ b ∈ requests, SSLRequest b) ∧ StartupPacket pkt m ∧ ((s.sess t).sess.base.conn .client).sent = requests.flatten ++ pkt ++ more ∧
      ∀ p, UsualURI p (bytes c.databaseURL) →
        (∃ host port, meaning p osUser (ascii "host") = some host ∧ meaning p osUser (ascii "port") = some port ∧
          (s.sess t).sess.dialed = [address host port]) ∧
        meaning p osUser (ascii "database") = some (firstValue m.parameters (ascii "database")) := by
  obtain ⟨c, x, requests, pkt, relayed, rest, m, settings, ms, h0, h1, h2, h3, h4, h5, h6, h7, h8, h9, h10⟩ := Whole.C97_db s h t hd
  refine ⟨c, x, requests, pkt, relayed, m, h0, h1, h2, h4, h5, h7, fun p hp => ?_⟩
  obtain ⟨settings', k1, k2⟩ := C100_partial osUser order horder p _ hp
  simp only [reads, k1, Option.some.injEq] at h3
  subst h3
  have get : ∀ key v, meaning p osUser key = some v → settings'.get key = v := by
    intro key v hv
    rw [ConnectionParams.get, k2, hv]
    rfl
  have hh : ∃ v, meaning p osUser (ascii "host") = some v := by
    rw [meaning, if_pos rfl]
    cases p.param (ascii "host") <;> exact ⟨_, rfl⟩
  have hpo : ∃ v, meaning p osUser (ascii "port") = some v := by
    rw [meaning, if_neg (by decide), if_pos rfl]
    cases p.param (ascii "port") <;> exact ⟨_, rfl⟩
  have hdb : ∃ v, meaning p osUser (ascii "database") = some v := by
    rw [meaning, if_neg (by decide), if_neg (by decide), if_neg (by decide), if_neg (by decide), if_pos rfl, hp.param.1]
    exact ⟨_, rfl⟩
  obtain ⟨host, e1⟩ := hh
  obtain ⟨port, e2⟩ := hpo
  obtain ⟨db, e3⟩ := hdb
  refine ⟨⟨host, port, e1, e2, ?_⟩, ?_⟩
  · rw [h9, joinHostPort_address, get _ _ e1, get _ _ e2]
  · rw [e3, h6.2, get _ _ e3]

/-! ### Example -/

def exampleURI : Bytes := ascii "postgres://alice:secret@[fd00::1]:5433/app?connect_timeout=10"

def exampleParts : Parts :=
  ⟨some (ascii "alice", some (ascii "secret")), ascii "fd00::1", some (ascii "5433"), some (ascii "app"), [(ascii "connect_timeout", ascii "10")]⟩

theorem exampleUsual : UsualURI exampleParts exampleURI := by
  refine ⟨⟨_, _, _, _, _, _, .inr rfl, .password _ (ascii "alice") _ (ascii "secret") (by decide) (encoded_plain _ (by decide)) (encoded_plain _ (by decide)),
    .ipv6 _ (by decide) (by decide), .port _ (by decide), .name _ (ascii "app") (encoded_plain _ (by decide)),
    .cons _ _ _ _ _ (.param _ (ascii "connect_timeout") _ (ascii "10") (by decide) (encoded_plain _ (by decide)) (encoded_plain _ (by decide))) (.nil _),
    by decide, by decide +kernel⟩, by decide, by decide, .inl (by decide)⟩

/-- The state after some steps of the program. -/
def after (acts : List Whole.Action) : Whole.State :=
  (run (Whole.step (reads none id) fun _ => exampleURI) (Whole.init (some 0) CliModel.oldText) acts).getD (Whole.init (some 0) CliModel.oldText)

theorem after_reachable (acts : List Whole.Action)
    (h : (run (Whole.step (reads none id) fun _ => exampleURI) (Whole.init (some 0) CliModel.oldText) acts).isSome) :
    Reachable (Whole.step (reads none id) fun _ => exampleURI) (Whole.init (some 0) CliModel.oldText) (after acts) := by
  obtain ⟨s, hs⟩ := Option.isSome_iff_exists.mp h
  exact ⟨acts, by rw [after, hs]; rfl⟩

/-- C102: the program of C97's example, with this URI in the file: the session has connected to fd00::1. -/
example : Reachable (Whole.step (reads none id) fun _ => exampleURI) (Whole.init (some 0) CliModel.oldText) (after Whole.passing) ∧
    ((after Whole.passing).sess (.go 1)).sess.dialed = [ascii "[fd00::1]:5433"] ∧
    (((after Whole.passing).sess (.go 1)).sess.base.conn .db).written ≠ [] :=
  ⟨after_reachable _ (by decide +kernel), by decide +kernel, by decide +kernel⟩

end Gevulot.URLModel
