import Verif.Proofs.Session

namespace Gevulot
namespace SessionModel

/-! ### Closing -/

/-- How far the call of `Close` is. -/
def CloserPC.rank : CloserPC → Nat
  | .none => 0
  | .closeClient => 1
  | .closeDB => 2
  | .closeClientIn => 3
  | .closeClientOut => 4
  | .closeDBIn => 5
  | .closeDBOut => 6
  | .done => 7

/-- The database connection was not dialled yet. -/
def StartPC.beforeDial : StartPC → Bool
  | .notCalled | .negotiating => true
  | _ => false

structure CloseInv (s : State) : Prop where
  fired : s.fired = true ↔ 0 < s.closer.rank
  client : (s.conn .client).assigned = true ∧ (s.conn .client).closes = (if 1 < s.closer.rank then 1 else 0) ∧
    (s.conn .client).isOpen = decide (s.closer.rank ≤ 1)
  dbBefore : s.start.beforeDial = true → (s.conn .db).isOpen = false ∧ (s.conn .db).assigned = false
  dbDialled : s.start = .dialled → (s.conn .db).isOpen = true ∧ (s.conn .db).assigned = false
  dbAssigned : s.start = .assigned ∨ s.proc ≠ .notStarted → (s.conn .db).assigned = true
  dbUnassigned : (s.conn .db).assigned = false → (s.conn .db).closes = 0
  dbUnassigned' : (s.conn .db).assigned = false → (s.conn .db).isOpen = true → s.start = .dialled
  dbOpen : (s.conn .db).assigned = true → (s.conn .db).closes = 0 → (s.conn .db).isOpen = true
  dbClosed : 0 < (s.conn .db).closes → (s.conn .db).isOpen = false ∧ (s.conn .db).closes = 1 ∧ 2 < s.closer.rank
  late : 2 < s.closer.rank → (s.conn .db).isOpen = true → s.firedInHandshake = true
  inHandshake : s.fired = true → s.firedInHandshake = false → s.start.inHandshake = false
  clientIn : (s.inCh .client).closed = decide (3 < s.closer.rank)
  clientOut : (s.outCh .client).closed = decide (4 < s.closer.rank)
  dbIn : (s.inCh .db).closed = decide (5 < s.closer.rank)
  dbOut : (s.outCh .db).closed = decide (6 < s.closer.rank)

theorem closeInv_init : CloseInv init := by
  constructor <;> simp [init, CloserPC.rank, StartPC.beforeDial]

theorem closeInv_congr {s s' : State} (h : CloseInv s)
    (h1 : ∀ p, (s'.conn p).isOpen = (s.conn p).isOpen ∧ (s'.conn p).assigned = (s.conn p).assigned ∧
      (s'.conn p).closes = (s.conn p).closes)
    (h2 : ∀ p, (s'.inCh p).closed = (s.inCh p).closed ∧ (s'.outCh p).closed = (s.outCh p).closed)
    (h3 : s'.start = s.start ∧ s'.closer = s.closer ∧ s'.fired = s.fired ∧ s'.firedInHandshake = s.firedInHandshake)
    (h4 : s'.proc ≠ .notStarted → s.proc ≠ .notStarted) : CloseInv s' := by
  obtain ⟨a1, a2, a3, a4, a5, a6, a7, a8, a9, a10, a11, a12, a13, a14, a15⟩ := h
  obtain ⟨b1, b2, b3, b4⟩ := h3
  have c1 := h1 .client
  have c2 := h1 .db
  have d1 := h2 .client
  have d2 := h2 .db
  constructor <;> simp only [b1, b2, b3, b4, c1, c2, d1, d2] <;> first | assumption | skip
  intro h
  exact a5 (h.imp_right h4)

set_option maxHeartbeats 2000000 in
theorem closeInv_step {s s' : State} {a : Action} (he : Early s) (h : CloseInv s) (hs : step s a = some s') : CloseInv s' := by
  obtain ⟨e1, e2, e3, e4⟩ := he
  have hc := h
  obtain ⟨h1, h2, h3, h4, h5, h6, h7, h8, h9, h10, h11, h12, h13, h14, h15⟩ := h
  session_cases hs <;> first
    | (refine closeInv_congr hc ?_ ?_ ?_ ?_ <;> grind [upd_apply])
    | (constructor <;> grind [StartPC.inHandshake, StartPC.beforeDial, CloserPC.rank, upd_apply])

end SessionModel
end Gevulot
