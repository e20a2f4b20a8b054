import Verif.Model.InspectorUse

/-!
# C95: an Inspector leaves nothing open
-/

namespace Gevulot.InspectorModel

/-- What a result is, by the outcome of what was called. -/
def Right : Method → Result → Prop
  | .databaseName (.ok n), .name n' e => n' = n ∧ e = none
  | .databaseName (.error x), .name _ e => e = some x
  | .oidTableMapping q, .mapping m => m = oidTableMapping q
  | _, _ => False

theorem call_open (m : Method) (o : Open) : (call m o).2 = o ∧ Right m (call m o).1 := by
  cases m with
  | databaseName s => cases s <;> exact ⟨rfl, by simp [call, Right]⟩
  | oidTableMapping q => cases q <;> exact ⟨rfl, by simp [call, Right, oidTableMapping]⟩

theorem calls_open (ms : List Method) (rs : List Result) (o : Open) :
    (ms.foldl (fun (rs, o) m => let (r, o') := call m o; (rs ++ [r], o')) (rs, o)).2 = o ∧
    ∃ ts, (ms.foldl (fun (rs, o) m => let (r, o') := call m o; (rs ++ [r], o')) (rs, o)).1 = rs ++ ts ∧ ts.length = ms.length ∧ ∀ x ∈ ms.zip ts, Right x.1 x.2 := by
  induction ms generalizing rs with
  | nil => exact ⟨rfl, [], by simp, rfl, by simp⟩
  | cons m ms ih =>
    obtain ⟨h1, h2⟩ := call_open m o
    simp only [List.foldl_cons]
    rw [h1]
    obtain ⟨g1, ts, g2, g3, g4⟩ := ih (rs ++ [(call m o).1])
    refine ⟨g1, (call m o).1 :: ts, by rw [g2]; simp, by simp [g3], fun x hx => ?_⟩
    rcases List.mem_cons.mp hx with rfl | hx
    · exact h2
    · exact g4 x hx

/-- C95: `Inspect` returns an error exactly if `sql.Open` or `db.Ping()` does, namely that one, and then leaves open what was open
before; otherwise one database more is open. -/
theorem C95 (opened pinged : Option Nat) (o : Open) :
    (inspect opened pinged o).1 = (opened <|> pinged) ∧ (inspect opened pinged o).2.rows = o.rows ∧
    (inspect opened pinged o).2.dbs = o.dbs + if (inspect opened pinged o).1 = none then 1 else 0 := by
  cases opened <;> cases pinged <;> simp [inspect]

/-- The methods return what they should, and leave nothing open, whatever fails; after `Close` everything is as it was before `Inspect`. -/
theorem C95_methods (ms : List Method) (o : Open) :
    ((calls ms o).1.length = ms.length ∧ ∀ x ∈ ms.zip (calls ms o).1, Right x.1 x.2) ∧ (calls ms o).2 = o ∧
    ∀ opened pinged o0, (inspect opened pinged o0) = (none, o) → close (calls ms o).2 = o0 := by
  obtain ⟨h1, ts, h2, h3⟩ := calls_open ms [] o
  have h1' : (calls ms o).2 = o := h1
  refine ⟨by unfold calls; rw [h2]; simpa using h3, h1', fun opened pinged o0 h => ?_⟩
  rw [h1']
  cases opened <;> cases pinged <;> simp [inspect] at h
  subst h
  rfl

/-! ## Examples -/

example : inspect none (some 5) ⟨0, 0⟩ = (some 5, ⟨0, 0⟩) ∧ inspect none none ⟨0, 0⟩ = (none, ⟨1, 0⟩) := by decide

example : ∃ ms : List Method, ms.length = 2 ∧ (calls ms ⟨1, 0⟩).2 = ⟨1, 0⟩ :=
  ⟨[.databaseName (.ok "gevulot_test".toList), .oidTableMapping (.ok ⟨[.bad 3], none⟩)], rfl, rfl⟩

end Gevulot.InspectorModel
