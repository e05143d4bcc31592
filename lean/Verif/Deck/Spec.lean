import Verif.Report.Model

/-!
# Specification of filters, decks and the climatology library, independent of the model
-/

namespace MarineQC.Spec

/-- A report passes a list of (type, flag, wanted value) when every flag has its wanted value. -/
def Passes (q : List (String × String × Int)) (r : Report) : Prop :=
  ∀ t f v, (t, f, v) ∈ q → r.getQc t f = v

instance (q : List (String × String × Int)) (r : Report) : Decidable (Passes q r) :=
  decidable_of_iff (∀ x ∈ q, r.getQc x.1 x.2.1 = x.2.2)
    ⟨fun h t f v hm => h (t, f, v) hm, fun h x hx => h x.1 x.2.1 x.2.2 hx⟩

/-- The reports of a list with a given ID that pass, in order, each with its position in the list. -/
def voyageOf (reps : List Report) (q : List (String × String × Int)) (i : Option String) :
    List (Report × Nat) :=
  reps.zipIdx.filter fun p => decide (p.1.id = i ∧ Passes q p.1)

/-- A call `add_field(variable, statistic, field)`. -/
structure FieldWrite (φ : Type) where
  var : String
  stat : String
  field : φ

/-- The field of the most recent addition under a variable and statistic. -/
def lastField {φ : Type} (ws : List (FieldWrite φ)) (v s : String) : Option φ :=
  ((ws.filter fun w => decide (w.var = v ∧ w.stat = s)).getLast?).map (·.field)

end MarineQC.Spec
