import Verif.Model.Objects

/-!
# Specification of the counts that a difficulty calculation reports
-/

namespace GosuPP.Spec
open GosuPP
variable {S D : Type}

/-- The combo an object is worth: one for the object and one per score point of a slider. -/
def comboOf (o : Obj S D) : Nat :=
  match o.kind with
  | .slider s => s.scorePoints.length + 1
  | _ => 1

/-- A slider without score points. -/
def Hollow (o : Obj S D) : Prop := ∃ s, o.kind = .slider s ∧ s.scorePoints = []

end GosuPP.Spec
