import Verif.Spec.Notes

/-!
# Notes to which the cursor does not move
-/

namespace GosuPP.Spec

/-- The cursor need not move to get to note `n`: it is left where note `n` is, without following a slider. -/
def Rests (x : ℕ → Note) (n : ℕ) : Prop :=
  Moves x n → (x n).head = (x (n - 1)).leave ∧ ∀ s, (x (n - 1)).slide = some s → s.length = 0

end GosuPP.Spec
