import Verif.Go.Exact

/-!
# Comparing ratings in exact arithmetic
-/

namespace GosuPP.Spec

/-- Both values are not numbers, or both are non-negative numbers of which the first is not above the second. -/
def NoMore (x y : Option ℝ) : Prop :=
  (x = none ∧ y = none) ∨ ∃ a b : ℝ, x = some a ∧ y = some b ∧ 0 ≤ a ∧ a ≤ b

end GosuPP.Spec
