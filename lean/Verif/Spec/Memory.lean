import Verif.Spec.Notes
import Mathlib.Algebra.BigOperators.Intervals

/-!
# The flashlight strain of arbitrary maps

With little in sight, the player has to remember where the notes are: the last ten before note `n`, of which spinners
do not count.
-/

namespace GosuPP.Spec
open Go

section
variable (c r : ℝ) (x : ℕ → Note)

/-- The time over which notes `j` to `n - 1` have to be remembered. -/
noncomputable def rememberedFor (n j : ℕ) : ℝ := ∑ m ∈ Finset.Icc j (n - 1), if (x m).spinner then 0 else gap r x m

/-- What note `j` adds to the difficulty of note `n`: it is less for each note in between, and if note `j` is stacked on
the one before. -/
noncomputable def recall (n j : ℕ) : ℝ :=
  0.8 ^ (n - 1 - j) * min 1 (jump c x j / (52 / c) / 25) * (52 / c) * ‖(x n).head - (x j).tail‖ / rememberedFor r x n j

/-- Notes in sight are easier. -/
noncomputable def inSight (n : ℕ) : ℝ :=
  if 2 ≤ n ∧ (x (n - 1)).spinner = false then min 1 (‖(x n).head - (x (n - 1)).tail‖ / 75) else 1

/-- What note `n` adds to the flashlight strain. -/
noncomputable def flashHit (n : ℕ) : ℝ :=
  if (x n).spinner then 0 else
    (inSight x n * ∑ j ∈ Finset.Icc (max 1 (n - 10)) (n - 1), if (x j).spinner then 0 else recall c r x n j) ^ 2

end
end GosuPP.Spec
