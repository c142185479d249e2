import Verif.Spec.Steady
import Mathlib.Algebra.BigOperators.Group.Finset.Basic

/-!
# Straight steady maps: what the flashlight strain should be
-/

namespace GosuPP.Spec
open Go

/-- Places on a straight line at equal distances. -/
def Straight (dist : ℝ) (pos : ℕ → ℝ × ℝ) (n : ℕ) : Prop :=
  ∃ dx dy : ℝ, dx ^ 2 + dy ^ 2 = dist ^ 2 ∧ ∀ i < n, pos i = ((pos 0).1 + i * dx, (pos 0).2 + i * dy)

/-- What a hit adds to the flashlight strain if it follows `m` other hits (at most ten count) on a line, each
`dist` pixels and `T` milliseconds after the one before: objects further back count less, close ones count less. -/
noncomputable def flashValue (radius dist T : ℝ) (m : ℕ) : ℝ :=
  (min 1 (dist / 75) * (min 1 (jumpLength radius dist / (52 / radius) / 25) * (52 / radius) * (dist / T) *
    (5 * (1 - 0.8 ^ min m 10)))) ^ 2

/-- A strain to which `v 0`, `v 1`, … are added, and that is multiplied by `q` in between. -/
noncomputable def decaying (v : ℕ → ℝ) (q : ℝ) (n : ℕ) : ℝ := ∑ i ∈ Finset.range n, v i * q ^ (n - 1 - i)

end GosuPP.Spec
