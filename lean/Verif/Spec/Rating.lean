import Verif.Spec.Perfect
import Mathlib.Data.List.Sort

/-!
# Ratings from strain peaks

The hardest sections count most: each counts nine tenths (for flashlight, all) of what the next harder one does. Before
that the hardest ones of all are eased.
-/

namespace GosuPP.Spec

/-- In descending order. -/
noncomputable def hardestFirst (l : List ℝ) : List ℝ := l.insertionSort (· ≥ ·)

/-- The share of the `i`-th hardest section that counts, if `count` sections are eased: three quarters of the hardest, and
more and more of the others. -/
noncomputable def share (count i : ℕ) : ℝ :=
  if i < count then 0.75 + 0.25 * Real.logb 10 (1 + 9 * ((i : ℝ) / count)) else 1

/-- Ease the hardest sections, which come first, from number `i` on. -/
noncomputable def easedFrom (count : ℕ) : ℕ → List ℝ → List ℝ
  | _, [] => []
  | i, x :: l => x * share count i :: easedFrom count (i + 1) l

/-- The sum of the list, each element with weight `w` relative to the one before. -/
noncomputable def weighted (w : ℝ) : List ℝ → ℝ
  | [] => 0
  | x :: l => x + w * weighted w l

/-- The difficulty of a map with these peaks. -/
noncomputable def peakValue (count : ℕ) (w m : ℝ) (l : List ℝ) : ℝ :=
  m * weighted w (hardestFirst (easedFrom count 0 (hardestFirst l)))

/-- The rating for a difficulty. -/
noncomputable def ratingOf (v : ℝ) : ℝ := 0.0675 * Real.sqrt v

/-- The stars for ratings. -/
noncomputable def starsOf (aim speed flashlight : ℝ) : ℝ :=
  (1.12 : ℝ) ^ (1 / 3 : ℝ) * 0.027 *
    ((100000 / (2 : ℝ) ^ (1 / 1.1 : ℝ) *
      (baseValue aim ^ (1.1 : ℝ) + baseValue speed ^ (1.1 : ℝ) + (25 * flashlight ^ 2) ^ (1.1 : ℝ)) ^ (1 / 1.1 : ℝ)) ^ (1 / 3 : ℝ) + 4)

end GosuPP.Spec
