import Verif.Model.Vector
import Mathlib.Analysis.Calculus.Deriv.Pow
import Mathlib.Analysis.Calculus.Deriv.Add
import Mathlib.Analysis.Calculus.Deriv.Mul

/-! Splines through points that touch prescribed directions, and the directions of a Catmull-Rom spline. -/

namespace GosuPP.Spec

/-- The speed at the `i`-th of `n` points: half the way from the point before to the point after it. At the first point it is half the
way to the second one, at the last point all of the way from the one before. -/
noncomputable def speed (p : ℕ → ℝ) (n i : ℕ) : ℝ :=
  if i = 0 then (p 1 - p 0) / 2
  else if i + 1 = n then p i - p (i - 1)
  else (p (i + 1) - p (i - 1)) / 2

/-- `f` is the part of the spline through `n` points that leads from the `i`-th to the next one. -/
structure SplinePart (p : ℕ → ℝ) (n i : ℕ) (f : ℝ → ℝ) : Prop where
  cubic : ∃ a b c d : ℝ, ∀ t, f t = a + b * t + c * t ^ 2 + d * t ^ 3
  start : f 0 = p i
  stop : f 1 = p (i + 1)
  leaves : HasDerivAt f (speed p n i) 0
  arrives : HasDerivAt f (speed p n (i + 1)) 1

end GosuPP.Spec
