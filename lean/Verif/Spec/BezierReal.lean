import Verif.Spec.Bezier
import Verif.Go.Real
import Mathlib.Algebra.BigOperators.Group.Finset.Basic
import Mathlib.Data.Nat.Choose.Basic

/-!
# Specification of Bezier curves in exact arithmetic: Bernstein's formula
-/

namespace GosuPP.Spec
open Go GosuPP

/-- One coordinate of the Bezier curve with the control values `p 0, …, p n`. -/
noncomputable def bernstein (n : ℕ) (p : ℕ → ℝ) (t : ℝ) : ℝ :=
  ∑ k ∈ Finset.range (n + 1), (n.choose k : ℝ) * (1 - t) ^ (n - k) * t ^ k * p k

/-- The point at `t` of the Bezier curve with the given control points. -/
noncomputable def bezier (cps : List (Vec ℝ)) (t : ℝ) : Vec ℝ :=
  ⟨bernstein (cps.length - 1) (fun k => (cps.getD k Vec.zero).x) t,
   bernstein (cps.length - 1) (fun k => (cps.getD k Vec.zero).y) t⟩

/-- The intervals follow each other from `a` to `b`. -/
def Tiles : ℝ → ℝ → List (ℝ × ℝ) → Prop
  | a, b, [] => a = b
  | a, b, (u, v) :: rest => u = a ∧ u < v ∧ Tiles v b rest

end GosuPP.Spec
