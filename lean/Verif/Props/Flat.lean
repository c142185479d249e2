import Verif.Spec.Path
import Verif.Props.Anchors

/-!
# Three points almost in a line: C72
-/

namespace GosuPP.Props
open Go GosuPP Spec

/-- C72. In exact arithmetic a "perfect" slider is linear as soon as the triangle of its three points has an area below
0.0005 (C65 has the circle for the others). -/
theorem C72_perfect_flat [GoLibm ℝ] {fuel : ℕ} {a b c : Vec ℝ} (h : |area2 a b c| < 0.001) (len : ℝ) :
    MultiCurve.newT fuel ['P'] [a, b, c] len = MultiCurve.newT fuel ['L'] [a, b, c] len := by
  refine C72_perfect_few (Or.inr ⟨a, b, c, rfl, ?_⟩) len
  unfold Vec.isStraightLine
  rw [RealArith.lt, RealArith.lit]
  have e : ((b.y - a.y) * (c.x - a.x) - (b.x - a.x) * (c.y - a.y) : ℝ) = -area2 a b c := by unfold area2; ring
  have : Math32.abs (D := ℝ) ((b.y -. a.y) *. (c.x -. a.x) -. (b.x -. a.x) *. (c.y -. a.y)) = |area2 a b c| := by
    show |((b.y - a.y) * (c.x - a.x) - (b.x - a.x) * (c.y - a.y) : ℝ)| = _
    rw [e, abs_neg]
  rw [this]
  refine lt_of_lt_of_eq h ?_
  norm_num

/-- Three points on a diagonal, the middle one a little off. -/
example : |area2 ⟨0, 0⟩ ⟨10, 10.00001⟩ ⟨20, 20⟩| < 0.001 := by
  unfold area2; norm_num [abs_lt]

end GosuPP.Props
