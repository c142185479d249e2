import Verif.Spec.Path

/-!
# Specification: the Bezier curve of a list of control points, by de Casteljau's construction
-/

namespace GosuPP.Spec
open GosuPP

/-- Level `i` of the construction at `t`: every point divides two neighbours of the level before in the ratio `t : 1-t`. -/
noncomputable def casteljau (t : ℝ) (f : ℕ → Vec ℝ) : ℕ → ℕ → Vec ℝ
  | 0, j => f j
  | i + 1, j => along ⟨casteljau t f i j, casteljau t f i (j + 1)⟩ t

/-- The point of the curve at `t`: the single point of the last level. -/
noncomputable def bezierAt (points : List (Vec ℝ)) (t : ℝ) : Vec ℝ :=
  casteljau t (fun j => points.getD j ⟨0, 0⟩) (points.length - 1) 0

/-- Length of the control polygon. -/
noncomputable def polygon : List (Vec ℝ) → ℝ
  | a :: b :: rest => len ⟨a, b⟩ + polygon (b :: rest)
  | _ => 0

end GosuPP.Spec
