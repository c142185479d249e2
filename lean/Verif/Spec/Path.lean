import Verif.Model.Curves
import Verif.Go.Real

/-!
# Specification of polylines in exact arithmetic
-/

namespace GosuPP.Spec
open Go GosuPP

/-- Euclidean length of a line. -/
noncomputable def len (l : Linear ℝ) : ℝ := Real.sqrt ((l.p2.x - l.p1.x) ^ 2 + (l.p2.y - l.p1.y) ^ 2)

/-- Length of a polyline. -/
noncomputable def pathLength (ls : List (Linear ℝ)) : ℝ := (ls.map len).sum

/-- The point that divides the line in the ratio `u : 1 - u`. -/
noncomputable def along (l : Linear ℝ) (u : ℝ) : Vec ℝ :=
  ⟨l.p1.x + u * (l.p2.x - l.p1.x), l.p1.y + u * (l.p2.y - l.p1.y)⟩

/-- The point reached after walking the distance `w` along the polyline that starts at `start`. -/
noncomputable def walk (start : Vec ℝ) : List (Linear ℝ) → ℝ → Vec ℝ
  | [], _ => start
  | l :: ls, w => if w ≤ len l then along l (w / len l) else walk l.p2 ls (w - len l)

/-- Every line starts where the one before ends, the first one at `start`. -/
def Connected (start : Vec ℝ) : List (Linear ℝ) → Prop
  | [] => True
  | l :: ls => l.p1 = start ∧ Connected l.p2 ls

/-- Where a polyline that starts at `start` ends. -/
def pathEnd (start : Vec ℝ) : List (Linear ℝ) → Vec ℝ
  | [] => start
  | l :: ls => pathEnd l.p2 ls

/-- Twice the signed area of the triangle. -/
def area2 (a b c : Vec ℝ) : ℝ := (b.x - a.x) * (c.y - a.y) - (b.y - a.y) * (c.x - a.x)

/-- The point of the circle around `m` with radius `r` at the angle `θ`. -/
noncomputable def circle (m : Vec ℝ) (r θ : ℝ) : Vec ℝ := ⟨m.x + r * Real.cos θ, m.y + r * Real.sin θ⟩

/-- The circular arc around `m` with radius `r` that starts at the angle `α` and turns by `β` leads
from `a` over `b`, after the angle `γ`, to `c`. -/
structure Arc (m : Vec ℝ) (r α γ β : ℝ) (a b c : Vec ℝ) : Prop where
  radius : 0 < r
  start : a = circle m r α
  middle : b = circle m r (α + γ)
  stop : c = circle m r (α + β)
  turn : (0 < γ ∧ γ < β ∧ β < 2 * Real.pi) ∨ (-(2 * Real.pi) < β ∧ β < γ ∧ γ < 0)

/-- The two points are at most `e` apart in both coordinates. -/
def Near (e : ℝ) (p q : Vec ℝ) : Prop := |p.x - q.x| ≤ e ∧ |p.y - q.y| ≤ e

end GosuPP.Spec
