import Verif.Spec.Visible

/-!
# Curves without undefined points
-/

namespace GosuPP.Spec
open Go

/-- A number, not NaN. -/
def IsNumber (x : Option ℝ) : Prop := ∃ r : ℝ, x = some r

/-- The curve is drawn with lines between defined points, and the distances along it are defined. -/
structure Drawn (mc : MultiCurve (Option ℝ)) : Prop where
  first : Somewhere mc.firstPoint
  lines : ∀ l ∈ mc.lines, Somewhere l.p1 ∧ Somewhere l.p2
  marks : mc.sections.length = mc.lines.length + 1
  sections : ∀ s ∈ mc.sections, IsNumber s
  length : ∃ r : ℝ, 0 ≤ r ∧ mc.length = some r

end GosuPP.Spec
