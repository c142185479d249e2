import Verif.Model.Objects
import Verif.Go.Exact

/-!
# Maps of which one has wider gaps
-/

namespace GosuPP.Spec
open Go

/-- How far apart two points are, squared. -/
def apart2 (p q : ℝ × ℝ) : ℝ := (q.1 - p.1) ^ 2 + (q.2 - p.2) ^ 2

/-- Two maps of circles and spinners with the same times; the objects of the first are shown at `pos`, those of the
second at `pos'`, where each is at least as far from the one before. -/
structure Spread (mods mods' : Modifier) (pos pos' : ℕ → ℝ × ℝ) (objs objs' : List (Obj (Option ℝ) (Option ℝ))) : Prop where
  length : objs'.length = objs.length
  plain : ∀ o ∈ objs ++ objs', o.isSlider = false
  alike : ∀ (i : ℕ) o o', objs[i]? = some o → objs'[i]? = some o' →
    o'.isSpinner = o.isSpinner ∧ ∃ t, o.base.startTime = some t ∧ o'.base.startTime = some t
  place : ∀ (i : ℕ) o, objs[i]? = some o → o.base.getStackedStartPositionMod mods = ⟨some (pos i).1, some (pos i).2⟩
  place' : ∀ (i : ℕ) o, objs'[i]? = some o → o.base.getStackedStartPositionMod mods' = ⟨some (pos' i).1, some (pos' i).2⟩
  wider : ∀ i, i + 1 < objs.length → apart2 (pos i) (pos (i + 1)) ≤ apart2 (pos' i) (pos' (i + 1))

/-- A circle or spinner that is not stacked. -/
structure Unstacked (o : Obj (Option ℝ) (Option ℝ)) : Prop where
  plain : o.isSlider = false
  time : ∃ t, o.base.startTime = some t
  place : ∃ x y, o.base.startPosRaw = ⟨some x, some y⟩
  offset : o.base.stackOffset = ⟨some 0, some 0⟩ ∧ o.base.stackOffsetEZ = ⟨some 0, some 0⟩ ∧
    o.base.stackOffsetHR = ⟨some 0, some 0⟩

end GosuPP.Spec
