import Verif.Spec.Enlarged

/-!
# Maps without undefined times and positions
-/

namespace GosuPP.Spec
open Go

/-- The position is defined. -/
def Somewhere (v : Vec (Option ℝ)) : Prop := ∃ u w : ℝ, v = ⟨some u, some w⟩

/-- A slider that can be followed: there are score points, and at all times the ball is somewhere. -/
structure Followable (mods : Modifier) (o : Obj (Option ℝ) (Option ℝ)) (s : SliderData (Option ℝ) (Option ℝ)) : Prop where
  points : s.scorePoints ≠ []
  times : ∀ p ∈ s.scorePoints, ∃ t : ℝ, p.time = some t
  stop : ∃ t : ℝ, o.base.endTime = some t
  repeats : 0 ≤ s.repeatCount
  ball : ∀ t : ℝ, ∃ v, o.getStackedPositionAtMod (some t) mods = .ok v ∧ Somewhere v

/-- All start times are defined and in order, all positions are defined and all sliders can be followed. -/
structure Visible (mods : Modifier) (objs : List (Obj (Option ℝ) (Option ℝ))) : Prop where
  time : ∀ o ∈ objs, ∃ t : ℝ, o.base.startTime = some t
  sorted : InOrder objs
  head : ∀ o ∈ objs, Somewhere (o.base.getStackedStartPositionMod mods)
  tail : ∀ o ∈ objs, Somewhere (o.base.getStackedEndPositionMod mods)
  slider : ∀ o ∈ objs, ∀ s, o.kind = .slider s → Followable mods o s

end GosuPP.Spec
