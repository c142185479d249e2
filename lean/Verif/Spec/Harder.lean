import Verif.Spec.Order
import Verif.Model.DifficultyCalc

/-!
# Ratings of maps of which one is harder to tap
-/

namespace GosuPP.Spec

/-- Ratings that differ only in that the second are higher in speed and stars. -/
structure HarderToTap (a b : Attributes (Option ℝ)) : Prop where
  aim : b.aim = a.aim
  sliderFactor : b.sliderFactor = a.sliderFactor
  flashlight : b.flashlight = a.flashlight
  counts : (b.objectCount, b.circles, b.sliders, b.spinners, b.maxCombo) =
    (a.objectCount, a.circles, a.sliders, a.spinners, a.maxCombo)
  speed : NoMore a.speed b.speed
  total : NoMore a.total b.total

/-- The times of all objects are numbers. -/
def Timed (objs : List (Obj (Option ℝ) (Option ℝ))) : Prop := ∀ o ∈ objs, ∃ t, o.base.startTime = some t

end GosuPP.Spec
