import Verif.Spec.Memory
import Verif.Spec.Order
import Verif.Model.DifficultyCalc

/-!
# Maps of which one is larger
-/

namespace GosuPP.Spec

/-- Two maps of circles and spinners at the same times, the second of which is `k` times as large as the first: all
distances are. It may be moved, turned and reflected as well. -/
structure Enlarged (k : ℝ) (x x' : ℕ → Note) : Prop where
  time : ∀ i, (x' i).time = (x i).time
  spinner : ∀ i, (x' i).spinner = (x i).spinner
  plain : ∀ i, (x i).slide = none
  plain' : ∀ i, (x' i).slide = none
  heads : ∀ i j, ‖(x' i).head - (x' j).head‖ = k * ‖(x i).head - (x j).head‖
  tails : ∀ i j, ‖(x' i).head - (x' j).tail‖ = k * ‖(x i).head - (x j).tail‖

/-- No rating in the second attributes is lower. -/
structure NoEasier (a b : Attributes (Option ℝ)) : Prop where
  aim : NoMore a.aim b.aim
  speed : NoMore a.speed b.speed
  flashlight : NoMore a.flashlight b.flashlight
  total : NoMore a.total b.total

/-- No strain peak in the second list is lower. -/
structure NoLower (p q : StrainPeaks (Option ℝ)) : Prop where
  aim : List.Forall₂ NoMore p.aim q.aim
  speed : List.Forall₂ NoMore p.speed q.speed
  flashlight : List.Forall₂ NoMore p.flashlight q.flashlight

/-- The objects are in the order of their start times. -/
def InOrder (objs : List (Obj (Option ℝ) (Option ℝ))) : Prop :=
  ∀ (i j : ℕ) o o' (s t : ℝ), i ≤ j → objs[i]? = some o → objs[j]? = some o' → o.base.startTime = some s →
    o'.base.startTime = some t → s ≤ t

end GosuPP.Spec
