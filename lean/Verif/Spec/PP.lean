import Verif.Model.PP
import Verif.Go.Real

/-!
# Specification of performance points, in exact arithmetic
-/

namespace GosuPP.Spec
open Go

/-- A play that can occur: counts are not negative, at least one object was hit or missed, there
are no more spinners than objects judged, ratings are not negative, the slider factor is between 0
and 1 and the effective AR is at most 37 (it is below 13 for all maps and speeds, C11). -/
structure ValidPlay (a : Attributes ℝ) (d : Difficulty ℝ) (n300 n100 n50 nmiss : Int) : Prop where
  n300_nonneg : 0 ≤ n300
  n100_nonneg : 0 ≤ n100
  n50_nonneg : 0 ≤ n50
  nmiss_nonneg : 0 ≤ nmiss
  total : 0 < n300 + n100 + n50 + nmiss
  aim : 0 ≤ a.aim
  speed : 0 ≤ a.speed
  flashlight : 0 ≤ a.flashlight
  sliderFactor : 0 ≤ a.sliderFactor ∧ a.sliderFactor ≤ 1
  circles : 0 ≤ a.circles
  objects : 0 ≤ a.objectCount
  spinners : 0 ≤ a.spinners ∧ a.spinners ≤ n300 + n100 + n50 + nmiss
  ar : d.arReal ≤ 37

/-- Every component of `r` is non-negative and at most that of `s`. -/
structure ResultsLE (r s : PPv2Results ℝ) : Prop where
  aim : 0 ≤ r.aim ∧ r.aim ≤ s.aim
  speed : 0 ≤ r.speed ∧ r.speed ≤ s.speed
  acc : 0 ≤ r.acc ∧ r.acc ≤ s.acc
  flashlight : 0 ≤ r.flashlight ∧ r.flashlight ≤ s.flashlight
  total : 0 ≤ r.total ∧ r.total ≤ s.total

/-- The same map with ratings that are not lower. -/
structure RatedHigher (a b : Attributes ℝ) : Prop where
  aim : a.aim ≤ b.aim
  speed : a.speed ≤ b.speed
  flashlight : a.flashlight ≤ b.flashlight
  sliderFactor : a.sliderFactor = b.sliderFactor
  objects : a.objectCount = b.objectCount
  circles : a.circles = b.circles
  sliders : a.sliders = b.sliders
  spinners : a.spinners = b.spinners
  maxCombo : a.maxCombo = b.maxCombo

/-- Hit counts (the first four) that are not better than others (the last four) of the same play:
as many hits in total, no fewer misses, no fewer imperfect hits and no higher accuracy. With Relax,
which counts 100s and 50s as misses, also no fewer 100s and 50s. -/
structure WorseHits (d : Difficulty ℝ) (n300' n100' n50' nmiss' n300 n100 n50 nmiss : Int) : Prop where
  total : n300' + n100' + n50' + nmiss' = n300 + n100 + n50 + nmiss
  miss : nmiss ≤ nmiss'
  imperfect : n100 + n50 + nmiss ≤ n100' + n50' + nmiss'
  points : 300 * n300' + 100 * n100' + 50 * n50' ≤ 300 * n300 + 100 * n100 + 50 * n50
  relax : d.mods.active Mod.Relax = true → n100 + n50 ≤ n100' + n50'

end GosuPP.Spec
