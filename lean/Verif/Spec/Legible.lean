import Verif.Spec.Drawn
import Verif.Spec.Parser
import Verif.Spec.Written
import Verif.Model.Parser
import Verif.Model.DifficultyCalc

/-!
# Map files without undefined numbers
-/

namespace GosuPP.Spec
open Go

/-- The text is none of the names of NaN and the infinities, all of which contain this letter. -/
def WithoutN (s : Str) : Prop := 'n' ∉ s ∧ 'N' ∉ s

/-- Position and time of the object, and path and length of a slider, are not given as NaN or infinities. -/
structure CleanRecord (arr : List Str) : Prop where
  common : ∀ i f, i < 3 → arr[i]? = some f → WithoutN f
  slider : ∀ t f, arr[3]? = some t → (parseInt t / 2) % 2 = 1 → (arr[5]? = some f ∨ arr[7]? = some f) → WithoutN f

/-- The sliders of the map have a span, and move. -/
structure Moving (tim : Timings (Option ℝ)) (o : Obj (Option ℝ) (Option ℝ)) : Prop where
  spans : ∀ s, o.kind = .slider s → 1 ≤ s.repeatCount
  moves : ∀ s, o.kind = .slider s → ∀ p, tim.getPointAt o.base.startTime = .ok p →
    (∃ v : ℝ, 0 < v ∧ tim.getVelocity (Option ℝ) p = some v) ∧ ∃ t : ℝ, 0 ≤ t ∧ tim.getTickDistance (Option ℝ) p = some t

/-- All ratings are numbers. -/
structure Rated (a : Attributes (Option ℝ)) : Prop where
  aim : IsNumber a.aim
  sliderFactor : IsNumber a.sliderFactor
  speed : IsNumber a.speed
  flashlight : IsNumber a.flashlight
  total : IsNumber a.total

/-- The number that is written. -/
def Dec.amount (d : Dec) : ℚ := if d.neg then -(d.whole + fracValue d.frac) else d.whole + fracValue d.frac

/-- A map that a player can play, as it is written: slider multiplier and tick rate are positive, no beat length is 0, sliders have
a span. -/
structure FairFile (f : File) : Prop where
  good : f.Good
  multiplier : 0 < f.sliderMultiplier.amount
  tickRate : 0 < f.tickRate.amount
  beats : ∀ p ∈ f.points, p.beatLength.amount ≠ 0
  spans : ∀ h c ps r len, ObjectLine.slider h c ps r len ∈ f.objects → 1 ≤ r

end GosuPP.Spec
