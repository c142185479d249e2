import Verif.Model.Objects
import Verif.Go.Real

/-!
# Specification of slider score points and of the way along a path, in exact arithmetic
-/

namespace GosuPP.Spec
open Go GosuPP

/-- `n` is the number of ticks of a span: multiples of the tick distance `td` that are more than `m`
away from the end of a path of length `c`. -/
def TickCount (td c m : ℝ) (n : ℕ) : Prop := ∀ j : ℕ, j < n ↔ ((j : ℝ) + 1) * td < c - m

/-- The ticks of span `k`, at the same places of the path in every span. -/
noncomputable def ticks (start sd td c : ℝ) (n k : ℕ) : List (TickPoint ℝ) :=
  (List.range n).map (fun j : ℕ =>
    ⟨start + ((k : ℝ) + if k % 2 = 1 then 1 - ((j : ℝ) + 1) * td / c else ((j : ℝ) + 1) * td / c) * sd, false⟩)

/-- Score points of a slider that starts at `start` and has `R` spans of duration `sd`: in every span
the ticks, then the reverse or, for the last span, the tail, 36 ms early but not before the middle. -/
noncomputable def scorePoints (start sd td c : ℝ) (n R : ℕ) : List (TickPoint ℝ) :=
  (List.range R).flatMap (fun k : ℕ => ticks start sd td c n k ++
    [if k + 1 < R then ⟨start + ((k : ℝ) + 1) * sd, true⟩
     else ⟨max (start + (R : ℝ) * sd / 2) (start + (R : ℝ) * sd - 36), false⟩])

/-- The factor by which an inherited timing point (beat length below 0) changes the beat length. -/
noncomputable def ratio (beatLength : ℝ) : ℝ := if 0 ≤ beatLength then 1 else min 1000 (max 10 (-beatLength)) / 100

/-- Milliseconds per beat under a timing point. -/
noncomputable def beat (tp : ControlPoint ℝ) : ℝ := tp.beatLengthBase * ratio tp.beatLength

/-- Time for the length `c`: 100 px times the slider multiplier per beat. -/
noncomputable def spanTime (t : Timings ℝ) (tp : ControlPoint ℝ) (c : ℝ) : ℝ := c / (100 * t.sliderMult) * beat tp

/-- Distance between ticks: a beat's way at the base speed divided by the tick rate and by the ratio,
but not more than the pixel length. -/
noncomputable def tickDistance (t : Timings ℝ) (tp : ControlPoint ℝ) (px : ℝ) : ℝ :=
  min (100 * t.sliderMult / t.tickRate / ratio tp.beatLength) px

/-- The way of 10 ms. -/
noncomputable def endMargin (t : Timings ℝ) (tp : ControlPoint ℝ) : ℝ := 10 * (100 * t.sliderMult / beat tp)

/-- Multiplier, tick rate and base beat length are positive. -/
structure PosTiming (t : Timings ℝ) (tp : ControlPoint ℝ) : Prop where
  mult : 0 < t.sliderMult
  rate : 0 < t.tickRate
  base : 0 < tp.beatLengthBase

end GosuPP.Spec
