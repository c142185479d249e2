import Verif.Spec.Slider
import Verif.Lemmas.SliderReal

/-!
# Velocities at timing points: C113
-/

namespace GosuPP.Props
open Go GosuPP Spec

/-- C113. In exact arithmetic: a slider moves by 100 times the slider multiplier in one beat of its timing point, which
is the beat of the last red line times the ratio; `GetVelocity` is that per second, `GetSliderTimeP` is the time that a
length takes at this velocity, and ticks are as far apart as the slider moves in one beat of the red line divided by
the tick rate. -/
theorem C113_velocity (t : Timings ℝ) (p : ControlPoint ℝ) (hm : 0 < t.sliderMult) (hr : 0 < t.tickRate)
    (hb : 0 < p.beatLengthBase) :
    p.getBeatLength ℝ = p.beatLengthBase * p.getRatio ℝ ∧
    t.getVelocity ℝ p * (p.getBeatLength ℝ / 1000) = 100 * t.sliderMult ∧
    (∀ px, t.getVelocity ℝ p * (t.getSliderTimeP ℝ p px / 1000) = px) ∧
    t.getTickDistance ℝ p = t.getVelocity ℝ p * (p.beatLengthBase / t.tickRate / 1000) := by
  have h0 := Slider.ratio_pos p.beatLength
  have hbl : p.getBeatLength ℝ = p.beatLengthBase * ratio p.beatLength := by
    unfold ControlPoint.getBeatLength
    rw [Slider.ratio_real]; rfl
  have hbp : 0 < p.getBeatLength ℝ := hbl ▸ mul_pos hb h0
  have hv : t.getVelocity ℝ p = 100 * t.sliderMult / t.tickRate * t.tickRate * (1000 / p.getBeatLength ℝ) := by
    unfold Timings.getVelocity Timings.getScoringDistance
    simp only
    rw [if_pos ((RealArith.le _ _).mpr (by rw [RealArith.lit]; push_cast; exact hbp.le))]
    simp only [RealArith.mul, RealArith.div, RealArith.lit]
    norm_num
  have hp : ∀ px, t.getSliderTimeP ℝ p px = 1000 * px / (100 * t.sliderMult * (1000 / p.getBeatLength ℝ)) := by
    intro px
    unfold Timings.getSliderTimeP
    simp only [RealArith.mul, RealArith.div, RealArith.lit, RealArith.up, RealArith.down]
    norm_num
  have ht : t.getTickDistance ℝ p = 100 * t.sliderMult / t.tickRate / ratio p.beatLength := by
    unfold Timings.getTickDistance Timings.getScoringDistance
    rw [Slider.ratio_real]
    simp only [RealArith.mul, RealArith.div, RealArith.lit]
    norm_num
  refine ⟨by rw [hbl, Slider.ratio_real], ?_, fun px => ?_, ?_⟩
  · rw [hv]; field_simp
  · rw [hv, hp]; field_simp
  · rw [ht, hv, hbl]; field_simp

/-- C113. The timing point of a map without any: beats of one second, no change of velocity. -/
theorem C113_default : (Timings.getDefault : ControlPoint ℝ).getBeatLength ℝ = 1000 ∧
    (Timings.getDefault : ControlPoint ℝ).getRatio ℝ = 1 := by
  have hb : (Timings.getDefault : ControlPoint ℝ).beatLength = 1000 := by
    show ((1000 : ℚ) : ℝ) = _; norm_num
  have hr : (Timings.getDefault : ControlPoint ℝ).getRatio ℝ = 1 := by
    rw [Slider.ratio_real, hb]; unfold ratio; rw [if_pos (by norm_num)]
  refine ⟨?_, hr⟩
  unfold ControlPoint.getBeatLength
  rw [hr]
  show ((1000 : ℚ) : ℝ) * 1 = _
  norm_num

/-- Multiplier 1.4, 120 beats per minute and a green line of half velocity: 140 osu! pixels in 1000 ms. -/
example : let t : Timings ℝ := ⟨1.4, 1, [], []⟩
    let p : ControlPoint ℝ := { (Timings.getDefault : ControlPoint ℝ) with beatLengthBase := 500, beatLength := -200 }
    t.getVelocity ℝ p = 140 := by
  intro t p
  have h := (C113_velocity t p (by norm_num [t]) (by norm_num [t]) (by norm_num [p]))
  have hr : p.getRatio ℝ = 2 := by
    rw [Slider.ratio_real]
    show ratio (-200) = 2
    unfold ratio
    rw [if_neg (by norm_num), max_eq_right (by norm_num), min_eq_right (by norm_num)]
    norm_num
  rw [h.1, hr] at h
  have := h.2.1
  norm_num [t, p] at this
  linarith

end GosuPP.Props
