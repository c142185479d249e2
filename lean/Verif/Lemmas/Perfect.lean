import Verif.Lemmas.PPReal
import Verif.Spec.Perfect

/-!
# The parts of the performance points as shares of a perfect play
-/

namespace GosuPP.PPv2
open Go Spec

private theorem clamp_exact (x a b : ℝ) : clampF64 x a b = min b (max a x) := by
  unfold clampF64; rw [RealArith.fmin, RealArith.fmax]

theorem base_eq (x : ℝ) : ppBase x = baseValue x := by
  rw [ppBase_real, baseValue, show (3 : ℝ) = ((3 : ℕ) : ℝ) by norm_num, Real.rpow_natCast]

theorem length_eq (p : PPv2 ℝ) : p.lengthBonus = lengthFactor p.totalHits := by
  unfold lengthBonus lengthFactor
  simp only [RealArith.add, RealArith.mul, RealArith.div, RealArith.fmin, RealArith.lit, RealArith.ofInt]
  by_cases h : p.totalHits > 2000
  · have h' : (2000 : ℝ) < p.totalHits := by exact_mod_cast h
    rw [if_pos h, if_neg (not_le.mpr h')]
    have : min ((1 : ℚ) : ℝ) ((p.totalHits : ℝ) / ((2000 : ℚ) : ℝ)) = 1 := by
      norm_num
      rw [le_div_iff₀ (by norm_num)]
      linarith
    rw [this]
    show _ + Real.logb 10 ((p.totalHits : ℝ) / ((2000 : ℚ) : ℝ)) * _ = _
    norm_num
    ring
  · have h' : (p.totalHits : ℝ) ≤ 2000 := by exact_mod_cast not_lt.mp h
    rw [if_neg h, if_pos h']
    have : min ((1 : ℚ) : ℝ) ((p.totalHits : ℝ) / ((2000 : ℚ) : ℝ)) = (p.totalHits : ℝ) / 2000 := by
      norm_num
      rw [div_le_iff₀ (by norm_num)]
      linarith
    rw [this]
    norm_num
    ring

theorem miss_eq (p : PPv2 ℝ) (e v : ℝ) :
    (if p.effectiveMissCount > 0 then v *. p.missPenalty e else v) = v * missShare p.effectiveMissCount p.totalHits e := by
  unfold missShare missPenalty
  by_cases h : p.effectiveMissCount > 0
  · rw [if_pos h, if_neg (by omega)]
    simp only [RealArith.pow, RealArith.mul, RealArith.sub, RealArith.div, RealArith.lit, RealArith.ofInt]
    norm_num
  · rw [if_neg h, if_pos (by omega), mul_one]

theorem combo_eq {a : Attributes ℝ} (p : PPv2 ℝ) (h : p.attribs = { a with maxCombo := max 1 a.maxCombo })
    (hc : 0 ≤ p.scoreMaxCombo) (v : ℝ) :
    (if p.attribs.maxCombo > 0 then v *. p.comboScaling else v) = v * comboShare a p.scoreMaxCombo := by
  have e : p.attribs.maxCombo = max 1 a.maxCombo := by rw [h]
  rw [e, if_pos (by omega)]
  unfold comboScaling comboShare
  rw [e]
  simp only [RealArith.pow, RealArith.mul, RealArith.div, RealArith.fmin, RealArith.lit, RealArith.ofInt]
  have hc' : (0 : ℝ) ≤ p.scoreMaxCombo := by exact_mod_cast hc
  have em : (((max 1 a.maxCombo : ℤ)) : ℝ) = max 1 (a.maxCombo : ℝ) := by push_cast; rfl
  rw [em]
  have hm : (0 : ℝ) ≤ max 1 (a.maxCombo : ℝ) := le_trans (by norm_num) (le_max_left _ _)
  have e8 : ((0.8 : ℚ) : ℝ) = (0.8 : ℝ) := by norm_num
  rw [e8, ← Real.div_rpow hc' hm, Rat.cast_one, min_comm]
  congr 1
  rcases le_total 1 ((p.scoreMaxCombo : ℝ) / max 1 (a.maxCombo : ℝ)) with h1 | h1
  · rw [min_eq_left h1, Real.one_rpow, min_eq_left]
    exact Real.one_le_rpow h1 (by norm_num)
  · rw [min_eq_right h1, min_eq_right]
    exact Real.rpow_le_one (div_nonneg hc' hm) h1 (by norm_num)

theorem hidden_eq (p : PPv2 ℝ) (v : ℝ) : (if Modifier.active p.diff.mods Mod.Hidden = true then
    v *. (lit 1 +. lit 0.04 *. (lit 12 -. p.diff.arReal)) else v) = v * hiddenFactor p.diff := by
  unfold hiddenFactor
  split
  · simp only [RealArith.mul, RealArith.add, RealArith.sub, RealArith.lit]
    norm_num
    left
    ring
  · rw [mul_one]

theorem high_eq (p : PPv2 ℝ) :
    (if p.diff.arReal >. lit 10.33 then lit 0.3 *. (p.diff.arReal -. lit 10.33) else lit 0 : ℝ) = highAR p.diff := by
  unfold highAR
  simp only [RealArith.lt, RealArith.mul, RealArith.sub, RealArith.lit]
  split
  · rename_i h
    norm_num at h ⊢
    linarith
  · rename_i h
    norm_num at h ⊢
    linarith

theorem ar_eq (p : PPv2 ℝ) :
    (if p.diff.arReal >. lit 10.33 then lit 0.3 *. (p.diff.arReal -. lit 10.33)
      else if p.diff.arReal <. lit 8 then lit 0.1 *. (lit 8 -. p.diff.arReal) else lit 0 : ℝ) =
      highAR p.diff + lowAR p.diff := by
  unfold highAR lowAR
  simp only [RealArith.lt, RealArith.mul, RealArith.sub, RealArith.lit]
  split
  · rename_i h
    norm_num at h ⊢
    rw [max_eq_right (by linarith), max_eq_left (a := 0) (b := 8 - _) (by linarith)]
    ring
  · rename_i h
    split
    · rename_i h'
      norm_num at h h' ⊢
      rw [max_eq_left (a := 0) (b := _ - _) (by linarith), max_eq_right (by linarith)]
      ring
    · rename_i h'
      norm_num at h h' ⊢
      rw [max_eq_left (a := 0) (b := _ - 1033 / 100) (by linarith), max_eq_left (a := 0) (by linarith)]
      ring

theorem slider_eq {a : Attributes ℝ} (p : PPv2 ℝ) (h : p.attribs = { a with maxCombo := max 1 a.maxCombo }) (v : ℝ) :
    (if p.attribs.sliders > 0 then
      v *. ((lit 1 -. p.attribs.sliderFactor) *.
        GoLibm.pow (lit 1 -. clampF64 (ofInt (minI (p.countOk + p.countMeh + p.countMiss)
          (p.attribs.maxCombo - p.scoreMaxCombo))) (lit 0) (ofInt p.attribs.sliders *. lit 0.15) /.
          (ofInt p.attribs.sliders *. lit 0.15)) (lit 3) +. p.attribs.sliderFactor)
    else v) = v * sliderShare a p.scoreMaxCombo p.countOk p.countMeh p.countMiss := by
  unfold sliderShare
  rw [h]
  dsimp only
  split
  · simp only [RealArith.pow, RealArith.mul, RealArith.sub, RealArith.add, RealArith.div, RealArith.lit, RealArith.ofInt,
      clamp_exact, minI_eq]
    have e3 : ((3 : ℚ) : ℝ) = ((3 : ℕ) : ℝ) := by norm_num
    rw [e3, Real.rpow_natCast]
    push_cast
    rw [mul_comm (a.sliders : ℝ)]
    norm_num
    left
    ring
  · rw [mul_one]

private theorem square_lit (x : ℝ) : x ^ ((2 : ℚ) : ℝ) = x ^ 2 := by
  rw [show ((2 : ℚ) : ℝ) = ((2 : ℕ) : ℝ) by norm_num, Real.rpow_natCast]

section
variable {a : Attributes ℝ} {p : PPv2 ℝ} (h : p.attribs = { a with maxCombo := max 1 a.maxCombo })
include h

theorem aim_share (hc : 0 ≤ p.scoreMaxCombo) : p.computeAimValue = perfectAim a p.diff p.totalHits *
    missShare p.effectiveMissCount p.totalHits p.effectiveMissCount * comboShare a p.scoreMaxCombo *
    sliderShare a p.scoreMaxCombo p.countOk p.countMeh p.countMiss * p.accuracy := by
  unfold computeAimValue
  simp only []
  rw [slider_eq p h, hidden_eq, ar_eq, combo_eq p h hc, miss_eq, length_eq, base_eq]
  have e : (if Modifier.active p.diff.mods Mod.TouchDevice = true then GoLibm.pow p.attribs.aim (lit 0.8) else p.attribs.aim) =
      touched p.diff a.aim := by
    unfold touched
    rw [h]
    simp only [RealArith.pow, RealArith.lit]
    norm_num
  rw [e]
  unfold perfectAim
  simp only [RealArith.pow, RealArith.mul, RealArith.add, RealArith.div, RealArith.lit, RealArith.ofInt, square_lit]
  norm_num
  ring

theorem speed_share (hc : 0 ≤ p.scoreMaxCombo) : p.computeSpeedValue = perfectSpeed a p.diff p.totalHits *
    missShare p.effectiveMissCount p.totalHits ((p.effectiveMissCount : ℝ) ^ (0.875 : ℝ)) * comboShare a p.scoreMaxCombo *
    p.accuracy ^ ((14.5 - max p.diff.odReal 8) / 2) * 0.98 ^ max 0 ((p.countMeh : ℝ) - p.totalHits / 500) := by
  unfold computeSpeedValue
  simp only []
  rw [hidden_eq, high_eq, combo_eq p h hc, miss_eq, length_eq, base_eq]
  have e : (if (ofInt p.countMeh : ℝ) >=. ofInt p.totalHits /. lit 500 then ofInt p.countMeh -. ofInt p.totalHits /. lit 500
      else lit 0 : ℝ) = max 0 ((p.countMeh : ℝ) - p.totalHits / 500) := by
    simp only [RealArith.le, RealArith.sub, RealArith.div, RealArith.lit, RealArith.ofInt]
    split
    · rename_i hle
      norm_num at hle ⊢
      linarith
    · rename_i hle
      norm_num at hle ⊢
      linarith
  rw [e]
  unfold perfectSpeed
  rw [h]
  simp only [RealArith.pow, RealArith.mul, RealArith.add, RealArith.sub, RealArith.div, RealArith.lit, RealArith.ofInt,
    RealArith.fmax, square_lit]
  generalize (max 0 ((p.countMeh : ℝ) - p.totalHits / 500)) = u
  norm_num
  left
  ring

theorem accuracy_share (ha : p.amountHitObjectsWithAccuracy = timed a p.diff) (ha0 : 0 ≤ timed a p.diff)
    (ht : p.totalHits = p.countGreat + p.countOk + p.countMeh + p.countMiss) :
    p.computeAccuracyValue = perfectAccuracy a p.diff * timedAccuracy a p.diff p.countGreat p.countOk p.countMeh p.countMiss ^ 24 := by
  unfold computeAccuracyValue perfectAccuracy
  by_cases hr : Modifier.active p.diff.mods Mod.Relax = true
  · rw [if_pos hr, if_pos hr, zero_mul]
    show ((0 : ℚ) : ℝ) = 0
    norm_num
  · rw [if_neg hr, if_neg hr, ha, ht]
    have e24 : ((24 : ℚ) : ℝ) = ((24 : ℕ) : ℝ) := by norm_num
    rcases ha0.eq_or_lt with h0 | h0
    · rw [← h0]
      simp only [gt_iff_lt, lt_irrefl, if_false, RealArith.pow, RealArith.mul, RealArith.div, RealArith.lit, RealArith.ofInt, RealArith.fmin,
        RealArith.lt, Rat.cast_zero, e24, Real.rpow_natCast]
      rw [Int.cast_zero, zero_div, zero_div, Real.zero_rpow (by norm_num), Real.zero_rpow (by norm_num),
        zero_pow (by norm_num)]
      norm_num
    · have h0' : (0 : ℝ) < timed a p.diff := by exact_mod_cast h0
      rw [if_pos h0]
      have e : (if (ofInt ((p.countGreat - (p.countGreat + p.countOk + p.countMeh + p.countMiss - timed a p.diff)) * 6 + p.countOk * 2 +
          p.countMeh) /. (ofInt (timed a p.diff) *. lit 6) : ℝ) <. lit 0 then lit 0 else
          ofInt ((p.countGreat - (p.countGreat + p.countOk + p.countMeh + p.countMiss - timed a p.diff)) * 6 + p.countOk * 2 +
          p.countMeh) /. (ofInt (timed a p.diff) *. lit 6) : ℝ) =
          timedAccuracy a p.diff p.countGreat p.countOk p.countMeh p.countMiss := by
        unfold timedAccuracy
        simp only [RealArith.lt, RealArith.mul, RealArith.div, RealArith.lit, RealArith.ofInt]
        have e : (((p.countGreat - (p.countGreat + p.countOk + p.countMeh + p.countMiss - timed a p.diff)) * 6 + p.countOk * 2 +
            p.countMeh : ℤ) : ℝ) / ((timed a p.diff : ℝ) * ((6 : ℚ) : ℝ)) =
            (p.countGreat - (p.countGreat + p.countOk + p.countMeh + p.countMiss - timed a p.diff) + p.countOk / 3 +
              p.countMeh / 6) / timed a p.diff := by
          push_cast
          field_simp
          ring
        rw [e, Rat.cast_zero]
        split
        · rename_i hlt; rw [max_eq_left hlt.le]
        · rename_i hlt; rw [max_eq_right (not_lt.mp hlt)]
      dsimp only
      rw [e]
      generalize timedAccuracy a p.diff p.countGreat p.countOk p.countMeh p.countMiss = t
      simp only [RealArith.pow, RealArith.mul, RealArith.div, RealArith.lit, RealArith.ofInt, RealArith.fmin, e24, Real.rpow_natCast]
      split <;> split <;> norm_num <;> ring

theorem flashlight_share (hc : 0 ≤ p.scoreMaxCombo) : p.computeFlashlightValue = perfectFlashlight a p.diff p.totalHits *
    missShare p.effectiveMissCount p.totalHits ((p.effectiveMissCount : ℝ) ^ (0.875 : ℝ)) * comboShare a p.scoreMaxCombo *
    ((1 + p.accuracy) / 2) := by
  unfold computeFlashlightValue perfectFlashlight
  have ec : ∀ m, p.diff.checkModActive m = Modifier.active p.diff.mods m := fun _ => rfl
  simp only [ec]
  by_cases hf : Modifier.active p.diff.mods Mod.Flashlight = true
  · rw [hf, if_neg (by simp), if_pos rfl, combo_eq p h hc, miss_eq]
    have e : (if Modifier.active p.diff.mods Mod.TouchDevice = true then GoLibm.pow p.attribs.flashlight (lit 0.8)
        else p.attribs.flashlight) = touched p.diff a.flashlight := by
      unfold touched
      rw [h]
      simp only [RealArith.pow, RealArith.lit]
      norm_num
    rw [e]
    have es : (if p.totalHits > 200 then (lit 0.7 +. lit 0.1 *. fmin (lit 1) (ofInt p.totalHits /. lit 200)) +.
        lit 0.2 *. fmin (lit 1) (ofInt (p.totalHits - 200) /. lit 200) else
        lit 0.7 +. lit 0.1 *. fmin (lit 1) (ofInt p.totalHits /. lit 200) : ℝ) = flashlightLength p.totalHits := by
      unfold flashlightLength
      simp only [RealArith.add, RealArith.mul, RealArith.div, RealArith.lit, RealArith.ofInt, RealArith.fmin]
      by_cases h2 : p.totalHits > 200
      · have h2' : (200 : ℝ) < p.totalHits := by exact_mod_cast h2
        rw [if_pos h2, if_neg (not_le.mpr h2')]
        have e1 : min ((1 : ℚ) : ℝ) ((p.totalHits : ℝ) / ((200 : ℚ) : ℝ)) = 1 := by
          norm_num
          rw [le_div_iff₀ (by norm_num)]
          linarith
        rw [e1]
        push_cast
        rcases le_total (1 : ℝ) (((p.totalHits : ℝ) - 200) / 200) with h4 | h4
        · rw [min_eq_left h4, min_eq_left]
          · norm_num
          · rw [le_div_iff₀ (by norm_num)] at h4
            linarith
        · rw [min_eq_right h4, min_eq_right]
          · norm_num
            ring
          · rw [div_le_iff₀ (by norm_num)] at h4
            linarith
      · have h2' : (p.totalHits : ℝ) ≤ 200 := by exact_mod_cast not_lt.mp h2
        rw [if_neg h2, if_pos h2']
        have e1 : min ((1 : ℚ) : ℝ) ((p.totalHits : ℝ) / ((200 : ℚ) : ℝ)) = p.totalHits / 200 := by
          norm_num
          rw [div_le_iff₀ (by norm_num)]
          linarith
        rw [e1]
        norm_num
        ring
    rw [es]
    simp only [RealArith.pow, RealArith.mul, RealArith.add, RealArith.div, RealArith.lit, RealArith.ofInt, square_lit]
    split <;> norm_num <;> ring
  · rw [if_neg hf, if_pos (by simpa using hf)]
    simp only [zero_mul]
    show ((0 : ℚ) : ℝ) = 0
    norm_num

end

theorem total_eq (a s c f m : ℝ) : PPv2.total a s c f m = combined a s c f * m := by
  unfold PPv2.total combined
  simp only [RealArith.pow, RealArith.mul, RealArith.add, RealArith.lit]
  norm_num

theorem multiplier_eq {a : Attributes ℝ} {p : PPv2 ℝ} (h : p.attribs.spinners = a.spinners) (ht : 0 < p.totalHits) :
    p.finalMultiplier = 1.12 * modFactor a p.diff p.totalHits p.effectiveMissCount := by
  unfold finalMultiplier modFactor
  simp only [RealArith.pow, RealArith.mul, RealArith.sub, RealArith.div, RealArith.lit, RealArith.ofInt, RealArith.fmax, h, gt_iff_lt, ht,
    true_and]
  split <;> split <;> split <;> norm_num <;> ring

end GosuPP.PPv2
