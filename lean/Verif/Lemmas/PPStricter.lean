import Verif.Props.Perfect
import Verif.Props.PPExact

/-!
# Performance points under a higher effective OD

In exact arithmetic.
-/

namespace GosuPP.PPv2
open Go Spec Props

section
variable {a : Attributes ℝ} {d d' : Difficulty ℝ} {combo n300 n100 n50 nmiss : ℤ}

private theorem touched_od (hm : d'.mods = d.mods) (x : ℝ) : touched d' x = touched d x := by unfold touched; rw [hm]

theorem lengthFactor_nonneg {n : ℝ} (h : 0 ≤ n) : 0 ≤ lengthFactor n := by
  unfold lengthFactor
  split
  · positivity
  · rename_i h2
    have : 0 ≤ Real.logb 10 (n / 2000) := Real.logb_nonneg (by norm_num) (by rw [le_div_iff₀ (by norm_num)]; linarith)
    positivity

theorem baseValue_nonneg (x : ℝ) : 0 ≤ baseValue x := by
  unfold baseValue
  have := le_max_left 1 (x / 0.0675)
  have h : 0 ≤ 5 * max 1 (x / 0.0675) - 4 := by linarith
  positivity

theorem hidden_nonneg (h : d.arReal ≤ 37) : 0 ≤ hiddenFactor d := by
  unfold hiddenFactor
  split
  · norm_num; linarith
  · norm_num

theorem missShare_nonneg {m : ℤ} {n e : ℝ} (hn : 0 < n) (hm : (m : ℝ) ≤ n) : 0 ≤ missShare m n e := by
  unfold missShare
  split
  · norm_num
  · rename_i h
    have h0 : (0 : ℝ) < m := by exact_mod_cast (not_le.mp h)
    refine mul_nonneg (by norm_num) (Real.rpow_nonneg ?_ _)
    exact sub_nonneg.mpr (Real.rpow_le_one (by positivity) ((div_le_one hn).mpr hm) (by norm_num))

theorem comboShare_nonneg (hc : 0 ≤ combo) : 0 ≤ comboShare a combo := by
  unfold comboShare
  have : (0 : ℝ) ≤ combo := by exact_mod_cast hc
  exact Real.rpow_nonneg (le_min (by norm_num) (by positivity)) _

theorem guessed_le {n : ℤ} (h : 0 ≤ n) : guessedMisses a combo n ≤ n := by
  unfold guessedMisses
  simp only
  split
  · exact Int.floor_le_iff.mpr (lt_of_le_of_lt (min_le_right _ _) (by linarith))
  · exact h

theorem counted_le (h3 : 0 ≤ n300) (h1 : 0 ≤ n100) (h5 : 0 ≤ n50) (hm : 0 ≤ nmiss) :
    countedMisses a d combo n300 n100 n50 nmiss ≤ n300 + n100 + n50 + nmiss := by
  unfold countedMisses
  have := guessed_le (a := a) (combo := combo) (show 0 ≤ n300 + n100 + n50 + nmiss by omega)
  simp only
  split
  · exact min_le_right _ _
  · exact max_le (by omega) this

theorem sliderShare_nonneg (hf : 0 ≤ a.sliderFactor ∧ a.sliderFactor ≤ 1) : 0 ≤ sliderShare a combo n100 n50 nmiss := by
  unfold sliderShare
  split
  · rename_i hs
    have hs' : (0 : ℝ) < 0.15 * a.sliders := mul_pos (by norm_num) (by exact_mod_cast hs)
    have : min (0.15 * (a.sliders : ℝ)) (max 0 (min ((n100 + n50 + nmiss : ℤ) : ℝ) (max 1 (a.maxCombo : ℝ) - combo))) / (0.15 * a.sliders) ≤ 1 :=
      (div_le_one hs').mpr (min_le_left _ _)
    have h1 := hf.2
    exact add_nonneg hf.1 (mul_nonneg (by linarith) (pow_nonneg (by linarith) 3))
  · norm_num

theorem accuracy_unit (h3 : 0 ≤ n300) (h1 : 0 ≤ n100) (h5 : 0 ≤ n50) (hm : 0 ≤ nmiss) (ht : 0 < n300 + n100 + n50 + nmiss) :
    0 ≤ accuracyShare n300 n100 n50 nmiss ∧ accuracyShare n300 n100 n50 nmiss ≤ 1 := by
  unfold accuracyShare
  have h3' : (0 : ℝ) ≤ n300 := by exact_mod_cast h3
  have h1' : (0 : ℝ) ≤ n100 := by exact_mod_cast h1
  have h5' : (0 : ℝ) ≤ n50 := by exact_mod_cast h5
  have hm' : (0 : ℝ) ≤ nmiss := by exact_mod_cast hm
  have ht' : (0 : ℝ) < n300 + n100 + n50 + nmiss := by exact_mod_cast ht
  exact ⟨by positivity, (div_le_one ht').mpr (by linarith)⟩

/-- Powers of an accuracy with a lower exponent. -/
theorem unit_pow {x u v : ℝ} (h0 : 0 ≤ x) (h1 : x ≤ 1) (hv : 0 ≤ v) (huv : v ≤ u) : x ^ u ≤ x ^ v := by
  rcases h0.eq_or_lt with rfl | h
  · rcases hv.eq_or_lt with rfl | hv
    · rw [Real.rpow_zero]
      exact Real.rpow_le_one le_rfl (by norm_num) huv
    · rw [Real.zero_rpow hv.ne', Real.zero_rpow (by linarith)]
  · exact Real.rpow_le_rpow_of_exponent_ge h h1 huv

theorem combined_mono {x y z w x' y' z' w' : ℝ} (hx : 0 ≤ x) (hy : 0 ≤ y) (hz : 0 ≤ z) (hw : 0 ≤ w) (hx' : x ≤ x') (hy' : y ≤ y')
    (hz' : z ≤ z') (hw' : w ≤ w') : 0 ≤ combined x y z w ∧ combined x y z w ≤ combined x' y' z' w' := by
  unfold combined
  have p := fun {u : ℝ} (h : 0 ≤ u) => Real.rpow_nonneg h (1.1 : ℝ)
  have q := fun {u v : ℝ} (h : 0 ≤ u) (h' : u ≤ v) => Real.rpow_le_rpow h h' (show (0 : ℝ) ≤ 1.1 by norm_num)
  have h0 := add_nonneg (add_nonneg (add_nonneg (p hx) (p hy)) (p hz)) (p hw)
  exact ⟨Real.rpow_nonneg h0 _, Real.rpow_le_rpow h0 (add_le_add (add_le_add (add_le_add (q hx hx') (q hy hy')) (q hz hz')) (q hw hw')) (by norm_num)⟩

/-- The same play of the same ratings with the same mods and AR, and a higher effective OD that is not negative. -/
theorem stricter_od (pp : PPv2 ℝ) (hc : 0 ≤ combo) (h : ValidPlay a d n300 n100 n50 nmiss) (hm : d'.mods = d.mods)
    (har : d'.arReal = d.arReal) (hod : 0 ≤ d.odReal) (hodd : d.odReal ≤ d'.odReal) (hod' : d'.odReal ≤ 14.5) :
    ResultsLE (pp.ppv2x a combo n300 n100 n50 nmiss d).results (pp.ppv2x a combo n300 n100 n50 nmiss d').results := by
  obtain ⟨h3, h1, h5, hmi, ht, ha, hs, hf, hsf, hci, hob, hsp, hap⟩ := h
  have htm : 0 ≤ timed a d := by unfold timed; split <;> omega
  have htm' : 0 ≤ timed a d' := by unfold timed; split <;> omega
  have hn : (0 : ℝ) < (n300 + n100 + n50 + nmiss : ℤ) := by exact_mod_cast ht
  have hcm := counted_le (a := a) (d := d) (combo := combo) h3 h1 h5 hmi
  have hcm' : ((countedMisses a d combo n300 n100 n50 nmiss : ℤ) : ℝ) ≤ (n300 + n100 + n50 + nmiss : ℤ) := by exact_mod_cast hcm
  obtain ⟨u0, u1⟩ := accuracy_unit h3 h1 h5 hmi ht
  have e1 : countedMisses a d' combo n300 n100 n50 nmiss = countedMisses a d combo n300 n100 n50 nmiss := by
    unfold countedMisses; rw [hm]
  have e2 : timed a d' = timed a d := by unfold timed; rw [hm]
  have e3 : timedAccuracy a d' n300 n100 n50 nmiss = timedAccuracy a d n300 n100 n50 nmiss := by unfold timedAccuracy; rw [e2]
  have e4 : hiddenFactor d' = hiddenFactor d := by unfold hiddenFactor; rw [hm, har]
  have e5 : highAR d' = highAR d := by unfold highAR; rw [har]
  have e6 : lowAR d' = lowAR d := by unfold lowAR; rw [har]
  have s2 : d.odReal ^ 2 ≤ d'.odReal ^ 2 := pow_le_pow_left₀ hod hodd 2
  have l0 := lengthFactor_nonneg hn.le
  have hh := hidden_nonneg hap
  have hl : 0 ≤ highAR d := mul_nonneg (by norm_num) (le_max_left _ _)
  have hl' : 0 ≤ lowAR d := mul_nonneg (by norm_num) (le_max_left _ _)
  have pa : 0 ≤ perfectAim a d (n300 + n100 + n50 + nmiss : ℤ) ∧
      perfectAim a d (n300 + n100 + n50 + nmiss : ℤ) ≤ perfectAim a d' (n300 + n100 + n50 + nmiss : ℤ) := by
    unfold perfectAim
    rw [touched_od hm, e4, e5, e6]
    have := baseValue_nonneg (touched d a.aim)
    have k := mul_nonneg (mul_nonneg (mul_nonneg this l0)
      (show 0 ≤ 1 + (highAR d + lowAR d) * lengthFactor ((n300 + n100 + n50 + nmiss : ℤ) : ℝ) by positivity)) hh
    exact ⟨mul_nonneg k (by positivity), mul_le_mul_of_nonneg_left (by linarith) k⟩
  have ps : 0 ≤ perfectSpeed a d (n300 + n100 + n50 + nmiss : ℤ) ∧
      perfectSpeed a d (n300 + n100 + n50 + nmiss : ℤ) ≤ perfectSpeed a d' (n300 + n100 + n50 + nmiss : ℤ) := by
    unfold perfectSpeed
    rw [e4, e5]
    have := baseValue_nonneg a.speed
    have k := mul_nonneg (mul_nonneg (mul_nonneg this l0)
      (show 0 ≤ 1 + highAR d * lengthFactor ((n300 + n100 + n50 + nmiss : ℤ) : ℝ) by positivity)) hh
    exact ⟨mul_nonneg k (by positivity), mul_le_mul_of_nonneg_left (by linarith) k⟩
  have pc : 0 ≤ perfectAccuracy a d ∧ perfectAccuracy a d ≤ perfectAccuracy a d' := by
    unfold perfectAccuracy
    rw [hm, e2]
    split
    · exact ⟨le_rfl, le_rfl⟩
    · have t0 : (0 : ℝ) ≤ timed a d := by exact_mod_cast htm
      have k1 : (0 : ℝ) ≤ min 1.15 (((timed a d : ℝ) / 1000) ^ (0.3 : ℝ)) := le_min (by norm_num) (Real.rpow_nonneg (by positivity) _)
      have k2 : (0 : ℝ) ≤ if d.mods.active Mod.Hidden = true then 1.08 else 1 := by split <;> norm_num
      have k3 : (0 : ℝ) ≤ if d.mods.active Mod.Flashlight = true then 1.02 else 1 := by split <;> norm_num
      have k4 : (0 : ℝ) ≤ (1.52163 : ℝ) ^ d.odReal := Real.rpow_nonneg (by norm_num) _
      have k5 : (1.52163 : ℝ) ^ d.odReal ≤ (1.52163 : ℝ) ^ d'.odReal := Real.rpow_le_rpow_of_exponent_le (by norm_num) hodd
      exact ⟨by positivity, mul_le_mul_of_nonneg_right (mul_le_mul_of_nonneg_right (mul_le_mul_of_nonneg_right
        (mul_le_mul_of_nonneg_left k5 (by norm_num)) k1) k2) k3⟩
  have pf : 0 ≤ perfectFlashlight a d (n300 + n100 + n50 + nmiss : ℤ) ∧
      perfectFlashlight a d (n300 + n100 + n50 + nmiss : ℤ) ≤ perfectFlashlight a d' (n300 + n100 + n50 + nmiss : ℤ) := by
    unfold perfectFlashlight
    rw [hm, touched_od hm]
    split
    · have k1 : 0 ≤ flashlightLength ((n300 + n100 + n50 + nmiss : ℤ) : ℝ) := by
        unfold flashlightLength
        split
        · positivity
        · rename_i h2
          exact le_min (by norm_num) (add_nonneg (by norm_num) (div_nonneg (by linarith) (by norm_num)))
      have k2 : (0 : ℝ) ≤ if d.mods.active Mod.Hidden = true then 1.3 else 1 := by split <;> norm_num
      have k : 0 ≤ 25 * touched d a.flashlight ^ 2 * (if d.mods.active Mod.Hidden = true then 1.3 else 1) *
          flashlightLength ((n300 + n100 + n50 + nmiss : ℤ) : ℝ) := by positivity
      exact ⟨mul_nonneg k (by positivity), mul_le_mul_of_nonneg_left (by linarith) k⟩
    · exact ⟨le_rfl, le_rfl⟩
  have c0 := comboShare_nonneg (a := a) hc
  have sl0 := sliderShare_nonneg (combo := combo) (n100 := n100) (n50 := n50) (nmiss := nmiss) hsf
  have mi := fun e => missShare_nonneg (e := e) hn hcm'
  obtain ⟨r1, r2, r3, r4, r5⟩ := C95_shares pp a d hc h3 h1 h5 hmi rfl ht htm rfl rfl
  obtain ⟨q1, q2, q3, q4, q5⟩ := C95_shares pp a d' hc h3 h1 h5 hmi rfl ht htm' rfl rfl
  rw [e1] at q1 q2 q4
  rw [e3] at q3
  have g1 : 0 ≤ (pp.ppv2x a combo n300 n100 n50 nmiss d).results.aim ∧
      (pp.ppv2x a combo n300 n100 n50 nmiss d).results.aim ≤ (pp.ppv2x a combo n300 n100 n50 nmiss d').results.aim := by
    rw [r1, q1]
    have := mi (countedMisses a d combo n300 n100 n50 nmiss)
    exact ⟨mul_nonneg (mul_nonneg (mul_nonneg (mul_nonneg pa.1 this) c0) sl0) u0, mul_le_mul_of_nonneg_right (mul_le_mul_of_nonneg_right
      (mul_le_mul_of_nonneg_right (mul_le_mul_of_nonneg_right pa.2 this) c0) sl0) u0⟩
  have g2 : 0 ≤ (pp.ppv2x a combo n300 n100 n50 nmiss d).results.speed ∧
      (pp.ppv2x a combo n300 n100 n50 nmiss d).results.speed ≤ (pp.ppv2x a combo n300 n100 n50 nmiss d').results.speed := by
    rw [r2, q2]
    have k := mi ((countedMisses a d combo n300 n100 n50 nmiss : ℝ) ^ (0.875 : ℝ))
    have j0 := Real.rpow_nonneg u0 ((14.5 - max d.odReal 8) / 2)
    have j1 : accuracyShare n300 n100 n50 nmiss ^ ((14.5 - max d.odReal 8) / 2) ≤ accuracyShare n300 n100 n50 nmiss ^ ((14.5 - max d'.odReal 8) / 2) := by
      refine unit_pow u0 u1 (div_nonneg (sub_nonneg.mpr (max_le hod' (by norm_num))) (by norm_num)) ?_
      exact div_le_div_of_nonneg_right (sub_le_sub_left (max_le_max_right _ hodd) _) (by norm_num)
    have w0 : (0 : ℝ) ≤ 0.98 ^ max 0 ((n50 : ℝ) - (n300 + n100 + n50 + nmiss : ℤ) / 500) := Real.rpow_nonneg (by norm_num) _
    refine ⟨mul_nonneg (mul_nonneg (mul_nonneg (mul_nonneg ps.1 k) c0) j0) w0, mul_le_mul_of_nonneg_right (mul_le_mul
      (mul_le_mul_of_nonneg_right (mul_le_mul_of_nonneg_right ps.2 k) c0) j1 j0 ?_) w0⟩
    exact mul_nonneg (mul_nonneg (ps.1.trans ps.2) k) c0
  have g3 : 0 ≤ (pp.ppv2x a combo n300 n100 n50 nmiss d).results.acc ∧
      (pp.ppv2x a combo n300 n100 n50 nmiss d).results.acc ≤ (pp.ppv2x a combo n300 n100 n50 nmiss d').results.acc := by
    rw [r3, q3]
    have : 0 ≤ timedAccuracy a d n300 n100 n50 nmiss ^ 24 := pow_nonneg (le_max_left _ _) 24
    exact ⟨mul_nonneg pc.1 this, mul_le_mul_of_nonneg_right pc.2 this⟩
  have g4 : 0 ≤ (pp.ppv2x a combo n300 n100 n50 nmiss d).results.flashlight ∧
      (pp.ppv2x a combo n300 n100 n50 nmiss d).results.flashlight ≤ (pp.ppv2x a combo n300 n100 n50 nmiss d').results.flashlight := by
    rw [r4, q4]
    have k := mi ((countedMisses a d combo n300 n100 n50 nmiss : ℝ) ^ (0.875 : ℝ))
    have w : 0 ≤ (1 + accuracyShare n300 n100 n50 nmiss) / 2 := by positivity
    exact ⟨mul_nonneg (mul_nonneg (mul_nonneg pf.1 k) c0) w, mul_le_mul_of_nonneg_right (mul_le_mul_of_nonneg_right
      (mul_le_mul_of_nonneg_right pf.2 k) c0) w⟩
  refine ⟨g1, g2, g3, g4, ?_⟩
  obtain ⟨t0, t1⟩ := combined_mono g1.1 g2.1 g3.1 g4.1 g1.2 g2.2 g3.2 g4.2
  have mf : modFactor a d' = modFactor a d := by
    funext n m
    unfold modFactor
    rw [hm]
  rw [r5, q5, mf]
  have m0 : ∀ m : ℝ, 0 ≤ 1.12 * modFactor a d (n300 + n100 + n50 + nmiss : ℤ) m := by
    intro m
    unfold modFactor
    have k1 : (0 : ℝ) ≤ if d.mods.active Mod.NoFail = true then max 0.9 (1 - 0.02 * m) else 1 := by
      split
      · exact le_max_of_le_left (by norm_num)
      · norm_num
    have k2 : (0 : ℝ) ≤ if d.mods.active Mod.SpunOut = true then 1 - ((a.spinners : ℝ) / (n300 + n100 + n50 + nmiss : ℤ)) ^ (0.85 : ℝ) else 1 := by
      split
      · have b0 : (0 : ℝ) ≤ a.spinners := by exact_mod_cast hsp.1
        have b1 : (a.spinners : ℝ) ≤ (n300 + n100 + n50 + nmiss : ℤ) := by exact_mod_cast hsp.2
        exact sub_nonneg.mpr (Real.rpow_le_one (by positivity) ((div_le_one hn).mpr b1) (by norm_num))
      · norm_num
    have k3 : (0 : ℝ) ≤ if d.mods.active Mod.Relax = true then 0.6 else 1 := by split <;> norm_num
    positivity
  exact ⟨mul_nonneg (m0 _) t0, mul_le_mul_of_nonneg_left t1 (m0 _)⟩

theorem lower_od (pp : PPv2 ℝ) (hc : 0 ≤ combo) (h : ValidPlay a d n300 n100 n50 nmiss) (hm : d'.mods = d.mods)
    (har : d'.arReal = d.arReal) (hodd : d.odReal < d'.odReal) (hod : d'.odReal ≤ 0)
    (hpos : 0 < (pp.ppv2x a combo n300 n100 n50 nmiss d).results.aim) :
    (pp.ppv2x a combo n300 n100 n50 nmiss d').results.aim < (pp.ppv2x a combo n300 n100 n50 nmiss d).results.aim := by
  obtain ⟨h3, h1, h5, hmi, ht, ha, hs, hf, hsf, hci, hob, hsp, hap⟩ := h
  have htm : 0 ≤ timed a d := by unfold timed; split <;> omega
  have htm' : 0 ≤ timed a d' := by unfold timed; split <;> omega
  obtain ⟨r1, -⟩ := C95_shares pp a d hc h3 h1 h5 hmi rfl ht htm rfl rfl
  obtain ⟨q1, -⟩ := C95_shares pp a d' hc h3 h1 h5 hmi rfl ht htm' rfl rfl
  have e1 : countedMisses a d' combo n300 n100 n50 nmiss = countedMisses a d combo n300 n100 n50 nmiss := by
    unfold countedMisses; rw [hm]
  have e4 : hiddenFactor d' = hiddenFactor d := by unfold hiddenFactor; rw [hm, har]
  have e5 : highAR d' = highAR d := by unfold highAR; rw [har]
  have e6 : lowAR d' = lowAR d := by unfold lowAR; rw [har]
  rw [e1] at q1
  unfold perfectAim at r1 q1
  rw [touched_od hm, e4, e5, e6] at q1
  rw [r1] at hpos
  rw [r1, q1]
  clear r1 q1
  generalize baseValue (touched d a.aim) * lengthFactor ((n300 + n100 + n50 + nmiss : ℤ) : ℝ) *
    (1 + (highAR d + lowAR d) * lengthFactor ((n300 + n100 + n50 + nmiss : ℤ) : ℝ)) * hiddenFactor d = k at *
  generalize missShare _ _ _ = m at *
  generalize comboShare a combo = c at *
  generalize sliderShare a combo n100 n50 nmiss = s at *
  generalize accuracyShare n300 n100 n50 nmiss = u at *
  have hu : 0 < 0.98 + d.odReal ^ 2 / 2500 := by positivity
  have hk : 0 < k * m * c * s * u := by
    have : k * (0.98 + d.odReal ^ 2 / 2500) * m * c * s * u = k * m * c * s * u * (0.98 + d.odReal ^ 2 / 2500) := by ring
    rw [this] at hpos
    exact (pos_iff_pos_of_mul_pos hpos).mpr hu
  have hsq : d'.odReal ^ 2 < d.odReal ^ 2 := by nlinarith
  nlinarith

end
end GosuPP.PPv2
