import Verif.Lemmas.Perfect
import Verif.Props.PPExact
import Verif.Props.PP

/-!
# C95: performance points in closed form
-/

namespace GosuPP.Props
open Go Spec PPv2

private theorem guessed_eq (a : Attributes ℝ) (combo : ℤ) {n : ℤ} (hn : 0 ≤ n) : ⌊comboMisses a combo n⌋ = guessedMisses a combo n := by
  have hn' : (0 : ℝ) ≤ n := by exact_mod_cast hn
  unfold comboMisses guessedMisses
  push_cast
  rw [show (0.1 : ℝ) * a.sliders = a.sliders / 10 by ring]
  by_cases hs : a.sliders > 0
  · rw [if_pos hs]
    by_cases hc : (combo : ℝ) < max 1 (a.maxCombo : ℝ) - a.sliders / 10
    · rw [if_pos hc, if_pos ⟨hs, hc⟩]
    · rw [if_neg hc, if_neg (fun h => hc h.2), min_eq_left hn', Int.floor_zero]
  · rw [if_neg hs, if_neg (fun h => hs h.1), min_eq_left hn', Int.floor_zero]

private theorem share_eq {n300 n100 n50 nmiss : ℤ} (h3 : 0 ≤ n300) (h1 : 0 ≤ n100) (h5 : 0 ≤ n50) (hm : 0 ≤ nmiss)
    (ht : 0 < n300 + n100 + n50 + nmiss) :
    min 1 (max 0 (((50 * n50 + 100 * n100 + 300 * n300 : ℤ) : ℝ) / (300 * (n300 + n100 + n50 + nmiss) : ℤ))) =
      accuracyShare n300 n100 n50 nmiss := by
  have h3' : (0 : ℝ) ≤ n300 := by exact_mod_cast h3
  have h1' : (0 : ℝ) ≤ n100 := by exact_mod_cast h1
  have h5' : (0 : ℝ) ≤ n50 := by exact_mod_cast h5
  have hm' : (0 : ℝ) ≤ nmiss := by exact_mod_cast hm
  have ht' : (0 : ℝ) < n300 + n100 + n50 + nmiss := by exact_mod_cast ht
  have e : ((50 * n50 + 100 * n100 + 300 * n300 : ℤ) : ℝ) / (300 * (n300 + n100 + n50 + nmiss) : ℤ) =
      accuracyShare n300 n100 n50 nmiss := by
    unfold accuracyShare
    push_cast
    field_simp
    ring
  rw [e, max_eq_right, min_eq_right]
  · unfold accuracyShare
    rw [div_le_one ht']
    linarith
  · unfold accuracyShare
    positivity

/-- C95 (exact arithmetic). Each component is what a perfect play gets, times shares for misses, combo, dropped slider
ends, accuracy and 50s; the total combines them. -/
theorem C95_shares (pp : PPv2 ℝ) (a : Attributes ℝ) (d : Difficulty ℝ) {combo n300 n100 n50 nmiss n m : ℤ} {acc : ℝ}
    (hc : 0 ≤ combo) (h3 : 0 ≤ n300) (h1 : 0 ≤ n100) (h5 : 0 ≤ n50) (hm0 : 0 ≤ nmiss) (hn : n = n300 + n100 + n50 + nmiss) (ht : 0 < n)
    (ha : 0 ≤ timed a d) (hm : m = countedMisses a d combo n300 n100 n50 nmiss) (hacc : acc = accuracyShare n300 n100 n50 nmiss) :
    let r := (pp.ppv2x a combo n300 n100 n50 nmiss d).results
    r.aim = perfectAim a d n * missShare m n m * comboShare a combo * sliderShare a combo n100 n50 nmiss * acc ∧
    r.speed = perfectSpeed a d n * missShare m n ((m : ℝ) ^ (0.875 : ℝ)) * comboShare a combo *
      acc ^ ((14.5 - max d.odReal 8) / 2) * 0.98 ^ max 0 ((n50 : ℝ) - n / 500) ∧
    r.acc = perfectAccuracy a d * timedAccuracy a d n300 n100 n50 nmiss ^ 24 ∧
    r.flashlight = perfectFlashlight a d n * missShare m n ((m : ℝ) ^ (0.875 : ℝ)) * comboShare a combo * ((1 + acc) / 2) ∧
    r.total = 1.12 * modFactor a d n (max nmiss (guessedMisses a combo n) : ℤ) *
      combined r.aim r.speed r.acc r.flashlight := by
  subst hn
  intro r
  obtain ⟨f1, f2, f3, f4, f5, f6, f7, f8, f9, f10, f11⟩ := counted_fields pp a d hc h3 ht
  rw [guessed_eq a combo ht.le] at f11
  rw [share_eq h3 h1 h5 hm0 ht, ← hacc] at f9
  have f11' : (pp.counted a combo n300 n100 n50 nmiss d).effectiveMissCount = m := by rw [f11, hm]; rfl
  have e := ppv2x_results pp a d combo n300 n100 n50 nmiss
  simp only at e
  have ea := aim_share f8 (by rw [f3]; exact hc)
  have es := speed_share f8 (by rw [f3]; exact hc)
  have ec := accuracy_share f8 (by rw [f10, f2]; rfl) (by rw [f2]; exact ha) (by rw [f1, f4, f5, f6, f7])
  have ef := flashlight_share f8 (by rw [f3]; exact hc)
  rw [f1, f2, f3, f5, f6, f7, f9, f11'] at ea
  rw [f1, f2, f3, f6, f9, f11'] at es
  rw [f2, f4, f5, f6, f7] at ec
  rw [f1, f2, f3, f9, f11'] at ef
  refine ⟨?_, ?_, ?_, ?_, ?_⟩
  · rw [← ea]; show (pp.ppv2x a combo n300 n100 n50 nmiss d).results.aim = _; rw [e]
  · rw [← es]; show (pp.ppv2x a combo n300 n100 n50 nmiss d).results.speed = _; rw [e]
  · rw [← ec]; show (pp.ppv2x a combo n300 n100 n50 nmiss d).results.acc = _; rw [e]
  · rw [← ef]; show (pp.ppv2x a combo n300 n100 n50 nmiss d).results.flashlight = _; rw [e]
  · have hem := setup_misses pp a d hc h3 ht.le (n100 := n100) (n50 := n50) (nmiss := nmiss)
    rw [guessed_eq a combo ht.le] at hem
    have htot : (pp.setup a combo n300 n100 n50 nmiss d).totalHits = n300 + n100 + n50 + nmiss := by
      unfold setup; simp only; rw [if_neg (by omega)]
    have hd : (pp.setup a combo n300 n100 n50 nmiss d).diff = d := rfl
    have hmul := multiplier_eq (a := a) (p := pp.setup a combo n300 n100 n50 nmiss d) rfl (by rw [htot]; exact ht)
    rw [htot, hd, hem] at hmul
    show (pp.ppv2x a combo n300 n100 n50 nmiss d).results.total = _
    rw [mul_comm, ← hmul, ← total_eq]
    show _ = PPv2.total (pp.ppv2x a combo n300 n100 n50 nmiss d).results.aim (pp.ppv2x a combo n300 n100 n50 nmiss d).results.speed
      (pp.ppv2x a combo n300 n100 n50 nmiss d).results.acc (pp.ppv2x a combo n300 n100 n50 nmiss d).results.flashlight _
    rw [e]

/-- C95 (exact arithmetic). A perfect play: all hits 300, and a full combo. -/
theorem C95_perfect (pp : PPv2 ℝ) (a : Attributes ℝ) (d : Difficulty ℝ) {combo n : ℤ} (hc : a.maxCombo ≤ combo) (hc1 : 1 ≤ combo)
    (ht : 0 < n) (hs : 0 ≤ a.sliders) (ha : 0 ≤ timed a d) :
    let r := (pp.ppv2x a combo n 0 0 0 d).results
    r.aim = perfectAim a d n ∧ r.speed = perfectSpeed a d n ∧ r.acc = perfectAccuracy a d ∧
    r.flashlight = perfectFlashlight a d n ∧
    r.total = 1.12 * modFactor a d n 0 *
      combined (perfectAim a d n) (perfectSpeed a d n) (perfectAccuracy a d) (perfectFlashlight a d n) := by
  intro r
  have hcr : max 1 (a.maxCombo : ℝ) ≤ combo := max_le (by exact_mod_cast hc1) (by exact_mod_cast hc)
  have hm1 : (0 : ℝ) < max 1 (a.maxCombo : ℝ) := lt_of_lt_of_le one_pos (le_max_left _ _)
  have hs' : (0 : ℝ) ≤ a.sliders := by exact_mod_cast hs
  have hn : (0 : ℝ) < n := by exact_mod_cast ht
  have g : ∀ k, guessedMisses a combo k = 0 := by
    intro k
    unfold guessedMisses
    exact if_neg (fun h => by have := h.2; linarith)
  have ecombo : comboShare a combo = 1 := by
    unfold comboShare
    rw [min_eq_left ((one_le_div hm1).mpr hcr), Real.one_rpow]
  have em : countedMisses a d combo n 0 0 0 = 0 := by
    unfold countedMisses
    simp only [g]
    split <;> omega
  have ems : ∀ e, missShare 0 n e = 1 := fun e => if_pos le_rfl
  have esl : sliderShare a combo 0 0 0 = 1 := by
    unfold sliderShare
    split
    · rename_i h0
      have h0' : (0 : ℝ) < a.sliders := by exact_mod_cast h0
      have e : min ((0 + 0 + 0 : ℤ) : ℝ) (max 1 (a.maxCombo : ℝ) - combo) ≤ 0 := (min_le_right _ _).trans (by linarith)
      simp only [max_eq_left e]
      rw [min_eq_right (by positivity)]
      ring
    · rfl
  have eacc : accuracyShare n 0 0 0 = 1 := by
    unfold accuracyShare
    norm_num
    omega
  obtain ⟨h1, h2, h3, h4, h5⟩ := C95_shares pp a d (by omega) ht.le le_rfl le_rfl le_rfl (n := n) (by ring) ht ha em.symm eacc.symm
  rw [ems, ecombo, esl] at h1
  rw [ems, ecombo, Real.one_rpow, max_eq_left (by
    rw [Int.cast_zero, zero_sub, neg_nonpos]; positivity), Real.rpow_zero] at h2
  rw [ems, ecombo] at h4
  have k1 : r.aim = perfectAim a d n := by rw [h1]; ring
  have k2 : r.speed = perfectSpeed a d n := by rw [h2]; ring
  have k4 : r.flashlight = perfectFlashlight a d n := by rw [h4]; ring
  have k3 : r.acc = perfectAccuracy a d := by
    rw [h3]
    rcases ha.eq_or_lt with h0 | h0
    · have : perfectAccuracy a d = 0 := by
        unfold perfectAccuracy
        rw [← h0]
        split
        · rfl
        · rw [Int.cast_zero, zero_div, Real.zero_rpow (by norm_num), min_eq_right (by norm_num)]
          ring
      rw [this, zero_mul]
    · have h0' : (0 : ℝ) < timed a d := by exact_mod_cast h0
      have : timedAccuracy a d n 0 0 0 = 1 := by
        unfold timedAccuracy
        have e : ((n : ℝ) - (n + (0 : ℤ) + (0 : ℤ) + (0 : ℤ) - timed a d) + (0 : ℤ) / 3 + (0 : ℤ) / 6) / timed a d = 1 := by
          push_cast
          field_simp
          ring
        rw [e]
        norm_num
      rw [this]
      ring
  refine ⟨k1, k2, k3, k4, ?_⟩
  have k5 : r.total = 1.12 * modFactor a d n (max 0 (guessedMisses a combo n) : ℤ) * combined r.aim r.speed r.acc r.flashlight := h5
  rw [k5, g, k1, k2, k3, k4]
  norm_num

/-- C95 (exact arithmetic). So leaving out combo and hits gives the value of a perfect play of the whole map. -/
theorem C95_default (pp : PPv2 ℝ) (a : Attributes ℝ) (d : Difficulty ℝ) {combo n300 : ℤ} (hc : combo < 0) (h3 : n300 < 0)
    (ht : 0 < a.objectCount) (hs : 0 ≤ a.sliders) (hci : 0 ≤ a.circles) :
    let n : ℝ := a.objectCount
    let r := (pp.ppv2x a combo n300 0 0 0 d).results
    r.aim = perfectAim a d n ∧ r.speed = perfectSpeed a d n ∧ r.acc = perfectAccuracy a d ∧
    r.flashlight = perfectFlashlight a d n ∧
    r.total = 1.12 * modFactor a d n 0 *
      combined (perfectAim a d n) (perfectSpeed a d n) (perfectAccuracy a d) (perfectFlashlight a d n) := by
  rw [C53_combo pp a combo n300 0 0 0 d hc, C53_n300 pp a _ n300 0 0 0 d h3, sub_zero, sub_zero, sub_zero]
  refine C95_perfect pp a d (le_max_right _ _) (le_max_left _ _) ht hs ?_
  unfold timed
  split <;> omega

/-- C95: the example map without mods. -/
example (pp : PPv2 ℝ) : (pp.ppv2x exampleMap (-1) (-1) 0 0 0 (exampleDiff 0)).results.acc =
    2.83 * (1.52163 : ℝ) ^ (exampleDiff 0).odReal * 0.497 ^ (0.3 : ℝ) := by
  rw [(C95_default pp exampleMap (exampleDiff 0) (by norm_num) (by norm_num) (by norm_num [exampleMap]) (by norm_num [exampleMap])
    (by norm_num [exampleMap])).2.2.1]
  unfold perfectAccuracy timed
  have h1 : Modifier.active 0 Mod.Relax = false := by decide +kernel
  have h2 : Modifier.active 0 Mod.ScoreV2 = false := by decide +kernel
  have h3 : Modifier.active 0 Mod.Hidden = false := by decide +kernel
  have h4 : Modifier.active 0 Mod.Flashlight = false := by decide +kernel
  rw [exampleDiff_mods, h1, h2, h3, h4]
  simp only [Bool.false_eq_true, if_false]
  rw [min_eq_right]
  · norm_num [exampleMap]
  · exact le_trans (Real.rpow_le_one (by norm_num [exampleMap]) (by norm_num [exampleMap]) (by norm_num)) (by norm_num)

/-- C95: 20 misses and 30 hits of 100 on the example map with a combo of 800. -/
example (pp : PPv2 ℝ) : (pp.ppv2x exampleMap 800 950 30 0 20 (exampleDiff Mod.Hidden)).results.speed =
    perfectSpeed exampleMap (exampleDiff Mod.Hidden) 1000 * (0.97 * (1 - 0.02 ^ (0.775 : ℝ)) ^ ((20 : ℝ) ^ (0.875 : ℝ))) *
      0.5 ^ (0.8 : ℝ) * 0.96 ^ ((14.5 - max (exampleDiff Mod.Hidden).odReal 8) / 2) := by
  have hr : Modifier.active (exampleDiff Mod.Hidden).mods Mod.Relax = false := by rw [exampleDiff_mods]; decide +kernel
  have hm : countedMisses exampleMap (exampleDiff Mod.Hidden) 800 950 30 0 20 = 20 := by
    unfold countedMisses guessedMisses
    rw [hr]
    norm_num [exampleMap]
  rw [(C95_shares pp exampleMap (exampleDiff Mod.Hidden) (n := 1000) (by norm_num) (by norm_num) (by norm_num) (by norm_num)
    (by norm_num) (by norm_num) (by norm_num) (by unfold timed; split <;> norm_num [exampleMap]) hm.symm rfl).2.1]
  have e1 : missShare 20 ((1000 : ℤ) : ℝ) (((20 : ℤ) : ℝ) ^ (0.875 : ℝ)) = 0.97 * (1 - 0.02 ^ (0.775 : ℝ)) ^ ((20 : ℝ) ^ (0.875 : ℝ)) := by
    unfold missShare
    norm_num
  have e2 : comboShare exampleMap 800 = 0.5 ^ (0.8 : ℝ) := by
    unfold comboShare exampleMap
    norm_num
  have e3 : accuracyShare 950 30 0 20 = 0.96 := by
    unfold accuracyShare
    norm_num
  have e4 : max (0 : ℝ) (((0 : ℤ) : ℝ) - ((1000 : ℤ) : ℝ) / 500) = 0 := by norm_num
  rw [e1, e2, e3, e4, Real.rpow_zero, mul_one]
  norm_num

end GosuPP.Props
