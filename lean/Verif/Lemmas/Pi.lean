import Verif.Go.Float
import Mathlib.Analysis.SpecialFunctions.Complex.Arctan
import Mathlib.Analysis.SpecialFunctions.Trigonometric.Arctan
import Mathlib.Analysis.SpecificLimits.Normed

/-!
# `math.Pi` is a little less than `π`
-/

namespace GosuPP
open Go

private theorem arctan_terms {x : ℝ} (h0 : 0 ≤ x) (h1 : x < 1) :
    Antitone (fun n : ℕ => x ^ (2 * n + 1) / ((2 * n + 1 : ℕ) : ℝ)) ∧
    Filter.Tendsto (fun n => ∑ i ∈ Finset.range n, (-1) ^ i * (x ^ (2 * i + 1) / ((2 * i + 1 : ℕ) : ℝ))) Filter.atTop (nhds (Real.arctan x)) := by
  constructor
  · apply antitone_nat_of_succ_le
    intro n
    refine div_le_div₀ (by positivity) (pow_le_pow_of_le_one h0 h1.le (by omega)) (by positivity) ?_
    exact_mod_cast (by omega : 2 * n + 1 ≤ 2 * (n + 1) + 1)
  · have := (Real.hasSum_arctan (x := x) (by rw [Real.norm_eq_abs, abs_of_nonneg h0]; exact h1)).tendsto_sum_nat
    simpa only [mul_div_assoc] using this

private theorem arctan_ge {x : ℚ} (h0 : 0 ≤ x) (h1 : x < 1) (k : ℕ) :
    ((∑ i ∈ Finset.range (2 * k), (-1) ^ i * (x ^ (2 * i + 1) / ((2 * i + 1 : ℕ) : ℚ)) : ℚ) : ℝ) ≤ Real.arctan x := by
  obtain ⟨h, t⟩ := arctan_terms (x := x) (by exact_mod_cast h0) (by exact_mod_cast h1)
  have := h.alternating_series_le_tendsto t k
  push_cast at this ⊢
  exact this

private theorem arctan_le {x : ℚ} (h0 : 0 ≤ x) (h1 : x < 1) (k : ℕ) :
    Real.arctan x ≤ ((∑ i ∈ Finset.range (2 * k + 1), (-1) ^ i * (x ^ (2 * i + 1) / ((2 * i + 1 : ℕ) : ℚ)) : ℚ) : ℝ) := by
  obtain ⟨h, t⟩ := arctan_terms (x := x) (by exact_mod_cast h0) (by exact_mod_cast h1)
  have := h.tendsto_le_alternating_series t k
  push_cast at this ⊢
  exact this

private theorem machin : piConst <
    4 * (4 * (∑ i ∈ Finset.range (2 * 24), (-1) ^ i * ((1 / 5 : ℚ) ^ (2 * i + 1) / ((2 * i + 1 : ℕ) : ℚ))) -
      ∑ i ∈ Finset.range (2 * 8 + 1), (-1) ^ i * ((1 / 239 : ℚ) ^ (2 * i + 1) / ((2 * i + 1 : ℕ) : ℚ))) := by
  decide +kernel

theorem piConst_lt_pi : (piConst : ℝ) < Real.pi := by
  have h := Real.four_mul_arctan_inv_5_sub_arctan_inv_239
  have h1 := arctan_ge (x := 1 / 5) (by norm_num) (by norm_num) 24
  have h2 := arctan_le (x := 1 / 239) (by norm_num) (by norm_num) 8
  have h3 : (piConst : ℝ) < _ := Rat.cast_lt.mpr machin
  have e1 : ((1 / 5 : ℚ) : ℝ) = 5⁻¹ := by norm_num
  have e2 : ((1 / 239 : ℚ) : ℝ) = 239⁻¹ := by norm_num
  rw [e1] at h1
  rw [e2] at h2
  rw [Rat.cast_mul, Rat.cast_sub, Rat.cast_mul] at h3
  have e4 : ((4 : ℚ) : ℝ) = 4 := by norm_num
  rw [e4] at h3
  linarith

end GosuPP
