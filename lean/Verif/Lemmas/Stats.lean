import Verif.Lemmas.PPMods
import Verif.Go.ExactLibm
import Verif.Model.Difficulty

/-! Difficulty settings in exact arithmetic. -/

namespace GosuPP.Exactly
open Go
attribute [local instance] exactLibm

private theorem rate_linear (x : ℝ) {u v w : ℚ} (h : v - u = w - v) :
    difficultyRate (some x) (lit u) (lit v) (lit w) = some (u + (v - u) / 5 * x) := by
  have hr : (v : ℝ) - u = w - v := by exact_mod_cast h
  unfold difficultyRate
  simp only [Exact.lit, Exact.lt, Exact.sub, Exact.mul, Exact.add, Exact.div _ (show ((5 : ℚ) : ℝ) ≠ 0 by norm_num)]
  by_cases h1 : ((5 : ℚ) : ℝ) < x
  · simp only [h1, decide_true, if_true]
    congr 1; push_cast; rw [← hr]; ring
  · by_cases h2 : x < ((5 : ℚ) : ℝ)
    · simp only [h1, h2, decide_true, decide_false, if_true, Bool.false_eq_true, if_false]
      congr 1; push_cast; ring
    · simp only [h1, h2, decide_false, Bool.false_eq_true, if_false]
      have : x = 5 := by push_cast at h1 h2; linarith
      subst this
      congr 1; ring

/-- The window for a 300 at each OD, in milliseconds. -/
theorem rate300 (x : ℝ) : difficultyRate (some x) (lit 80) (lit 50) (lit 20) = some (80 - 6 * x) := by
  rw [rate_linear x (by norm_num)]
  congr 1; push_cast; ring

/-- The radius of circles at each CS, in pixels. -/
theorem radius_exact (x : ℝ) : difficultyRate (some x) (lit 54.4) (lit 32) (lit 9.6) = some (54.4 - 4.48 * x) := by
  rw [rate_linear x (by norm_num)]
  congr 1; push_cast; ring

theorem adjust_mono (m : Modifier) {k : ℚ} (hk : 0 ≤ k) {x y b : ℝ} (hb : 10 ≤ b) (h : x ≤ y) :
    ∃ x' y', Difficulty.adjust m k (some x : Option ℝ) = some x' ∧
    Difficulty.adjust m k (some y : Option ℝ) = some y' ∧ x' ≤ y' ∧ (y ≤ b → y' ≤ b) := by
  have half : ∀ {u v : ℝ}, u ≤ v → (y ≤ b → v ≤ b) →
      ∃ x' y', (if Modifier.active m Mod.Easy = true then (some u : Option ℝ) /. lit 2 else some u) = some x' ∧
      (if Modifier.active m Mod.Easy = true then (some v : Option ℝ) /. lit 2 else some v) = some y' ∧ x' ≤ y' ∧ (y ≤ b → y' ≤ b) := by
    intro u v huv hv
    split
    · rw [Exact.lit, Exact.div _ (by norm_num), Exact.div _ (by norm_num)]
      refine ⟨_, _, rfl, rfl, by push_cast; linarith, fun hy => ?_⟩
      have := hv hy
      push_cast
      linarith
    · exact ⟨_, _, rfl, rfl, huv, hv⟩
  unfold Difficulty.adjust
  dsimp only
  by_cases hm : Modifier.active m Mod.HardRock = true
  · simp only [hm, if_true, Exact.lit k, Exact.lit 10, Exact.mul, Exact.fmin]
    have hk' : (0 : ℝ) ≤ (k : ℝ) := by exact_mod_cast hk
    refine half (min_le_min_right _ (mul_le_mul_of_nonneg_right h hk')) fun _ => ?_
    refine (min_le_right _ _).trans (by push_cast; linarith)
  · simp only [hm, if_false]
    exact half h id

/-- HardRock does not lower a stat between 0 and 10. -/
theorem adjust_hardrock (m : Modifier) {k : ℚ} (hk : 1 ≤ k) {x : ℝ} (h0 : 0 ≤ x) (h10 : x ≤ 10) :
    ∃ x' y', Difficulty.adjust m k (some x : Option ℝ) = some x' ∧
    Difficulty.adjust (m ||| Mod.HardRock) k (some x : Option ℝ) = some y' ∧ x' ≤ y' ∧ y' ≤ 10 := by
  have ez : Modifier.active (m ||| Mod.HardRock) Mod.Easy = Modifier.active m Mod.Easy :=
    active_or m (i := 4) (j := 1) (by decide) (by decide)
  have hr : Modifier.active (m ||| Mod.HardRock) Mod.HardRock = true := active_or_self m (i := 4) (by decide)
  have half : ∀ {u v : ℝ}, u ≤ v → v ≤ 10 →
      ∃ x' y', (if Modifier.active m Mod.Easy = true then (some u : Option ℝ) /. lit 2 else some u) = some x' ∧
      (if Modifier.active m Mod.Easy = true then (some v : Option ℝ) /. lit 2 else some v) = some y' ∧ x' ≤ y' ∧ y' ≤ 10 := by
    intro u v huv hv
    split
    · rw [Exact.lit, Exact.div _ (by norm_num), Exact.div _ (by norm_num)]
      exact ⟨_, _, rfl, rfl, by push_cast; linarith, by push_cast; linarith⟩
    · exact ⟨_, _, rfl, rfl, huv, hv⟩
  have hk' : (1 : ℝ) ≤ (k : ℝ) := by exact_mod_cast hk
  have hx : x ≤ x * (k : ℝ) := le_mul_of_one_le_right h0 hk'
  have h10' : min (x * (k : ℝ)) ((10 : ℚ) : ℝ) ≤ 10 := (min_le_right _ _).trans (by norm_num)
  unfold Difficulty.adjust
  dsimp only
  rw [ez]
  simp only [hr, if_true, Exact.lit k, Exact.lit 10, Exact.mul, Exact.fmin]
  by_cases hm : Modifier.active m Mod.HardRock = true
  · simp only [hm, if_true]
    exact half le_rfl h10'
  · simp only [hm, if_false]
    exact half (le_min hx (by push_cast; linarith)) h10'

theorem speed_pos (m : Modifier) {c : ℝ} (hc : 0 < c) :
    ∃ r, 0 < r ∧ (lit 1 /. Difficulty.modifiedTime m (some c) (lit 1) : Option ℝ) = some r := by
  unfold Difficulty.modifiedTime
  simp only [Exact.lit, Exact.mul]
  have h1 : (0 : ℝ) < ((1.5 : ℚ) : ℝ) * c := by push_cast; positivity
  have h2 : (0 : ℝ) < ((0.75 : ℚ) : ℝ) * c := by push_cast; positivity
  have h3 : ∀ x : ℝ, 0 < x → ∃ r, 0 < r ∧ (some ((1 : ℚ) : ℝ) /. (some ((1 : ℚ) : ℝ) /. some x) : Option ℝ) = some r := by
    intro x hx
    have : (0 : ℝ) < ((1 : ℚ) : ℝ) / x := by push_cast; positivity
    rw [Exact.div _ hx.ne', Exact.div _ this.ne']
    exact ⟨_, by push_cast; positivity, rfl⟩
  split
  · exact h3 _ h1
  · split
    · exact h3 _ h2
    · exact h3 _ hc

end GosuPP.Exactly
