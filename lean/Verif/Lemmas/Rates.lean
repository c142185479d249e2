import Verif.Lemmas.Stats
import Verif.Lemmas.Mods
import Verif.Spec.Faster

/-!
# Effective stats in exact arithmetic
-/

namespace GosuPP.Exactly
open Go Spec

theorem modRate_pos (m : Modifier) : 0 < modRate m := by
  unfold modRate
  split
  · norm_num
  · split <;> norm_num

theorem modified (m : Modifier) {s : ℝ} (hs : 0 < s) (t : ℝ) :
    Difficulty.modifiedTime m (some s) (some t : Option ℝ) = some (t / (modRate m * s)) := by
  have h1 : (0 : ℝ) < ((1.5 : ℚ) : ℝ) * s := by push_cast; positivity
  have h2 : (0 : ℝ) < ((0.75 : ℚ) : ℝ) * s := by push_cast; positivity
  unfold Difficulty.modifiedTime modRate
  rw [show Mod.DoubleTime = Mod.bit 6 from rfl, show Mod.HalfTime = Mod.bit 8 from rfl]
  simp only [active_iff_has _ (show 6 < 63 by decide), active_iff_has _ (show 8 < 63 by decide), Exact.lit, Exact.mul, decide_eq_true_eq]
  by_cases hd : has m (Mod.bit 6)
  · rw [if_pos hd, if_pos hd, Exact.div _ h1.ne']; norm_num
  · rw [if_neg hd, if_neg hd]
    by_cases hh : has m (Mod.bit 8)
    · rw [if_pos hh, if_pos hh, Exact.div _ h2.ne']; norm_num
    · rw [if_neg hh, if_neg hh, Exact.div _ hs.ne']; norm_num

theorem speed_exact (m : Modifier) {s : ℝ} (hs : 0 < s) :
    (lit 1 /. Difficulty.modifiedTime m (some s) (lit 1) : Option ℝ) = some (modRate m * s) := by
  have h := mul_pos (modRate_pos m) hs
  rw [Exact.lit, modified m hs, Exact.div _ (by push_cast; positivity)]
  congr 1
  field_simp

/-- Effective OD. -/
theorem od_exact (x : ℝ) : diffFromRate (some x) (lit 80) (lit 50) (lit 20) = some ((80 - x) / 6 : ℝ) := by
  unfold diffFromRate
  simp only [Exact.lit, Exact.sub, Exact.lt, Go.fneg, Exact.neg, decide_eq_true_eq]
  rw [Exact.div _ (show ((5 : ℚ) : ℝ) ≠ 0 by norm_num), Exact.div _ (show ((5 : ℚ) : ℝ) ≠ 0 by norm_num)]
  by_cases h : ((50 : ℚ) : ℝ) < x
  · rw [if_pos h, Exact.div _ (by norm_num)]
    congr 1
    norm_num
  · rw [if_neg h, Exact.div _ (by norm_num), Exact.sub]
    congr 1
    norm_num
    ring

/-- Effective AR stays below 13. -/
theorem ar_number {x : ℝ} (hx : 0 < x) : ∃ y ≤ (13 : ℝ), diffFromRate (some x) (lit 1800) (lit 1200) (lit 450) = some y := by
  unfold diffFromRate
  simp only [Exact.lit, Exact.sub, Exact.lt, Go.fneg, Exact.neg, decide_eq_true_eq]
  rw [Exact.div _ (show ((5 : ℚ) : ℝ) ≠ 0 by norm_num), Exact.div _ (show ((5 : ℚ) : ℝ) ≠ 0 by norm_num)]
  by_cases h : ((1200 : ℚ) : ℝ) < x
  · rw [if_pos h, Exact.div _ (by norm_num)]
    refine ⟨_, ?_, rfl⟩
    norm_num at h ⊢
    rw [div_le_iff₀ (by norm_num)]
    linarith
  · rw [if_neg h, Exact.div _ (by norm_num), Exact.sub]
    refine ⟨_, ?_, rfl⟩
    norm_num
    have : (x - 1200) / 150 = x / 150 - 8 := by ring
    have h0 : 0 < x / 150 := by positivity
    linarith

theorem preempt_pos {a : ℝ} (ha : a ≤ 12) : ∃ x, 0 < x ∧ difficultyRate (some a) (lit 1800) (lit 1200) (lit 450) = some x := by
  unfold difficultyRate
  simp only [Exact.lit, Exact.sub, Exact.lt, Exact.mul, decide_eq_true_eq]
  rw [Exact.div _ (show ((5 : ℚ) : ℝ) ≠ 0 by norm_num), Exact.div _ (show ((5 : ℚ) : ℝ) ≠ 0 by norm_num), Exact.add, Exact.sub]
  by_cases h : ((5 : ℚ) : ℝ) < a
  · rw [if_pos h]
    refine ⟨_, ?_, rfl⟩
    norm_num
    linarith
  · rw [if_neg h]
    by_cases h' : a < ((5 : ℚ) : ℝ)
    · rw [if_pos h']
      refine ⟨_, ?_, rfl⟩
      norm_num at h' ⊢
      linarith
    · rw [if_neg h']
      exact ⟨_, by norm_num, rfl⟩

end GosuPP.Exactly
