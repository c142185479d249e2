import Verif.Spec.Derived
import Verif.Props.Difficulty

/-!
# Derived difficulty values in closed form: C110
-/

namespace GosuPP.Props
open Go GosuPP Spec

theorem rate_line (x mn md mx : ℝ) : difficultyRate x mn md mx =
    if x ≤ 5 then mn - (mn - md) * (x / 5) else md - (md - mx) * ((x - 5) / 5) := by
  rw [rate_real]
  by_cases h : 5 < x
  · rw [if_pos h, if_neg (not_le.mpr h)]; ring
  · rw [if_neg h, if_pos (not_lt.mp h)]
    by_cases h' : x < 5
    · rw [if_pos h']; ring
    · rw [if_neg h', le_antisymm (not_lt.mp h) (not_lt.mp h')]; ring

theorem adjust_real (m : Modifier) (k : ℚ) (x : ℝ) : Difficulty.adjust m k x = statOf m (k : ℝ) x := by
  unfold Difficulty.adjust statOf
  rw [show Mod.HardRock = Mod.bit 4 from rfl, show Mod.Easy = Mod.bit 1 from rfl]
  simp only [active_iff_has m (by decide : 4 < 63), active_iff_has m (by decide : 1 < 63), decide_eq_true_eq,
    RealArith.fmin, RealArith.mul, RealArith.div, RealArith.lit, mul_comm x]
  norm_num

/-- C110. In exact arithmetic, all values that a difficulty derives from its base stats, mods and custom speed. -/
theorem C110_values (hp cs od ar speed : ℝ) (m : Modifier) (hs : 0 < speed) :
    let d := (DiffInput.mk hp cs od ar m speed).fresh
    let r := speedOf m speed
    d.hpMod = statOf m 1.4 hp ∧
    d.circleRadius = radiusOf (statOf m 1.3 cs) ∧
    d.preempt = preemptOf (statOf m 1.4 ar) ∧
    d.hit300 = 80 - 6 * statOf m 1.4 od ∧
    d.hit100 = 140 - 8 * statOf m 1.4 od ∧
    d.hit50 = 200 - 10 * statOf m 1.4 od ∧
    d.spinnerRatio = spinsOf (statOf m 1.4 od) ∧
    d.speed = r ∧
    (∀ t, d.getModifiedTime t = t / r) ∧
    preemptOf d.arReal = d.preempt / r ∧
    80 - 6 * d.odReal = d.hit300 / r := by
  have hr : 0 < speedOf m speed := by
    unfold speedOf
    refine mul_pos ?_ hs
    split <;> [norm_num; (split <;> norm_num)]
  have ht : ∀ t, Difficulty.modifiedTime m speed t = t / speedOf m speed := by
    intro t
    unfold Difficulty.modifiedTime speedOf
    rw [show Mod.DoubleTime = Mod.bit 6 from rfl, show Mod.HalfTime = Mod.bit 8 from rfl]
    simp only [active_iff_has m (by decide : 6 < 63), active_iff_has m (by decide : 8 < 63), decide_eq_true_eq,
      RealArith.mul, RealArith.div, RealArith.lit]
    split
    · norm_num
    · split
      · norm_num
      · rw [one_mul]
  have e14 : (((1.4 : ℚ)) : ℝ) = 1.4 := by norm_num
  have e13 : (((1.3 : ℚ)) : ℝ) = 1.3 := by norm_num
  simp only
  rw [fresh_eq]
  simp only [Difficulty.calculate, Difficulty.getModifiedTime, ht, adjust_real, e14, e13, RealArith.lit, RealArith.div]
  generalize statOf m 1.4 od = o
  generalize statOf m 1.4 ar = a
  generalize statOf m 1.3 cs = c
  have h300 : difficultyRate o ((80 : ℚ) : ℝ) ((50 : ℚ) : ℝ) ((20 : ℚ) : ℝ) = 80 - 6 * o := by
    rw [rate_line]; split <;> push_cast <;> ring
  have hpre : difficultyRate a ((1800 : ℚ) : ℝ) ((1200 : ℚ) : ℝ) ((450 : ℚ) : ℝ) = preemptOf a := by
    rw [rate_line]; unfold preemptOf; split <;> push_cast <;> ring
  rw [h300, hpre]
  refine ⟨trivial, ?_, rfl, rfl, ?_, ?_, ?_, ?_, fun _ => trivial, ?_, ?_⟩
  · rw [rate_line]; unfold radiusOf; split <;> push_cast <;> ring
  · rw [rate_line]; split <;> push_cast <;> ring
  · rw [rate_line]; split <;> push_cast <;> ring
  · rw [rate_line]; unfold spinsOf; split <;> push_cast <;> ring
  · push_cast; rw [one_div_one_div]
  · rw [inv_real]
    generalize preemptOf a / speedOf m speed = P
    unfold preemptOf
    by_cases h : ((1200 : ℚ) : ℝ) < P
    · rw [if_pos h]
      push_cast at h ⊢
      rw [if_pos (by linarith)]; ring
    · rw [if_neg h]
      push_cast at h ⊢
      by_cases h' : P = 1200
      · subst h'; norm_num
      · have : P < 1200 := lt_of_le_of_ne (not_lt.mp h) h'
        rw [if_neg (by linarith)]; ring
  · rw [inv_real]
    split <;> push_cast <;> ring

/-- AR 9, OD 8 and CS 4 with HardRock and DoubleTime. -/
example : let d := (DiffInput.mk (5 : ℝ) 4 8 9 (Mod.HardRock ||| Mod.DoubleTime) 1).fresh
    d.preempt = 450 ∧ d.hit300 = 20 ∧ d.circleRadius = 54.4 - 4.48 * 5.2 ∧ d.speed = 1.5 ∧ d.odReal = 100 / 9 := by
  have h1 : has (Mod.HardRock ||| Mod.DoubleTime) Mod.HardRock := by decide
  have h2 : ¬ has (Mod.HardRock ||| Mod.DoubleTime) Mod.Easy := by decide
  have h3 : has (Mod.HardRock ||| Mod.DoubleTime) Mod.DoubleTime := by decide
  obtain ⟨-, b, c, e, -, -, -, f, -, -, g⟩ := C110_values 5 4 8 9 1 (Mod.HardRock ||| Mod.DoubleTime) one_pos
  simp only [statOf, speedOf, radiusOf, preemptOf, h1, h2, h3, if_true, if_false] at b c e f g ⊢
  have s1 : min (1.4 * 9 : ℝ) 10 = 10 := min_eq_right (by norm_num)
  have s2 : min (1.4 * 8 : ℝ) 10 = 10 := min_eq_right (by norm_num)
  have s3 : min (1.3 * 4 : ℝ) 10 = 5.2 := by rw [min_eq_left (by norm_num)]; norm_num
  rw [s1] at c
  rw [s2] at e
  rw [s3] at b
  rw [e] at g
  refine ⟨by rw [c]; norm_num, by rw [e]; norm_num, b, by rw [f]; norm_num, ?_⟩
  norm_num at g
  linarith

end GosuPP.Props
