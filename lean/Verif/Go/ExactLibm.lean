import Verif.Go.Exact
import Verif.Model.Utils
import Mathlib.Analysis.SpecialFunctions.Complex.Arg
import Mathlib.Analysis.SpecialFunctions.Log.Base
import Mathlib.Analysis.SpecialFunctions.Trigonometric.Inverse

/-!
# The library functions in exact arithmetic
-/

namespace Go

/-- The functions of the real numbers as library functions. -/
@[instance_reducible] noncomputable def exactLibm : GoLibm (Option ℝ) where
  pow := lift2 (· ^ ·)
  sin := Option.map Real.sin
  cos := Option.map Real.cos
  acos := Option.map Real.arccos
  atan2 := lift2 fun y x => Complex.arg ⟨x, y⟩
  log10 := Option.map (Real.logb 10)
  cbrt := Option.map fun x => if x < 0 then -((-x) ^ ((1 : ℝ) / 3)) else x ^ ((1 : ℝ) / 3)

namespace Exact
attribute [local instance] exactLibm

theorem ofInt (n : ℤ) : (Go.ofInt n : Option ℝ) = some (n : ℝ) := rfl
theorem le (x y : ℝ) : GoFloat.le (some x) (some y) = decide (x ≤ y) := rfl
theorem eq (x y : ℝ) : GoFloat.eq (some x) (some y) = decide (x = y) := rfl
theorem abs (x : ℝ) : GoFloat.abs (some x) = some |x| := rfl
theorem isNaN (x : ℝ) : GoFloat.isNaN (some x) = false := rfl
theorem sqrt {x : ℝ} (h : 0 ≤ x) : GoFloat.sqrt (some x) = some (Real.sqrt x) := by
  show (if x < 0 then none else some (Real.sqrt x)) = _
  rw [if_neg (not_lt.mpr h)]
theorem pow (x y : ℝ) : GoLibm.pow (some x) (some y) = some (x ^ y) := rfl
theorem sin (x : ℝ) : GoLibm.sin (some x) = some (Real.sin x) := rfl
theorem atan2 (y x : ℝ) : GoLibm.atan2 (some y) (some x) = some (Complex.arg ⟨x, y⟩) := rfl
theorem log10 (x : ℝ) : GoLibm.log10 (some x) = some (Real.logb 10 x) := rfl
theorem cbrt {x : ℝ} (h : 0 ≤ x) : GoLibm.cbrt (some x) = some (x ^ ((1 : ℝ) / 3)) := by
  show some (if x < 0 then -((-x) ^ ((1 : ℝ) / 3)) else x ^ ((1 : ℝ) / 3)) = _
  rw [if_neg (not_lt.mpr h)]

theorem fmax (x y : ℝ) : Go.fmax (some x) (some y) = some (max x y) := by
  unfold Go.fmax
  simp only [GoFloat.isPosInf, isNaN, eq, lt, lit, GoFloat.signbit, Bool.or_self, Bool.false_eq_true, if_false,
    Rat.cast_zero, Bool.and_eq_true, decide_eq_true_eq]
  split
  · rename_i h
    rw [← h.2, max_self]; split <;> rfl
  · split
    · rename_i h; rw [max_eq_left h.le]
    · rename_i h; rw [max_eq_right (not_lt.mp h)]

theorem fmin (x y : ℝ) : Go.fmin (some x) (some y) = some (min x y) := by
  unfold Go.fmin
  simp only [GoFloat.isNegInf, isNaN, eq, lt, lit, GoFloat.signbit, Bool.or_self, Bool.false_eq_true, if_false,
    Rat.cast_zero, Bool.and_eq_true, decide_eq_true_eq]
  split
  · rename_i h
    rw [← h.2, min_self]; split <;> rfl
  · split
    · rename_i h; rw [min_eq_left h.le]
    · rename_i h; rw [min_eq_right (not_lt.mp h)]

theorem clamp (x a b : ℝ) : GosuPP.clampF64 (some x) (some a) (some b) = some (min b (max a x)) := by
  unfold GosuPP.clampF64
  rw [fmax, fmin]

end Exact
end Go
