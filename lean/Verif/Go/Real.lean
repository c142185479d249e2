import Verif.Go.Float
import Mathlib.Analysis.SpecialFunctions.Pow.Real
import Mathlib.Analysis.SpecialFunctions.Log.Base
import Mathlib.Analysis.SpecialFunctions.Complex.Arg
import Mathlib.Analysis.SpecialFunctions.Trigonometric.Inverse

/-!
# Exact real arithmetic as a Go floating point type

The exact instance: no rounding, no overflow, no NaN and no infinities. A theorem stated for
this instance says what the formulas of the code compute when rounding is ignored.

There is no NaN or infinity in `ℝ`; `nan` and `inf` are given the junk value `0`, and division by
zero gives `0`. Every theorem about the exact instance therefore carries hypotheses that keep
divisors away from zero, and no theorem uses `inf` or `nan` of this instance.
-/

namespace Go

noncomputable section
open Classical

instance : GoFloat ℝ where
  add x y := x + y
  sub x y := x - y
  mul x y := x * y
  div x y := x / y
  neg x := -x
  lt x y := decide (x < y)
  le x y := decide (x ≤ y)
  eq x y := decide (x = y)
  lit q := (q : ℝ)
  ofInt n := (n : ℝ)
  trunc x := if x < 0 then ⌈x⌉ else ⌊x⌋
  nan := 0
  inf _ := 0
  isNaN _ := false
  isPosInf _ := false
  isNegInf _ := false
  signbit x := decide (x < 0)
  floor x := (⌊x⌋ : ℝ)
  ceil x := (⌈x⌉ : ℝ)
  abs x := |x|
  sqrt x := Real.sqrt x
  fmod x y := (if x < 0 then -1 else 1) * (|x| - |y| * (⌊|x| / |y|⌋ : ℝ))

instance : GoLibm ℝ where
  pow x y := x ^ y
  sin := Real.sin
  cos := Real.cos
  acos := Real.arccos
  atan2 y x := Complex.arg ⟨x, y⟩
  log10 x := Real.logb 10 x
  cbrt x := if x < 0 then -((-x) ^ ((1 : ℝ) / 3)) else x ^ ((1 : ℝ) / 3)

/-- In exact arithmetic `float32` and `float64` are the same type. -/
instance : GoConv ℝ ℝ where
  up x := x
  down x := x

end

namespace RealArith

theorem add (x y : ℝ) : GoFloat.add x y = x + y := rfl
theorem sub (x y : ℝ) : GoFloat.sub x y = x - y := rfl
theorem mul (x y : ℝ) : GoFloat.mul x y = x * y := rfl
theorem div (x y : ℝ) : GoFloat.div x y = x / y := rfl
theorem neg (x : ℝ) : GoFloat.neg x = -x := rfl
theorem lt (x y : ℝ) : GoFloat.lt x y = true ↔ x < y := by
  show decide (x < y) = true ↔ _; simp
theorem le (x y : ℝ) : GoFloat.le x y = true ↔ x ≤ y := by
  show decide (x ≤ y) = true ↔ _; simp
theorem eq (x y : ℝ) : GoFloat.eq x y = true ↔ x = y := by
  show decide (x = y) = true ↔ _; simp
theorem lit (q : ℚ) : (Go.lit q : ℝ) = (q : ℝ) := rfl
theorem ofInt (n : Int) : (Go.ofInt n : ℝ) = (n : ℝ) := rfl
theorem floor (x : ℝ) : GoFloat.floor x = (⌊x⌋ : ℝ) := rfl
theorem ceil (x : ℝ) : GoFloat.ceil x = (⌈x⌉ : ℝ) := rfl
theorem abs (x : ℝ) : GoFloat.abs x = |x| := rfl
theorem sqrt (x : ℝ) : GoFloat.sqrt x = Real.sqrt x := rfl
theorem isNaN (x : ℝ) : GoFloat.isNaN x = false := rfl
theorem up (x : ℝ) : (Go.up x : ℝ) = x := rfl
theorem down (x : ℝ) : (Go.down x : ℝ) = x := rfl
theorem pow (x y : ℝ) : GoLibm.pow x y = x ^ y := rfl

theorem fmax (x y : ℝ) : Go.fmax x y = max x y := by
  unfold Go.fmax
  simp only [GoFloat.isPosInf, GoFloat.isNaN, GoFloat.eq, GoFloat.signbit, GoFloat.lt, Bool.or_self,
    Bool.false_eq_true, if_false, GoFloat.lit, Rat.cast_zero, Bool.and_eq_true, decide_eq_true_eq]
  split
  · rename_i h
    rw [← h.2]; split <;> simp
  · split
    · rename_i h; rw [max_eq_left h.le]
    · rename_i h; rw [max_eq_right (not_lt.mp h)]

theorem fmin (x y : ℝ) : Go.fmin x y = min x y := by
  unfold Go.fmin
  simp only [GoFloat.isNegInf, GoFloat.isNaN, GoFloat.eq, GoFloat.signbit, GoFloat.lt, Bool.or_self,
    Bool.false_eq_true, if_false, GoFloat.lit, Rat.cast_zero, Bool.and_eq_true, decide_eq_true_eq]
  split
  · rename_i h
    rw [← h.2]; split <;> simp
  · split
    · rename_i h; rw [min_eq_left h.le]
    · rename_i h; rw [min_eq_right (not_lt.mp h)]

end RealArith
end Go
