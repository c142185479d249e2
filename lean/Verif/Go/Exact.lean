import Verif.Go.Float
import Mathlib.Analysis.SpecialFunctions.Pow.Real

/-!
# Exact arithmetic with NaN

Real numbers without rounding together with a value that is not a number. Operations on NaN give NaN,
comparisons with it are false, and what would be infinite or undefined (division by zero, the square root of a
negative number) is NaN: there are no infinities. Unlike the instance on `ℝ`, code that uses NaN as a mark (the
angle of a difficulty object) works as in Go.
-/

namespace Go

noncomputable section
open Classical

/-- a function of two numbers that is NaN on NaN -/
def lift2 (f : ℝ → ℝ → ℝ) : Option ℝ → Option ℝ → Option ℝ
  | some x, some y => some (f x y)
  | _, _ => none

/-- a comparison that is false on NaN -/
def cmp2 (p : ℝ → ℝ → Prop) : Option ℝ → Option ℝ → Bool
  | some x, some y => decide (p x y)
  | _, _ => false

instance : GoFloat (Option ℝ) where
  add := lift2 (· + ·)
  sub := lift2 (· - ·)
  mul := lift2 (· * ·)
  div x y := if y = some 0 then none else lift2 (· / ·) x y
  neg x := x.map (-·)
  lt := cmp2 (· < ·)
  le := cmp2 (· ≤ ·)
  eq := cmp2 (· = ·)
  lit q := some q
  ofInt n := some n
  trunc x := match x with
    | some x => if x < 0 then ⌈x⌉ else ⌊x⌋
    | none => 0
  nan := none
  inf _ := none
  isNaN x := x.isNone
  isPosInf _ := false
  isNegInf _ := false
  signbit x := match x with
    | some x => decide (x < 0)
    | none => false
  floor x := x.map fun x => (⌊x⌋ : ℝ)
  ceil x := x.map fun x => (⌈x⌉ : ℝ)
  abs x := x.map fun x => |x|
  sqrt x := x.bind fun x => if x < 0 then none else some (Real.sqrt x)
  fmod x y := if y = some 0 then none
    else lift2 (fun x y => (if x < 0 then -1 else 1) * (|x| - |y| * (⌊|x| / |y|⌋ : ℝ))) x y

/-- In exact arithmetic `float32` and `float64` are the same type. -/
instance : GoConv (Option ℝ) (Option ℝ) where
  up x := x
  down x := x

end

namespace Exact

theorem add (x y : ℝ) : GoFloat.add (some x) (some y) = some (x + y) := rfl
theorem sub (x y : ℝ) : GoFloat.sub (some x) (some y) = some (x - y) := rfl
theorem mul (x y : ℝ) : GoFloat.mul (some x) (some y) = some (x * y) := rfl
theorem neg (x : ℝ) : GoFloat.neg (some x) = some (-x) := rfl
theorem lit (q : ℚ) : (Go.lit q : Option ℝ) = some (q : ℝ) := rfl
theorem ceil (x : ℝ) : GoFloat.ceil (some x) = some (⌈x⌉ : ℝ) := rfl
theorem lt (x y : ℝ) : GoFloat.lt (some x) (some y) = decide (x < y) := rfl
theorem add_left (y : Option ℝ) : GoFloat.add (none : Option ℝ) y = none := rfl
theorem sub_left (y : Option ℝ) : GoFloat.sub (none : Option ℝ) y = none := rfl
theorem mul_left (y : Option ℝ) : GoFloat.mul (none : Option ℝ) y = none := rfl
theorem lt_left (y : Option ℝ) : GoFloat.lt (none : Option ℝ) y = false := rfl
theorem add_right (x : Option ℝ) : GoFloat.add x (none : Option ℝ) = none := by cases x <;> rfl
theorem sub_right (x : Option ℝ) : GoFloat.sub x (none : Option ℝ) = none := by cases x <;> rfl
theorem mul_right (x : Option ℝ) : GoFloat.mul x (none : Option ℝ) = none := by cases x <;> rfl
theorem lt_right (x : Option ℝ) : GoFloat.lt x (none : Option ℝ) = false := by cases x <;> rfl
theorem div_left (y : Option ℝ) : GoFloat.div (none : Option ℝ) y = none := by
  show (if y = some 0 then none else lift2 (· / ·) none y) = none
  split <;> rfl
theorem div (x : ℝ) {y : ℝ} (h : y ≠ 0) : GoFloat.div (some x) (some y) = some (x / y) := by
  show (if (some y : Option ℝ) = some 0 then none else lift2 (· / ·) (some x) (some y)) = _
  rw [if_neg (by simpa using h)]
  rfl
theorem div_zero (x : Option ℝ) : GoFloat.div x (some 0) = none := by
  show (if (some 0 : Option ℝ) = some 0 then none else lift2 (· / ·) x (some 0)) = none
  rw [if_pos rfl]
theorem up (x : Option ℝ) : (Go.up x : Option ℝ) = x := rfl
theorem down (x : Option ℝ) : (Go.down x : Option ℝ) = x := rfl

end Exact
end Go
