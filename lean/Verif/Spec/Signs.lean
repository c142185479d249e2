import Verif.Spec.DiffObjects
import Verif.Go.IEEE

/-!
# Signs of the library functions
-/

namespace GosuPP.Spec
open Go

/-- `x` is at most `a`, or not a number. -/
def AtMost {F : Type} [GoFloat F] (a x : F) : Prop := GoFloat.isNaN x = true ∨ (x <=. a) = true

/-- What the sign theorems assume of `math.Pow` and `math.Sin`: facts about the sign of powers that
hold of the documented functions. -/
structure LibmSigns [GoLibm F64] : Prop where
  /-- squares are not negative -/
  square : ∀ x : F64, AtLeast (lit 0) (GoLibm.pow x (lit 2) : F64)
  /-- the square of a sine is at most 1 -/
  sine : ∀ x : F64, AtMost (lit 1) (GoLibm.pow (GoLibm.sin x) (lit 2) : F64)
  /-- positive powers of nonnegative numbers are not negative -/
  power : ∀ (x : F64) (q : ℚ), 0 < q → AtLeast (lit 0) x → AtLeast (lit 0) (GoLibm.pow x (lit q) : F64)
  /-- the third power of a number between 0 and 1 is at most 1 -/
  cube : ∀ x : F64, AtLeast (lit 0) x → AtMost (lit 1) x → AtMost (lit 1) (GoLibm.pow x (lit 3) : F64)
  /-- powers of positive numbers are not negative -/
  decay : ∀ (q : ℚ) (y : F64), 0 < q → AtLeast (lit 0) (GoLibm.pow (lit q) y : F64)
  /-- `math.Pow(x, 0.4)` is never negative, it is NaN for negative `x` -/
  root : ∀ x : F64, AtLeast (lit 0) (GoLibm.pow x (lit (1 / 2.5)) : F64)

end GosuPP.Spec
