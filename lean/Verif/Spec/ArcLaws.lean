import Mathlib.Analysis.SpecialFunctions.Trigonometric.Basic
import Verif.Go.IEEE

/-! What is assumed of the trigonometric functions for circular arcs. -/

namespace GosuPP.Spec
open Go

/-- `math.Cos` and `math.Sin` are correct to nine decimals between -16 and 16, and `math.Atan2` of finite numbers is at
most pi in magnitude. -/
structure ArcLaws [GoLibm F64] : Prop where
  cos : ∀ (x : ℚ) (z : Bool), |x| ≤ 16 → ∃ (c : ℚ) (b : Bool), GoLibm.cos (.fin x z : F64) = .fin c b ∧ |(c : ℝ) - Real.cos x| ≤ 1 / 2 ^ 30
  sin : ∀ (x : ℚ) (z : Bool), |x| ≤ 16 → ∃ (c : ℚ) (b : Bool), GoLibm.sin (.fin x z : F64) = .fin c b ∧ |(c : ℝ) - Real.sin x| ≤ 1 / 2 ^ 30
  atan2 : ∀ (y x : ℚ) (z w : Bool), ∃ (v : ℚ) (b : Bool), GoLibm.atan2 (.fin y z : F64) (.fin x w) = .fin v b ∧ |(v : ℝ)| ≤ Real.pi

end GosuPP.Spec
