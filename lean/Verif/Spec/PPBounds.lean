import Verif.Model.PP
import Verif.Go.IEEE
import Verif.Lemmas.IEEE

/-!
# Plays with ordinary numbers, and laws of the library functions
-/

namespace GosuPP.Spec
open Go

/-- `lo ≤ x ≤ hi`; in particular `x` is not a NaN. -/
def Within (lo hi : ℚ) (x : F64) : Prop := ((lit lo : F64) <=. x) = true ∧ (x <=. (lit hi : F64)) = true

/-- What is assumed of `math.Pow` and `math.Log10`: bounds between powers of two, which the
exact functions respect. -/
structure PowLaws [GoLibm F64] : Prop where
  /-- powers of numbers between 0 and 1 stay there -/
  unit : ∀ x y : F64, Within 0 1 x → ((lit 0 : F64) <=. y) = true → Within 0 1 (GoLibm.pow x y)
  /-- powers of numbers up to `2 ^ k` with exponents up to `m` are at most `2 ^ (k * m)` -/
  large : ∀ (x y : F64) (k m : ℕ), k * m ≤ 1000 → Within 1 (2 ^ k) x → (y <=. (lit m : F64)) = true →
    Within 0 (2 ^ (k * m)) (GoLibm.pow x y)
  /-- powers of numbers from 1 on stay there -/
  root : ∀ x y : F64, ((lit 1 : F64) <=. x) = true → ((lit 0 : F64) <=. y) = true →
    ((lit 1 : F64) <=. (GoLibm.pow x y : F64)) = true
  /-- squares of numbers between `-2 ^ k` and `2 ^ k` -/
  square : ∀ (x : F64) (k : ℕ), k ≤ 500 → Within (-(2 ^ k)) (2 ^ k) x → Within 0 (2 ^ (2 * k)) (GoLibm.pow x (lit 2))
  /-- logarithms of numbers between 1 and `2 ^ 53` -/
  log : ∀ x : F64, Within 1 (2 ^ 53) x → Within 0 16 (GoLibm.log10 x)

/-- The number of 300s of a play; a negative argument stands for whatever makes the hits add up to the number of
objects. -/
def greats (a : Attributes F64) (n300 n100 n50 nmiss : Int) : Int :=
  if n300 < 0 then a.objectCount - n100 - n50 - nmiss else n300

/-- A play of ordinary size: counts are not negative and at most `2 ^ 50`, with SpunOut
there are no more spinners than objects judged (if any), ratings are not negative and at most `2 ^ 80` (flashlight `2 ^ 104`),
the slider factor is a double and at most `2 ^ 96`, effective AR and OD are between -4096 and 14. -/
structure OrdinaryPlay (a : Attributes F64) (d : Difficulty F64) (combo n300 n100 n50 nmiss : Int) : Prop where
  n300_range : 0 ≤ greats a n300 n100 n50 nmiss ∧ greats a n300 n100 n50 nmiss ≤ 2 ^ 50
  n100_range : 0 ≤ n100 ∧ n100 ≤ 2 ^ 50
  n50_range : 0 ≤ n50 ∧ n50 ≤ 2 ^ 50
  nmiss_range : 0 ≤ nmiss ∧ nmiss ≤ 2 ^ 50
  combo_range : combo ≤ 2 ^ 50
  circles : 0 ≤ a.circles ∧ a.circles ≤ 2 ^ 50
  objects : 0 ≤ a.objectCount ∧ a.objectCount ≤ 2 ^ 50
  sliders : 0 ≤ a.sliders ∧ a.sliders ≤ 2 ^ 50
  spinners : 0 ≤ a.spinners ∧ (Modifier.active d.mods Mod.SpunOut = true → 0 < greats a n300 n100 n50 nmiss + n100 + n50 + nmiss →
    a.spinners ≤ greats a n300 n100 n50 nmiss + n100 + n50 + nmiss)
  maxCombo : 0 ≤ a.maxCombo ∧ a.maxCombo ≤ 2 ^ 50
  aim : Within 0 (2 ^ 80) a.aim
  speed : Within 0 (2 ^ 80) a.speed
  flashlight : Within 0 (2 ^ 104) a.flashlight
  sliderFactor : Fl.WF a.sliderFactor ∧ Within 0 (2 ^ 96) a.sliderFactor
  ar : Within (-4096) 14 d.arReal
  od : Within (-4096) 14 d.odReal

/-- A finite number that is not negative (not a NaN, not infinite). -/
def FiniteNonneg (x : F64) : Prop := ((lit 0 : F64) <=. x) = true ∧ (x <. (Fl.inf false : F64)) = true

end GosuPP.Spec
