import Mathlib.Data.Real.Basic
import Verif.Spec.Mods

/-! Specification of the values that a difficulty derives from its base stats. -/

namespace GosuPP.Spec
open GosuPP

/-- A stat under HardRock, which raises it `k` times but not above 10, and Easy, which halves it. -/
noncomputable def statOf (m : Modifier) (k x : ℝ) : ℝ :=
  let y := if has m Mod.HardRock then min (k * x) 10 else x
  if has m Mod.Easy then y / 2 else y

/-- Milliseconds for which an object is visible before it has to be hit. -/
noncomputable def preemptOf (ar : ℝ) : ℝ := if ar ≤ 5 then 1800 - 120 * ar else 1950 - 150 * ar

/-- Spins per second that clear a spinner. -/
noncomputable def spinsOf (od : ℝ) : ℝ := if od ≤ 5 then 3 + 0.4 * od else 2.5 + 0.5 * od

/-- Radius of a circle in osu! pixels. -/
noncomputable def radiusOf (cs : ℝ) : ℝ := 54.4 - 4.48 * cs

/-- How much faster the map is played. -/
noncomputable def speedOf (m : Modifier) (speed : ℝ) : ℝ :=
  (if has m Mod.DoubleTime then 1.5 else if has m Mod.HalfTime then 0.75 else 1) * speed

end GosuPP.Spec
