import Verif.Spec.Steady
import Mathlib.Analysis.SpecialFunctions.Trigonometric.Basic

/-!
# Steady maps that turn by the same angle at each circle

What the aim strain should be.
-/

namespace GosuPP.Spec
open Go

/-- `math.Pi` of Go, a decimal fraction. -/
noncomputable def goPi : ℝ := (piConst : ℝ)

/-- At each of `n` places the directions back to the place before and on to the next one enclose the angle `θ`: with
`θ = 0` the map jumps back and forth, with `θ = π` it goes straight on. -/
structure Turning (θ dist : ℝ) (pos : ℕ → ℝ × ℝ) (n : ℕ) : Prop where
  nonneg : 0 ≤ θ
  le_pi : θ ≤ Real.pi
  turn : ∀ i, i + 2 < n → ((pos i).1 - (pos (i + 1)).1) * ((pos (i + 2)).1 - (pos (i + 1)).1) +
    ((pos i).2 - (pos (i + 1)).2) * ((pos (i + 2)).2 - (pos (i + 1)).2) = dist ^ 2 * Real.cos θ

/-- How wide an angle is: 0 up to 30°, 1 from 150° on. -/
noncomputable def wideness (θ : ℝ) : ℝ := Real.sin (0.75 * (min (5 / 6 * goPi) (max (goPi / 6) θ) - goPi / 6)) ^ 2

/-- The bonus for wide angles at velocity `v`; repeated wide angles lower it. -/
noncomputable def wideBonus (θ v : ℝ) : ℝ := wideness θ * (v * (1 - wideness θ ^ 3))

/-- The bonus for sharp angles before it is lowered for being repeated: only for jumps `J` above 50 within less than
100 ms. -/
noncomputable def acuteRaw (θ T J : ℝ) : ℝ :=
  if 100 < T then 0 else
    (1 - wideness θ) * ((1 - wideness θ) * min (J / T) (125 / T) * Real.sin (goPi / 2 * min 1 ((100 - T) / 25)) ^ 2 *
      Real.sin (goPi / 2 * (min 100 (max 50 J) - 50) / 50) ^ 2)

/-- The bonus for sharp angles. -/
noncomputable def acuteBonus (θ T J : ℝ) : ℝ :=
  acuteRaw θ T J * (0.5 + 0.5 * (1 - min (acuteRaw θ T J) ((1 - wideness θ) ^ 3)))

/-- What the angle adds to the velocity of a jump. -/
noncomputable def turnBonus (θ T J : ℝ) : ℝ := max (2 * acuteBonus θ T J) (1.5 * wideBonus θ (J / T))

end GosuPP.Spec
