import Verif.Model.Objects
import Verif.Go.Exact

/-!
# Steady maps: what the ratings of a stream of circles should be

Times are in milliseconds on the clock of the player, lengths in osu! pixels.
-/

namespace GosuPP.Spec
open Go

/-- A steady map: circles of which each is `gap` milliseconds after the one before and shown at a distance of
`dist` from it. -/
structure Stream (mods : Modifier) (first gap dist : ℝ) (pos : ℕ → ℝ × ℝ) (objs : List (Obj (Option ℝ) (Option ℝ))) : Prop where
  circle : ∀ o ∈ objs, o.isCircle = true
  time : ∀ (i : ℕ) o, objs[i]? = some o → o.base.startTime = some (first + i * gap)
  place : ∀ (i : ℕ) o, objs[i]? = some o → o.base.getStackedStartPositionMod mods = ⟨some (pos i).1, some (pos i).2⟩
  apart : ∀ i, i + 1 < objs.length → ((pos (i + 1)).1 - (pos i).1) ^ 2 + ((pos (i + 1)).2 - (pos i).2) ^ 2 = dist ^ 2

/-- The length of a jump over `dist` pixels, on the scale on which circles have radius 50; small circles
(radius below 30) make jumps up to 10% longer. -/
noncomputable def jumpLength (radius dist : ℝ) : ℝ :=
  dist * (50 / radius) * (if radius < 30 then 1 + min (30 - radius) 5 / 50 else 1)

/-- The time between two hits as the speed skill sees it: if it is shorter than the window for a 300 it counts
as up to 8% longer. -/
noncomputable def doubletapTime (T window : ℝ) : ℝ := T / min 1 (max 0.92 (T / window / 0.93))

/-- What a hit `T` milliseconds and a jump of length `J` after the previous one adds to the speed strain. -/
noncomputable def speedValue (T J window : ℝ) : ℝ :=
  let T' := doubletapTime T window
  let bonus := if T' < 75 then 1 + 0.75 * ((75 - T') / 40) ^ 2 else 1
  bonus * (1 + (min 125 J / 125) ^ (3.5 : ℝ)) / T'

/-- A strain to which `v` is added `n` times, and that is multiplied by `q` in between. -/
noncomputable def decayed (v q : ℝ) : ℕ → ℝ
  | 0 => 0
  | n + 1 => decayed v q n * q + v

end GosuPP.Spec
