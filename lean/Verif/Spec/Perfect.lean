import Verif.Spec.PP

/-!
# What a perfect play is worth, and what mistakes cost

In exact arithmetic.
-/

namespace GosuPP.Spec
open Go

/-- Performance points for a rating, before any bonus. -/
noncomputable def baseValue (stars : ℝ) : ℝ := (5 * max 1 (stars / 0.0675) - 4) ^ 3 / 100000

/-- Longer maps are worth more: up to 2000 objects linearly, then with the logarithm. -/
noncomputable def lengthFactor (n : ℝ) : ℝ := if n ≤ 2000 then 0.95 + n / 5000 else 1.35 + Real.logb 10 (n / 2000) / 2

/-- The rating that counts: TouchDevice lowers it. -/
noncomputable def touched (d : Difficulty ℝ) (x : ℝ) : ℝ := if d.mods.active Mod.TouchDevice = true then x ^ (0.8 : ℝ) else x

/-- Hidden is worth more at a low AR. -/
noncomputable def hiddenFactor (d : Difficulty ℝ) : ℝ := if d.mods.active Mod.Hidden = true then 1.48 - 0.04 * d.arReal else 1

/-- High AR. -/
noncomputable def highAR (d : Difficulty ℝ) : ℝ := 0.3 * max 0 (d.arReal - 10.33)

/-- Low AR. -/
noncomputable def lowAR (d : Difficulty ℝ) : ℝ := 0.1 * max 0 (8 - d.arReal)

/-- Maps of up to 400 objects are worth less with Flashlight. -/
noncomputable def flashlightLength (n : ℝ) : ℝ := if n ≤ 200 then 0.7 + n / 2000 else min 1 (0.8 + (n - 200) / 1000)

/-- The number of objects that count for accuracy. -/
noncomputable def timed (a : Attributes ℝ) (d : Difficulty ℝ) : ℤ :=
  if d.mods.active Mod.ScoreV2 = true then a.objectCount else a.circles

/-- The components of a perfect play of `n` objects. -/
noncomputable def perfectAim (a : Attributes ℝ) (d : Difficulty ℝ) (n : ℝ) : ℝ :=
  baseValue (touched d a.aim) * lengthFactor n * (1 + (highAR d + lowAR d) * lengthFactor n) * hiddenFactor d *
    (0.98 + d.odReal ^ 2 / 2500)

@[inherit_doc perfectAim] noncomputable def perfectSpeed (a : Attributes ℝ) (d : Difficulty ℝ) (n : ℝ) : ℝ :=
  baseValue a.speed * lengthFactor n * (1 + highAR d * lengthFactor n) * hiddenFactor d * (0.95 + d.odReal ^ 2 / 750)

@[inherit_doc perfectAim] noncomputable def perfectAccuracy (a : Attributes ℝ) (d : Difficulty ℝ) : ℝ :=
  if d.mods.active Mod.Relax = true then 0 else
    2.83 * (1.52163 : ℝ) ^ d.odReal * min 1.15 (((timed a d : ℝ) / 1000) ^ (0.3 : ℝ)) *
      (if d.mods.active Mod.Hidden = true then 1.08 else 1) * (if d.mods.active Mod.Flashlight = true then 1.02 else 1)

@[inherit_doc perfectAim] noncomputable def perfectFlashlight (a : Attributes ℝ) (d : Difficulty ℝ) (n : ℝ) : ℝ :=
  if d.mods.active Mod.Flashlight = true then
    25 * touched d a.flashlight ^ 2 * (if d.mods.active Mod.Hidden = true then 1.3 else 1) * flashlightLength n *
      (0.98 + d.odReal ^ 2 / 2500)
  else 0

/-- The combination of the components. -/
noncomputable def combined (aim speed acc flashlight : ℝ) : ℝ :=
  (aim ^ (1.1 : ℝ) + speed ^ (1.1 : ℝ) + acc ^ (1.1 : ℝ) + flashlight ^ (1.1 : ℝ)) ^ (1 / 1.1 : ℝ)

/-- What mods do to the total of a play of `n` objects with `misses` misses. -/
noncomputable def modFactor (a : Attributes ℝ) (d : Difficulty ℝ) (n misses : ℝ) : ℝ :=
  (if d.mods.active Mod.NoFail = true then max 0.9 (1 - 0.02 * misses) else 1) *
    (if d.mods.active Mod.SpunOut = true then 1 - ((a.spinners : ℝ) / n) ^ (0.85 : ℝ) else 1) *
    (if d.mods.active Mod.Relax = true then 0.6 else 1)

/-- The share of the value left after `m` misses among `n` objects, where misses count `e`. -/
noncomputable def missShare (m : ℤ) (n e : ℝ) : ℝ := if m ≤ 0 then 1 else 0.97 * (1 - ((m : ℝ) / n) ^ (0.775 : ℝ)) ^ e

/-- The share left for the combo. -/
noncomputable def comboShare (a : Attributes ℝ) (combo : ℤ) : ℝ := min 1 ((combo : ℝ) / max 1 (a.maxCombo : ℝ)) ^ (0.8 : ℝ)

/-- Misses guessed from the combo, for maps with sliders: a combo above nine tenths of what sliders give counts as full. -/
noncomputable def guessedMisses (a : Attributes ℝ) (combo : ℤ) (n : ℤ) : ℤ :=
  let full : ℝ := max 1 (a.maxCombo : ℝ) - a.sliders / 10
  if 0 < a.sliders ∧ (combo : ℝ) < full then ⌊min (full / max 1 (combo : ℝ)) n⌋ else 0

/-- The misses that count: with Relax also 100s and 50s. -/
noncomputable def countedMisses (a : Attributes ℝ) (d : Difficulty ℝ) (combo n300 n100 n50 nmiss : ℤ) : ℤ :=
  let n := n300 + n100 + n50 + nmiss
  let m := max nmiss (guessedMisses a combo n)
  if d.mods.active Mod.Relax = true then min (m + n100 + n50) n else m

/-- Accuracy of a play. -/
noncomputable def accuracyShare (n300 n100 n50 nmiss : ℤ) : ℝ :=
  (n300 + n100 / 3 + n50 / 6 : ℝ) / (n300 + n100 + n50 + nmiss : ℝ)

/-- The share left for slider ends that were dropped: at most 15% of the sliders count as difficult, and without
slider ends the map has the aim of a map without sliders. -/
noncomputable def sliderShare (a : Attributes ℝ) (combo n100 n50 nmiss : ℤ) : ℝ :=
  if 0 < a.sliders then
    let dropped : ℝ := min (0.15 * a.sliders) (max 0 (min ((n100 + n50 + nmiss : ℤ) : ℝ) (max 1 (a.maxCombo : ℝ) - combo)))
    a.sliderFactor + (1 - a.sliderFactor) * (1 - dropped / (0.15 * a.sliders)) ^ 3
  else 1

/-- The accuracy of a play on the objects that count for accuracy, if the others were hit with 300. -/
noncomputable def timedAccuracy (a : Attributes ℝ) (d : Difficulty ℝ) (n300 n100 n50 nmiss : ℤ) : ℝ :=
  max 0 ((n300 - (n300 + n100 + n50 + nmiss - timed a d) + n100 / 3 + n50 / 6) / timed a d : ℝ)

end GosuPP.Spec
