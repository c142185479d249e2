import Verif.Model.DifficultyCalc

/-!
# `performance/osu/pp.go`

Hit counts are Go `int`s; the model uses unbounded integers.
-/

namespace GosuPP
open Go

/-- pp.go:18-20 -/
structure PPv2Results (D : Type) where
  aim : D
  speed : D
  acc : D
  flashlight : D
  total : D

/-- pp.go:23-40 -/
structure PPv2 (D : Type) where
  results : PPv2Results D
  attribs : Attributes D
  scoreMaxCombo : Int
  countGreat : Int
  countOk : Int
  countMeh : Int
  countMiss : Int
  effectiveMissCount : Int
  diff : Difficulty D
  totalHits : Int
  accuracy : D
  amountHitObjectsWithAccuracy : Int

namespace PPv2
variable {D : Type} [GoFloat D]

/-- pp.go:298-313 -/
def calculateEffectiveMissCount (pp : PPv2 D) : Int :=
  let comboBased : D :=
    if pp.attribs.sliders > 0 then
      let fullComboThreshold := ofInt pp.attribs.maxCombo -. lit 0.1 *. ofInt pp.attribs.sliders
      if ofInt pp.scoreMaxCombo <. fullComboThreshold then
        fullComboThreshold /. fmax (lit 1) (ofInt pp.scoreMaxCombo)
      else lit 0
    else lit 0
  let comboBased := fmin comboBased (ofInt pp.totalHits)
  maxI pp.countMiss (trunc (GoFloat.floor comboBased))

variable [GoLibm D]

/-- pp.go:126-129 and 177-180 -/
def lengthBonus (pp : PPv2 D) : D :=
  let b := lit 0.95 +. lit 0.4 *. fmin (lit 1) (ofInt pp.totalHits /. lit 2000)
  if pp.totalHits > 2000 then b +. GoLibm.log10 (ofInt pp.totalHits /. lit 2000) *. lit 0.5 else b

/-- pp.go:140, 191, 279 -/
def comboScaling (pp : PPv2 D) : D :=
  fmin (GoLibm.pow (ofInt pp.scoreMaxCombo) (lit 0.8) /. GoLibm.pow (ofInt pp.attribs.maxCombo) (lit 0.8))
    (lit 1)

/-- pp.go:135, 186, 274: the miss penalty with the given exponent -/
def missPenalty (pp : PPv2 D) (e : D) : D :=
  lit 0.97 *. GoLibm.pow (lit 1 -. GoLibm.pow (ofInt pp.effectiveMissCount /. ofInt pp.totalHits) (lit 0.775)) e

/-- pp.go:116-171 -/
def computeAimValue (pp : PPv2 D) : D :=
  let rawAim := if Modifier.active pp.diff.mods Mod.TouchDevice then
    GoLibm.pow pp.attribs.aim (lit 0.8) else pp.attribs.aim
  let v := ppBase rawAim
  let v := v *. pp.lengthBonus
  let v := if pp.effectiveMissCount > 0 then v *. pp.missPenalty (ofInt pp.effectiveMissCount) else v
  let v := if pp.attribs.maxCombo > 0 then v *. pp.comboScaling else v
  let approachRateFactor :=
    if pp.diff.arReal >. lit 10.33 then lit 0.3 *. (pp.diff.arReal -. lit 10.33)
    else if pp.diff.arReal <. lit 8 then lit 0.1 *. (lit 8 -. pp.diff.arReal)
    else lit 0
  let v := v *. (lit 1 +. approachRateFactor *. pp.lengthBonus)
  let v := if Modifier.active pp.diff.mods Mod.Hidden then
    v *. (lit 1 +. lit 0.04 *. (lit 12 -. pp.diff.arReal)) else v
  let v := if pp.attribs.sliders > 0 then
      let estimateDifficultSliders := ofInt pp.attribs.sliders *. lit 0.15
      let dropped := clampF64 (ofInt (minI (pp.countOk + pp.countMeh + pp.countMiss)
        (pp.attribs.maxCombo - pp.scoreMaxCombo))) (lit 0) estimateDifficultSliders
      v *. ((lit 1 -. pp.attribs.sliderFactor) *.
        GoLibm.pow (lit 1 -. dropped /. estimateDifficultSliders) (lit 3) +. pp.attribs.sliderFactor)
    else v
  let v := v *. pp.accuracy
  v *. (lit 0.98 +. GoLibm.pow pp.diff.odReal (lit 2) /. lit 2500)

/-- pp.go:173-217 -/
def computeSpeedValue (pp : PPv2 D) : D :=
  let v := ppBase pp.attribs.speed
  let v := v *. pp.lengthBonus
  let v := if pp.effectiveMissCount > 0 then
    v *. pp.missPenalty (GoLibm.pow (ofInt pp.effectiveMissCount) (lit 0.875)) else v
  let v := if pp.attribs.maxCombo > 0 then v *. pp.comboScaling else v
  let approachRateFactor :=
    if pp.diff.arReal >. lit 10.33 then lit 0.3 *. (pp.diff.arReal -. lit 10.33) else lit 0
  let v := v *. (lit 1 +. approachRateFactor *. pp.lengthBonus)
  let v := if Modifier.active pp.diff.mods Mod.Hidden then
    v *. (lit 1 +. lit 0.04 *. (lit 12 -. pp.diff.arReal)) else v
  let v := v *. ((lit 0.95 +. GoLibm.pow pp.diff.odReal (lit 2) /. lit 750) *.
    GoLibm.pow pp.accuracy ((lit 14.5 -. fmax pp.diff.odReal (lit 8)) /. lit 2))
  let mehMult :=
    if (ofInt pp.countMeh : D) >=. ofInt pp.totalHits /. lit 500 then
      ofInt pp.countMeh -. ofInt pp.totalHits /. lit 500
    else lit 0
  v *. GoLibm.pow (lit 0.98) mehMult

/-- pp.go:219-252 -/
def computeAccuracyValue (pp : PPv2 D) : D :=
  if Modifier.active pp.diff.mods Mod.Relax then lit 0
  else
    let better : D :=
      if pp.amountHitObjectsWithAccuracy > 0 then
        ofInt ((pp.countGreat - (pp.totalHits - pp.amountHitObjectsWithAccuracy)) * 6 +
          pp.countOk * 2 + pp.countMeh) /. (ofInt pp.amountHitObjectsWithAccuracy *. lit 6)
      else lit 0
    let better := if better <. lit 0 then lit 0 else better
    let v := GoLibm.pow (lit 1.52163) pp.diff.odReal *. GoLibm.pow better (lit 24) *. lit 2.83
    let v := v *. fmin (lit 1.15)
      (GoLibm.pow (ofInt pp.amountHitObjectsWithAccuracy /. lit 1000) (lit 0.3))
    let v := if Modifier.active pp.diff.mods Mod.Hidden then v *. lit 1.08 else v
    if Modifier.active pp.diff.mods Mod.Flashlight then v *. lit 1.02 else v

/-- pp.go:254-296 -/
def computeFlashlightValue (pp : PPv2 D) : D :=
  if !pp.diff.checkModActive Mod.Flashlight then lit 0
  else
    let raw := if pp.diff.checkModActive Mod.TouchDevice then
      GoLibm.pow pp.attribs.flashlight (lit 0.8) else pp.attribs.flashlight
    let v := GoLibm.pow raw (lit 2) *. lit 25
    let v := if pp.diff.checkModActive Mod.Hidden then v *. lit 1.3 else v
    let v := if pp.effectiveMissCount > 0 then
      v *. pp.missPenalty (GoLibm.pow (ofInt pp.effectiveMissCount) (lit 0.875)) else v
    let v := if pp.attribs.maxCombo > 0 then v *. pp.comboScaling else v
    let scale := lit 0.7 +. lit 0.1 *. fmin (lit 1) (ofInt pp.totalHits /. lit 200)
    let scale := if pp.totalHits > 200 then
      scale +. lit 0.2 *. fmin (lit 1) (ofInt (pp.totalHits - 200) /. lit 200) else scale
    let v := v *. scale
    let v := v *. (lit 0.5 +. pp.accuracy /. lit 2)
    v *. (lit 0.98 +. GoLibm.pow pp.diff.odReal (lit 2) /. lit 2500)

/-- pp.go:43-82 -/
def setup (pp : PPv2 D) (attribs : Attributes D) (combo n300 n100 n50 nmiss : Int)
    (diff : Difficulty D) : PPv2 D :=
  let attribs := { attribs with maxCombo := maxI 1 attribs.maxCombo }
  let combo := if combo < 0 then attribs.maxCombo else combo
  let n300 := if n300 < 0 then attribs.objectCount - n100 - n50 - nmiss else n300
  let totalhits := n300 + n100 + n50 + nmiss
  let pp := { pp with
    attribs, diff, totalHits := totalhits, scoreMaxCombo := combo, countGreat := n300
    countOk := n100, countMeh := n50, countMiss := nmiss }
  let pp := { pp with effectiveMissCount := pp.calculateEffectiveMissCount }
  let pp := { pp with
    accuracy :=
      if totalhits = 0 then lit 0
      else clampF64 ((ofInt n50 *. lit 50 +. ofInt n100 *. lit 100 +. ofInt n300 *. lit 300) /.
        (ofInt totalhits *. lit 300)) (lit 0) (lit 1) }
  { pp with amountHitObjectsWithAccuracy :=
      if diff.checkModActive Mod.ScoreV2 then attribs.objectCount else attribs.circles }

/-- pp.go:86-99: the multiplier -/
def finalMultiplier (pp : PPv2 D) : D :=
  let m : D := lit 1.12
  let m := if Modifier.active pp.diff.mods Mod.NoFail then
    m *. fmax (lit 0.9) (lit 1 -. lit 0.02 *. ofInt pp.effectiveMissCount) else m
  let m := if pp.totalHits > 0 ∧ Modifier.active pp.diff.mods Mod.SpunOut = true then
    m *. (lit 1 -. GoLibm.pow (ofInt pp.attribs.spinners /. ofInt pp.totalHits) (lit 0.85)) else m
  if Modifier.active pp.diff.mods Mod.Relax then m *. lit 0.6 else m

/-- pp.go:96-97: Relax counts 100s and 50s as misses -/
def relaxMisses (pp : PPv2 D) : PPv2 D :=
  if Modifier.active pp.diff.mods Mod.Relax then
    { pp with
      effectiveMissCount := minI (pp.effectiveMissCount + pp.countOk + pp.countMeh) pp.totalHits }
  else pp

/-- pp.go:106-111 -/
def total (aim speed acc flashlight multiplier : D) : D :=
  GoLibm.pow (GoLibm.pow aim (lit 1.1) +. GoLibm.pow speed (lit 1.1) +. GoLibm.pow acc (lit 1.1) +.
    GoLibm.pow flashlight (lit 1.1)) (lit (1 / 1.1)) *. multiplier

/-- pp.go:42-114; the result is both the returned copy and the new value of the receiver -/
def ppv2x (pp : PPv2 D) (attribs : Attributes D) (combo n300 n100 n50 nmiss : Int)
    (diff : Difficulty D) : PPv2 D :=
  let pp := pp.setup attribs combo n300 n100 n50 nmiss diff
  let multiplier := pp.finalMultiplier
  let pp := pp.relaxMisses
  let pp := { pp with results := { pp.results with aim := pp.computeAimValue } }
  let pp := { pp with results := { pp.results with speed := pp.computeSpeedValue } }
  let pp := { pp with results := { pp.results with acc := pp.computeAccuracyValue } }
  let pp := { pp with results := { pp.results with flashlight := pp.computeFlashlightValue } }
  { pp with results := { pp.results with
      total := total pp.results.aim pp.results.speed pp.results.acc pp.results.flashlight multiplier } }

end PPv2
end GosuPP
