import Verif.Lemmas.PPReal
import Verif.Lemmas.ModScore
import Verif.Spec.StarInputs

/-!
# Performance points of the same play under other mods
-/

namespace GosuPP
open Go

theorem active_or (m : Modifier) {i j : Nat} (hj : j < 63) (h : j ≠ i) :
    Modifier.active (m ||| Mod.bit i) (Mod.bit j) = Modifier.active m (Mod.bit j) := by
  rw [active_bit _ hj, active_bit _ hj, BitVec.getLsbD_or, bit_getLsbD]
  simp [h]

theorem active_or_self (m : Modifier) {i : Nat} (hi : i < 63) :
    Modifier.active (m ||| Mod.bit i) (Mod.bit i) = true := by
  rw [active_bit _ hi, BitVec.getLsbD_or, bit_getLsbD]
  simp [show i < 64 by omega]

/-- Two difficulties that performance points tell apart at most by the mods. -/
structure SameRates {D : Type} (d d' : Difficulty D) : Prop where
  ar : d'.arReal = d.arReal
  od : d'.odReal = d.odReal

section
variable {D : Type} [GoFloat D]

theorem sameRates (d : Difficulty D) {m m' : Modifier}
    (hez : Modifier.active m' Mod.Easy = Modifier.active m Mod.Easy)
    (hhr : Modifier.active m' Mod.HardRock = Modifier.active m Mod.HardRock)
    (hdt : Modifier.active m' Mod.DoubleTime = Modifier.active m Mod.DoubleTime)
    (hht : Modifier.active m' Mod.HalfTime = Modifier.active m Mod.HalfTime) :
    SameRates (d.setMods m) (d.setMods m') := by
  have ha : ∀ k (x : D), Difficulty.adjust m' k x = Difficulty.adjust m k x := by
    intro k x
    unfold Difficulty.adjust
    rw [hez, hhr]
  have ht : ∀ x : D, Difficulty.modifiedTime m' d.customSpeed x = Difficulty.modifiedTime m d.customSpeed x := by
    intro x
    unfold Difficulty.modifiedTime
    rw [hdt, hht]
  constructor
  · show diffFromRate (Difficulty.modifiedTime m' d.customSpeed (difficultyRate (Difficulty.adjust m' 1.4 d.ar) _ _ _)) _ _ _ = _
    rw [ht, ha]; rfl
  · show diffFromRate (Difficulty.modifiedTime m' d.customSpeed (difficultyRate (Difficulty.adjust m' 1.4 d.od) _ _ _)) _ _ _ = _
    rw [ht, ha]; rfl

/-- Adding one mod other than the four that change rates. -/
theorem sameRates_or (d : Difficulty D) (m : Modifier) {i : Nat} (h1 : i ≠ 1) (h4 : i ≠ 4) (h6 : i ≠ 6) (h8 : i ≠ 8) :
    SameRates (d.setMods m) (d.setMods (m ||| Mod.bit i)) :=
  sameRates d (active_or m (j := 1) (by decide) h1.symm) (active_or m (j := 4) (by decide) h4.symm)
    (active_or m (j := 6) (by decide) h6.symm) (active_or m (j := 8) (by decide) h8.symm)

namespace PPv2
variable [GoLibm D]

/-- Values that only read the difficulty's rates and two mods. -/
theorem aim_congr (p : PPv2 D) {d : Difficulty D} (h : SameRates p.diff d)
    (htd : Modifier.active d.mods Mod.TouchDevice = Modifier.active p.diff.mods Mod.TouchDevice)
    (hhd : Modifier.active d.mods Mod.Hidden = Modifier.active p.diff.mods Mod.Hidden) :
    ({ p with diff := d } : PPv2 D).computeAimValue = p.computeAimValue := by
  unfold computeAimValue
  simp only [h.ar, h.od, htd, hhd]
  rfl

theorem speed_congr (p : PPv2 D) {d : Difficulty D} (h : SameRates p.diff d)
    (hhd : Modifier.active d.mods Mod.Hidden = Modifier.active p.diff.mods Mod.Hidden) :
    ({ p with diff := d } : PPv2 D).computeSpeedValue = p.computeSpeedValue := by
  unfold computeSpeedValue
  simp only [h.ar, h.od, hhd]
  rfl

theorem acc_congr (p : PPv2 D) {d : Difficulty D} (h : SameRates p.diff d)
    (hrx : Modifier.active d.mods Mod.Relax = Modifier.active p.diff.mods Mod.Relax)
    (hhd : Modifier.active d.mods Mod.Hidden = Modifier.active p.diff.mods Mod.Hidden)
    (hfl : Modifier.active d.mods Mod.Flashlight = Modifier.active p.diff.mods Mod.Flashlight) :
    ({ p with diff := d } : PPv2 D).computeAccuracyValue = p.computeAccuracyValue := by
  unfold computeAccuracyValue
  simp only [h.od, hrx, hhd, hfl]

theorem fl_congr (p : PPv2 D) {d : Difficulty D} (h : SameRates p.diff d)
    (htd : Modifier.active d.mods Mod.TouchDevice = Modifier.active p.diff.mods Mod.TouchDevice)
    (hhd : Modifier.active d.mods Mod.Hidden = Modifier.active p.diff.mods Mod.Hidden)
    (hfl : Modifier.active d.mods Mod.Flashlight = Modifier.active p.diff.mods Mod.Flashlight) :
    ({ p with diff := d } : PPv2 D).computeFlashlightValue = p.computeFlashlightValue := by
  unfold computeFlashlightValue Difficulty.checkModActive
  simp only [h.od, htd, hhd, hfl]
  rfl

theorem setup_congr (pp : PPv2 D) (a : Attributes D) (combo n300 n100 n50 nmiss : Int) {d d' : Difficulty D}
    (hv2 : Modifier.active d'.mods Mod.ScoreV2 = Modifier.active d.mods Mod.ScoreV2) :
    pp.setup a combo n300 n100 n50 nmiss d' = { pp.setup a combo n300 n100 n50 nmiss d with diff := d' } := by
  unfold setup Difficulty.checkModActive
  simp only [hv2]
  rfl

theorem relax_congr (p : PPv2 D) {d : Difficulty D}
    (hrx : Modifier.active d.mods Mod.Relax = Modifier.active p.diff.mods Mod.Relax) :
    ({ p with diff := d } : PPv2 D).relaxMisses = { p.relaxMisses with diff := d } := by
  unfold relaxMisses
  simp only [hrx]
  split <;> rfl

theorem relax_diff (p : PPv2 D) : p.relaxMisses.diff = p.diff := by
  unfold relaxMisses; split <;> rfl

/-- The play after its misses were counted, in any arithmetic. -/
def play (pp : PPv2 D) (a : Attributes D) (combo n300 n100 n50 nmiss : Int) (d : Difficulty D) : PPv2 D :=
  (pp.setup a combo n300 n100 n50 nmiss d).relaxMisses

theorem play_diff (pp : PPv2 D) (a : Attributes D) (combo n300 n100 n50 nmiss : Int) (d : Difficulty D) :
    (pp.play a combo n300 n100 n50 nmiss d).diff = d := relax_diff _

theorem play_congr (pp : PPv2 D) (a : Attributes D) (combo n300 n100 n50 nmiss : Int) {d d' : Difficulty D}
    (hv2 : Modifier.active d'.mods Mod.ScoreV2 = Modifier.active d.mods Mod.ScoreV2)
    (hrx : Modifier.active d'.mods Mod.Relax = Modifier.active d.mods Mod.Relax) :
    pp.play a combo n300 n100 n50 nmiss d' = { pp.play a combo n300 n100 n50 nmiss d with diff := d' } := by
  unfold play
  rw [setup_congr pp a combo n300 n100 n50 nmiss hv2]
  exact relax_congr _ hrx

theorem results_eq (pp : PPv2 D) (a : Attributes D) (combo n300 n100 n50 nmiss : Int) (d : Difficulty D) :
    let p := pp.play a combo n300 n100 n50 nmiss d
    (pp.ppv2x a combo n300 n100 n50 nmiss d).results =
      ⟨p.computeAimValue, p.computeSpeedValue, p.computeAccuracyValue, p.computeFlashlightValue,
        PPv2.total p.computeAimValue p.computeSpeedValue p.computeAccuracyValue p.computeFlashlightValue
          (pp.setup a combo n300 n100 n50 nmiss d).finalMultiplier⟩ := rfl

theorem mult_congr (p : PPv2 D) {d : Difficulty D}
    (hnf : Modifier.active d.mods Mod.NoFail = Modifier.active p.diff.mods Mod.NoFail)
    (hso : Modifier.active d.mods Mod.SpunOut = Modifier.active p.diff.mods Mod.SpunOut)
    (hrx : Modifier.active d.mods Mod.Relax = Modifier.active p.diff.mods Mod.Relax) :
    ({ p with diff := d } : PPv2 D).finalMultiplier = p.finalMultiplier := by
  unfold finalMultiplier
  simp only [hnf, hso, hrx]

/-- Nothing else of the difficulty is read. -/
theorem results_congr (pp : PPv2 D) (a : Attributes D) (combo n300 n100 n50 nmiss : Int) {d d' : Difficulty D}
    (hr : SameRates d d')
    (hnf : Modifier.active d'.mods Mod.NoFail = Modifier.active d.mods Mod.NoFail)
    (htd : Modifier.active d'.mods Mod.TouchDevice = Modifier.active d.mods Mod.TouchDevice)
    (hhd : Modifier.active d'.mods Mod.Hidden = Modifier.active d.mods Mod.Hidden)
    (hrx : Modifier.active d'.mods Mod.Relax = Modifier.active d.mods Mod.Relax)
    (hfl : Modifier.active d'.mods Mod.Flashlight = Modifier.active d.mods Mod.Flashlight)
    (hso : Modifier.active d'.mods Mod.SpunOut = Modifier.active d.mods Mod.SpunOut)
    (hv2 : Modifier.active d'.mods Mod.ScoreV2 = Modifier.active d.mods Mod.ScoreV2) :
    (pp.ppv2x a combo n300 n100 n50 nmiss d').results = (pp.ppv2x a combo n300 n100 n50 nmiss d).results := by
  have hm : (pp.setup a combo n300 n100 n50 nmiss d').finalMultiplier =
      (pp.setup a combo n300 n100 n50 nmiss d).finalMultiplier := by
    rw [setup_congr pp a combo n300 n100 n50 nmiss hv2]
    exact mult_congr _ hnf hso hrx
  rw [results_eq, results_eq, hm, play_congr pp a combo n300 n100 n50 nmiss hv2 hrx]
  have hd := play_diff pp a combo n300 n100 n50 nmiss d
  generalize pp.play a combo n300 n100 n50 nmiss d = p at hd ⊢
  subst hd
  simp only [aim_congr p hr htd hhd, speed_congr p hr hhd, acc_congr p hr hrx hhd hfl, fl_congr p hr htd hhd hfl]

/-- Mods that change neither the rates, the counting of hits nor the multiplier. -/
theorem results_added (pp : PPv2 D) (a : Attributes D) (combo n300 n100 n50 nmiss : Int) {d d' : Difficulty D}
    (hnf : Modifier.active d'.mods Mod.NoFail = Modifier.active d.mods Mod.NoFail)
    (hrx : Modifier.active d'.mods Mod.Relax = Modifier.active d.mods Mod.Relax)
    (hso : Modifier.active d'.mods Mod.SpunOut = Modifier.active d.mods Mod.SpunOut)
    (hv2 : Modifier.active d'.mods Mod.ScoreV2 = Modifier.active d.mods Mod.ScoreV2) :
    let q : PPv2 D := { pp.play a combo n300 n100 n50 nmiss d with diff := d' }
    (pp.ppv2x a combo n300 n100 n50 nmiss d').results =
      ⟨q.computeAimValue, q.computeSpeedValue, q.computeAccuracyValue, q.computeFlashlightValue,
        PPv2.total q.computeAimValue q.computeSpeedValue q.computeAccuracyValue q.computeFlashlightValue
          (pp.setup a combo n300 n100 n50 nmiss d).finalMultiplier⟩ := by
  have hm : (pp.setup a combo n300 n100 n50 nmiss d').finalMultiplier =
      (pp.setup a combo n300 n100 n50 nmiss d).finalMultiplier := by
    rw [setup_congr pp a combo n300 n100 n50 nmiss hv2]
    exact mult_congr _ hnf hso hrx
  rw [results_eq, hm, play_congr pp a combo n300 n100 n50 nmiss hv2 hrx]

end PPv2
end

namespace PPv2

theorem counted_eq (pp : PPv2 ℝ) (a : Attributes ℝ) (combo n300 n100 n50 nmiss : Int) (d : Difficulty ℝ) :
    pp.counted a combo n300 n100 n50 nmiss d = pp.play a combo n300 n100 n50 nmiss d := rfl

/-- The factor of Hidden in aim and speed PP. -/
noncomputable def hiddenFactor (d : Difficulty ℝ) : ℝ := 1 + 0.04 * (12 - d.arReal)

private theorem hidden_lit (x : ℝ) : (lit 1 +. lit 0.04 *. (lit 12 -. x) : ℝ) = 1 + 0.04 * (12 - x) := by
  simp only [RealArith.mul, RealArith.add, RealArith.sub, RealArith.lit]
  norm_num

theorem aim_hidden (p : PPv2 ℝ) {d : Difficulty ℝ} (h : SameRates p.diff d)
    (htd : Modifier.active d.mods Mod.TouchDevice = Modifier.active p.diff.mods Mod.TouchDevice)
    (off : Modifier.active p.diff.mods Mod.Hidden = false) (on : Modifier.active d.mods Mod.Hidden = true) :
    ({ p with diff := d } : PPv2 ℝ).computeAimValue = p.computeAimValue * hiddenFactor p.diff := by
  unfold computeAimValue hiddenFactor
  have l : ({ p with diff := d } : PPv2 ℝ).lengthBonus = p.lengthBonus := rfl
  have c : ({ p with diff := d } : PPv2 ℝ).comboScaling = p.comboScaling := rfl
  have m : ({ p with diff := d } : PPv2 ℝ).missPenalty = p.missPenalty := rfl
  simp only [h.ar, h.od, htd, off, on, if_true, Bool.false_eq_true, if_false, hidden_lit, l, c, m]
  simp only [RealArith.mul]
  split <;> ring

theorem speed_hidden (p : PPv2 ℝ) {d : Difficulty ℝ} (h : SameRates p.diff d)
    (off : Modifier.active p.diff.mods Mod.Hidden = false) (on : Modifier.active d.mods Mod.Hidden = true) :
    ({ p with diff := d } : PPv2 ℝ).computeSpeedValue = p.computeSpeedValue * hiddenFactor p.diff := by
  unfold computeSpeedValue hiddenFactor
  have l : ({ p with diff := d } : PPv2 ℝ).lengthBonus = p.lengthBonus := rfl
  have c : ({ p with diff := d } : PPv2 ℝ).comboScaling = p.comboScaling := rfl
  have m : ({ p with diff := d } : PPv2 ℝ).missPenalty = p.missPenalty := rfl
  simp only [h.ar, h.od, off, on, if_true, Bool.false_eq_true, if_false, hidden_lit, l, c, m]
  simp only [RealArith.mul]
  ring

theorem acc_hidden (p : PPv2 ℝ) {d : Difficulty ℝ} (h : SameRates p.diff d)
    (hrx : Modifier.active d.mods Mod.Relax = Modifier.active p.diff.mods Mod.Relax)
    (hfl : Modifier.active d.mods Mod.Flashlight = Modifier.active p.diff.mods Mod.Flashlight)
    (off : Modifier.active p.diff.mods Mod.Hidden = false) (on : Modifier.active d.mods Mod.Hidden = true) :
    ({ p with diff := d } : PPv2 ℝ).computeAccuracyValue = p.computeAccuracyValue * 1.08 := by
  unfold computeAccuracyValue
  have e : (lit 1.08 : ℝ) = 1.08 := by simp only [RealArith.lit]; norm_num
  have z : (lit 0 : ℝ) = 0 := by simp [RealArith.lit]
  simp only [h.od, hrx, hfl, off, on, if_true, Bool.false_eq_true, if_false, e, z, RealArith.mul]
  split
  · rw [zero_mul]
  · split <;> ring

theorem acc_flashlight (p : PPv2 ℝ) {d : Difficulty ℝ} (h : SameRates p.diff d)
    (hrx : Modifier.active d.mods Mod.Relax = Modifier.active p.diff.mods Mod.Relax)
    (hhd : Modifier.active d.mods Mod.Hidden = Modifier.active p.diff.mods Mod.Hidden)
    (off : Modifier.active p.diff.mods Mod.Flashlight = false) (on : Modifier.active d.mods Mod.Flashlight = true) :
    ({ p with diff := d } : PPv2 ℝ).computeAccuracyValue = p.computeAccuracyValue * 1.02 := by
  unfold computeAccuracyValue
  have e : (lit 1.02 : ℝ) = 1.02 := by simp only [RealArith.lit]; norm_num
  have z : (lit 0 : ℝ) = 0 := by simp [RealArith.lit]
  simp only [h.od, hrx, hhd, off, on, if_true, Bool.false_eq_true, if_false, e, z, RealArith.mul]
  split
  · rw [zero_mul]
  · rfl

theorem fl_hidden (p : PPv2 ℝ) {d : Difficulty ℝ} (h : SameRates p.diff d)
    (htd : Modifier.active d.mods Mod.TouchDevice = Modifier.active p.diff.mods Mod.TouchDevice)
    (hfl : Modifier.active d.mods Mod.Flashlight = Modifier.active p.diff.mods Mod.Flashlight)
    (off : Modifier.active p.diff.mods Mod.Hidden = false) (on : Modifier.active d.mods Mod.Hidden = true) :
    ({ p with diff := d } : PPv2 ℝ).computeFlashlightValue = p.computeFlashlightValue * 1.3 := by
  unfold computeFlashlightValue Difficulty.checkModActive
  have c : ({ p with diff := d } : PPv2 ℝ).comboScaling = p.comboScaling := rfl
  have m : ({ p with diff := d } : PPv2 ℝ).missPenalty = p.missPenalty := rfl
  have e : (lit 1.3 : ℝ) = 1.3 := by simp only [RealArith.lit]; norm_num
  have z : (lit 0 : ℝ) = 0 := by simp [RealArith.lit]
  simp only [h.od, htd, hfl, off, on, if_true, Bool.false_eq_true, if_false, e, z, c, m]
  cases Modifier.active p.diff.mods Mod.Flashlight
  · simp
  · simp only [Bool.not_true, Bool.false_eq_true, if_false, RealArith.mul]
    split <;> split <;> ring

/-- Aim PP after the base value. -/
noncomputable def aimTail (pp : PPv2 ℝ) (v : ℝ) : ℝ :=
  let v := v *. pp.lengthBonus
  let v := if pp.effectiveMissCount > 0 then v *. pp.missPenalty (ofInt pp.effectiveMissCount) else v
  let v := if pp.attribs.maxCombo > 0 then v *. pp.comboScaling else v
  let approachRateFactor :=
    if pp.diff.arReal >. lit 10.33 then lit 0.3 *. (pp.diff.arReal -. lit 10.33)
    else if pp.diff.arReal <. lit 8 then lit 0.1 *. (lit 8 -. pp.diff.arReal)
    else lit 0
  let v := v *. (lit 1 +. approachRateFactor *. pp.lengthBonus)
  let v := if Modifier.active pp.diff.mods Mod.Hidden then
    v *. (lit 1 +. lit 0.04 *. (lit 12 -. pp.diff.arReal)) else v
  let v := if pp.attribs.sliders > 0 then
      let estimateDifficultSliders := ofInt pp.attribs.sliders *. lit 0.15
      let dropped := clampF64 (ofInt (minI (pp.countOk + pp.countMeh + pp.countMiss)
        (pp.attribs.maxCombo - pp.scoreMaxCombo))) (lit 0) estimateDifficultSliders
      v *. ((lit 1 -. pp.attribs.sliderFactor) *.
        GoLibm.pow (lit 1 -. dropped /. estimateDifficultSliders) (lit 3) +. pp.attribs.sliderFactor)
    else v
  let v := v *. pp.accuracy
  v *. (lit 0.98 +. GoLibm.pow pp.diff.odReal (lit 2) /. lit 2500)

private theorem if_mul_one {c : Prop} [Decidable c] (v k : ℝ) :
    (if c then v * k else v) = v * (if c then k else 1) := by
  split
  · rfl
  · rw [mul_one]

theorem aimTail_linear (p : PPv2 ℝ) (v : ℝ) : p.aimTail v = v * p.aimTail 1 := by
  unfold aimTail
  simp only [RealArith.mul, if_mul_one]
  ring

theorem aim_tail (p : PPv2 ℝ) : p.computeAimValue =
    ppBase (if Modifier.active p.diff.mods Mod.TouchDevice = true then p.attribs.aim ^ (0.8 : ℝ) else p.attribs.aim) *
      p.aimTail 1 := by
  rw [← aimTail_linear]
  have e : (GoLibm.pow p.attribs.aim (lit 0.8) : ℝ) = p.attribs.aim ^ (0.8 : ℝ) := by
    simp only [RealArith.pow, RealArith.lit]; norm_num
  rw [← e]
  rfl

theorem aimTail_congr (p : PPv2 ℝ) {d : Difficulty ℝ} (h : SameRates p.diff d)
    (hhd : Modifier.active d.mods Mod.Hidden = Modifier.active p.diff.mods Mod.Hidden) (v : ℝ) :
    ({ p with diff := d } : PPv2 ℝ).aimTail v = p.aimTail v := by
  unfold aimTail
  simp only [h.ar, h.od, hhd]
  rfl

theorem aimTail_nonneg {p : PPv2 ℝ} (h : 0 ≤ p.computeAimValue) : 0 ≤ p.aimTail 1 := by
  rw [aim_tail] at h
  exact nonneg_of_mul_nonneg_right h (ppBase_pos _)

/-- Flashlight PP after the base value. -/
noncomputable def flTail (pp : PPv2 ℝ) (v : ℝ) : ℝ :=
  let v := v *. lit 25
  let v := if pp.diff.checkModActive Mod.Hidden then v *. lit 1.3 else v
  let v := if pp.effectiveMissCount > 0 then
    v *. pp.missPenalty (GoLibm.pow (ofInt pp.effectiveMissCount) (lit 0.875)) else v
  let v := if pp.attribs.maxCombo > 0 then v *. pp.comboScaling else v
  let scale := lit 0.7 +. lit 0.1 *. fmin (lit 1) (ofInt pp.totalHits /. lit 200)
  let scale := if pp.totalHits > 200 then
    scale +. lit 0.2 *. fmin (lit 1) (ofInt (pp.totalHits - 200) /. lit 200) else scale
  let v := v *. scale
  let v := v *. (lit 0.5 +. pp.accuracy /. lit 2)
  v *. (lit 0.98 +. GoLibm.pow pp.diff.odReal (lit 2) /. lit 2500)

theorem flTail_linear (p : PPv2 ℝ) (v : ℝ) : p.flTail v = v * p.flTail 1 := by
  unfold flTail
  simp only [RealArith.mul, if_mul_one]
  ring

theorem fl_tail (p : PPv2 ℝ) : p.computeFlashlightValue =
    if Modifier.active p.diff.mods Mod.Flashlight = true then
      (if Modifier.active p.diff.mods Mod.TouchDevice = true then p.attribs.flashlight ^ (0.8 : ℝ)
        else p.attribs.flashlight) ^ (2 : ℝ) * p.flTail 1
    else 0 := by
  unfold computeFlashlightValue Difficulty.checkModActive
  cases Modifier.active p.diff.mods Mod.Flashlight
  · simp [RealArith.lit]
  · simp only [Bool.not_true, Bool.false_eq_true, if_false, if_true]
    rw [← flTail_linear]
    have e : (GoLibm.pow p.attribs.flashlight (lit 0.8) : ℝ) = p.attribs.flashlight ^ (0.8 : ℝ) := by
      simp only [RealArith.pow, RealArith.lit]; norm_num
    have e2 : ∀ x : ℝ, GoLibm.pow x (lit 2 : ℝ) = x ^ (2 : ℝ) := by
      intro x; simp only [RealArith.pow, RealArith.lit]; norm_num
    rw [← e, ← e2]
    rfl

theorem flTail_congr (p : PPv2 ℝ) {d : Difficulty ℝ} (h : SameRates p.diff d)
    (hhd : Modifier.active d.mods Mod.Hidden = Modifier.active p.diff.mods Mod.Hidden) (v : ℝ) :
    ({ p with diff := d } : PPv2 ℝ).flTail v = p.flTail v := by
  unfold flTail Difficulty.checkModActive
  simp only [h.od, hhd]
  rfl

/-- Relax on top of a play without it: more misses, nothing else that aim, speed and flashlight read. -/
theorem relax_added (pp : PPv2 ℝ) (a : Attributes ℝ) {combo n300 n100 n50 nmiss : Int} {d d' : Difficulty ℝ}
    (hc : 0 ≤ combo) (h : Spec.ValidPlay a d n300 n100 n50 nmiss) (hr : SameRates d d')
    (hnf : Modifier.active d'.mods Mod.NoFail = Modifier.active d.mods Mod.NoFail)
    (htd : Modifier.active d'.mods Mod.TouchDevice = Modifier.active d.mods Mod.TouchDevice)
    (hhd : Modifier.active d'.mods Mod.Hidden = Modifier.active d.mods Mod.Hidden)
    (hfl : Modifier.active d'.mods Mod.Flashlight = Modifier.active d.mods Mod.Flashlight)
    (hso : Modifier.active d'.mods Mod.SpunOut = Modifier.active d.mods Mod.SpunOut)
    (hv2 : Modifier.active d'.mods Mod.ScoreV2 = Modifier.active d.mods Mod.ScoreV2)
    (off : Modifier.active d.mods Mod.Relax = false) (on : Modifier.active d'.mods Mod.Relax = true) :
    let r := (pp.ppv2x a combo n300 n100 n50 nmiss d).results
    let r' := (pp.ppv2x a combo n300 n100 n50 nmiss d').results
    Ord r'.aim r.aim ∧ Ord r'.speed r.speed ∧ r'.acc = 0 ∧ Ord r'.flashlight r.flashlight ∧
      (pp.setup a combo n300 n100 n50 nmiss d').finalMultiplier =
        (pp.setup a combo n300 n100 n50 nmiss d).finalMultiplier * 0.6 := by
  intro r r'
  have sane := counted_sane pp hc h
  have hs := setup_congr pp a combo n300 n100 n50 nmiss hv2
  have hsd : (pp.setup a combo n300 n100 n50 nmiss d).diff = d := rfl
  have f := counted_fields pp a d hc h.n300_nonneg h.total
  simp only [r, r']
  rw [results_eq, results_eq]
  unfold counted at sane f
  unfold play
  rw [hs]
  generalize pp.setup a combo n300 n100 n50 nmiss d = s at sane hsd f ⊢
  have e0 : s.relaxMisses = s := by
    unfold relaxMisses; rw [if_neg (by rw [hsd, off]; decide)]
  rw [e0] at sane f ⊢
  have e1 : ({ s with diff := d' } : PPv2 ℝ).relaxMisses =
      { ({ s with effectiveMissCount := minI (s.effectiveMissCount + s.countOk + s.countMeh) s.totalHits } : PPv2 ℝ) with diff := d' } := by
    unfold relaxMisses; rw [if_pos on]
  rw [e1]
  have h5 : 0 ≤ s.countOk := by rw [f.2.2.2.2.1]; exact h.n100_nonneg
  have h6 : 0 ≤ s.countMeh := by rw [f.2.2.2.2.2.1]; exact h.n50_nonneg
  have m0 := sane.miss0
  have m1 := sane.miss1
  have hq : Sane { s with effectiveMissCount := minI (s.effectiveMissCount + s.countOk + s.countMeh) s.totalHits } := by
    refine { sane with miss0 := ?_, miss1 := ?_ }
    · simp only [minI_eq]; omega
    · simp only [minI_eq]; omega
  have hw : Worse { s with effectiveMissCount := minI (s.effectiveMissCount + s.countOk + s.countMeh) s.totalHits } s := by
    refine ⟨rfl, rfl, rfl, rfl, rfl, rfl, le_rfl, le_rfl, le_rfl, ?_, le_rfl, le_rfl, le_rfl, .inl rfl, le_rfl⟩
    simp only [minI_eq]; omega
  rw [← hsd] at hr hnf htd hhd hfl hso hv2 off
  refine ⟨?_, ?_, ?_, ?_, ?_⟩
  · rw [show _ = _ from aim_congr { s with effectiveMissCount := minI (s.effectiveMissCount + s.countOk + s.countMeh) s.totalHits } hr htd hhd]
    exact aim_ord hq sane hw
  · rw [show _ = _ from speed_congr { s with effectiveMissCount := minI (s.effectiveMissCount + s.countOk + s.countMeh) s.totalHits } hr hhd]
    exact speed_ord hq sane hw le_rfl
  · unfold computeAccuracyValue
    simp only [on, if_true, RealArith.lit]
    norm_num
  · rw [show _ = _ from fl_congr { s with effectiveMissCount := minI (s.effectiveMissCount + s.countOk + s.countMeh) s.totalHits } hr htd hhd hfl]
    exact flashlight_ord hq sane hw
  · unfold finalMultiplier
    have e : (lit 0.6 : ℝ) = 0.6 := by simp only [RealArith.lit]; norm_num
    simp only [hnf, hso, on, off, if_true, Bool.false_eq_true, if_false, e]
    rfl

/-- Flashlight PP is not negative whatever the rating. -/
theorem flTail_nonneg {p : PPv2 ℝ} (hp : Sane p) (on : Modifier.active p.diff.mods Mod.Flashlight = true) :
    0 ≤ p.flTail 1 := by
  have hs : Sane { p with attribs := { p.attribs with flashlight := 1 } } := { hp with flashlight := by norm_num }
  have := (flashlight_ord hs hs ⟨rfl, rfl, rfl, rfl, rfl, rfl, le_rfl, le_rfl, le_rfl, le_rfl, le_rfl, le_rfl, le_rfl, .inl rfl, le_rfl⟩).1
  rw [fl_tail] at this
  simp only [on, if_true] at this
  have e : (if Modifier.active p.diff.mods Mod.TouchDevice = true then (1 : ℝ) ^ (0.8 : ℝ) else 1) ^ (2 : ℝ) = 1 := by
    split <;> simp
  rw [e, one_mul] at this
  exact this

end PPv2
end GosuPP
