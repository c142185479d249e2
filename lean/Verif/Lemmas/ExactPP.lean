import Verif.Go.ExactLibm
import Verif.Lemmas.PPReal

/-!
# Performance points with undefined numbers

`Option ℝ` knows undefined numbers, `ℝ` does not. On defined numbers, and where no divisor is zero, the performance points agree.
-/

namespace GosuPP.PPv2
open Go
attribute [local instance] exactLibm

/-! ### Operations on defined numbers -/

theorem lit_some (q : ℚ) : (lit q : Option ℝ) = some (lit q : ℝ) := rfl
theorem ofInt_some (n : ℤ) : (ofInt n : Option ℝ) = some (ofInt n : ℝ) := rfl
theorem add_some (x y : ℝ) : GoFloat.add (some x) (some y) = some (GoFloat.add x y) := rfl
theorem sub_some (x y : ℝ) : GoFloat.sub (some x) (some y) = some (GoFloat.sub x y) := rfl
theorem mul_some (x y : ℝ) : GoFloat.mul (some x) (some y) = some (GoFloat.mul x y) := rfl
theorem div_some (x : ℝ) {y : ℝ} (h : y ≠ 0) : GoFloat.div (some x) (some y) = some (GoFloat.div x y) := Exact.div x h
theorem lt_some (x y : ℝ) : GoFloat.lt (some x) (some y) = GoFloat.lt x y := rfl
theorem le_some (x y : ℝ) : GoFloat.le (some x) (some y) = GoFloat.le x y := rfl
theorem pow_some (x y : ℝ) : GoLibm.pow (some x) (some y) = some (GoLibm.pow x y) := rfl
theorem log_some (x : ℝ) : GoLibm.log10 (some x) = some (GoLibm.log10 x) := rfl
theorem floor_some (x : ℝ) : GoFloat.floor (some x) = some (GoFloat.floor x) := rfl
theorem trunc_some (x : ℝ) : GoFloat.trunc (some x) = GoFloat.trunc x := rfl
theorem fmin_some (x y : ℝ) : fmin (some x) (some y) = some (fmin x y) := by rw [Exact.fmin, RealArith.fmin]
theorem fmax_some (x y : ℝ) : fmax (some x) (some y) = some (fmax x y) := by rw [Exact.fmax, RealArith.fmax]
theorem clamp_some (x a b : ℝ) : clampF64 (some x) (some a) (some b) = some (clampF64 x a b) := by
  unfold clampF64
  rw [fmax_some, fmin_some]
theorem ite_some (c : Prop) [Decidable c] (x y : ℝ) : (if c then some x else some y) = some (if c then x else y) := (apply_ite some _ _ _).symm

theorem lit_ne {q : ℚ} (h : q ≠ 0) : (lit q : ℝ) ≠ 0 := by rw [RealArith.lit]; exact_mod_cast h
theorem ofInt_ne {n : ℤ} (h : n ≠ 0) : (ofInt n : ℝ) ≠ 0 := by rw [RealArith.ofInt]; exact_mod_cast h

theorem div_lit (x : ℝ) {q : ℚ} (h : q ≠ 0) : GoFloat.div (some x) (some (lit q : ℝ)) = some (GoFloat.div x (lit q)) := div_some x (lit_ne h)

/-- The same play, once with and once without undefined numbers. -/
structure Alike (p : PPv2 (Option ℝ)) (q : PPv2 ℝ) : Prop where
  aim : p.attribs.aim = some q.attribs.aim
  speed : p.attribs.speed = some q.attribs.speed
  flashlight : p.attribs.flashlight = some q.attribs.flashlight
  sliderFactor : p.attribs.sliderFactor = some q.attribs.sliderFactor
  sliders : p.attribs.sliders = q.attribs.sliders
  spinners : p.attribs.spinners = q.attribs.spinners
  maxCombo : p.attribs.maxCombo = q.attribs.maxCombo
  combo : p.scoreMaxCombo = q.scoreMaxCombo
  great : p.countGreat = q.countGreat
  ok : p.countOk = q.countOk
  meh : p.countMeh = q.countMeh
  miss : p.countMiss = q.countMiss
  misses : p.effectiveMissCount = q.effectiveMissCount
  mods : p.diff.mods = q.diff.mods
  ar : p.diff.arReal = some q.diff.arReal
  od : p.diff.odReal = some q.diff.odReal
  total : p.totalHits = q.totalHits
  accuracy : p.accuracy = some q.accuracy
  amount : p.amountHitObjectsWithAccuracy = q.amountHitObjectsWithAccuracy

section
variable {p : PPv2 (Option ℝ)} {q : PPv2 ℝ}

theorem ppBase_some (x : ℝ) : ppBase (some x) = some (ppBase x) := by
  unfold ppBase
  simp only [lit_some, div_lit x (show (0.0675 : ℚ) ≠ 0 by norm_num), fmax_some, mul_some, sub_some, pow_some,
    div_lit _ (show (100000 : ℚ) ≠ 0 by norm_num)]

theorem lengthBonus_some (h : Alike p q) : p.lengthBonus = some q.lengthBonus := by
  unfold lengthBonus
  simp only [h.total, lit_some, ofInt_some, div_lit _ (show (2000 : ℚ) ≠ 0 by norm_num), fmin_some, mul_some, add_some, log_some, ite_some]

theorem comboScaling_some (h : Alike p q) (hc : 0 < q.attribs.maxCombo) : p.comboScaling = some q.comboScaling := by
  unfold comboScaling
  have h0 : (GoLibm.pow (ofInt q.attribs.maxCombo) (lit 0.8) : ℝ) ≠ 0 := by
    rw [RealArith.pow, RealArith.ofInt]
    exact (Real.rpow_pos_of_pos (by exact_mod_cast hc) _).ne'
  simp only [h.combo, h.maxCombo, lit_some, ofInt_some, pow_some, div_some _ h0, fmin_some]

theorem missPenalty_some (h : Alike p q) (ht : q.totalHits ≠ 0) (e : ℝ) : p.missPenalty (some e) = some (q.missPenalty e) := by
  unfold missPenalty
  simp only [h.misses, h.total, lit_some, ofInt_some, div_some _ (ofInt_ne ht), pow_some, sub_some, mul_some]

theorem aim_some (h : Alike p q) (hc : 0 < q.attribs.maxCombo) (ht : q.totalHits ≠ 0) : p.computeAimValue = some q.computeAimValue := by
  have hs : 0 < q.attribs.sliders → (GoFloat.mul (ofInt q.attribs.sliders) (lit 0.15) : ℝ) ≠ 0 := fun h =>
    mul_ne_zero (ofInt_ne h.ne') (lit_ne (by norm_num))
  unfold computeAimValue
  simp only [h.mods, h.aim, h.misses, h.maxCombo, h.ar, h.sliders, h.ok, h.meh, h.miss, h.combo, h.sliderFactor, h.accuracy, h.od,
    lengthBonus_some h, comboScaling_some h hc, missPenalty_some h ht, lit_some, ofInt_some, pow_some, ite_some, ppBase_some, mul_some,
    sub_some, add_some, lt_some, clamp_some, div_lit _ (show (2500 : ℚ) ≠ 0 by norm_num)]
  by_cases h0 : q.attribs.sliders > 0
  · simp only [if_pos h0, div_some _ (hs h0), pow_some, mul_some, sub_some, add_some]
  · simp only [if_neg h0, mul_some]

theorem speed_some (h : Alike p q) (hc : 0 < q.attribs.maxCombo) (ht : q.totalHits ≠ 0) : p.computeSpeedValue = some q.computeSpeedValue := by
  unfold computeSpeedValue
  simp only [h.mods, h.speed, h.misses, h.maxCombo, h.ar, h.meh, h.total, h.combo, h.accuracy, h.od,
    lengthBonus_some h, comboScaling_some h hc, missPenalty_some h ht, lit_some, ofInt_some, pow_some, ite_some, ppBase_some, mul_some,
    sub_some, add_some, lt_some, le_some, fmax_some, div_lit _ (show (750 : ℚ) ≠ 0 by norm_num), div_lit _ (show (2 : ℚ) ≠ 0 by norm_num),
    div_lit _ (show (500 : ℚ) ≠ 0 by norm_num)]

theorem accuracy_some (h : Alike p q) : p.computeAccuracyValue = some q.computeAccuracyValue := by
  unfold computeAccuracyValue
  have hs : 0 < q.amountHitObjectsWithAccuracy → (GoFloat.mul (ofInt q.amountHitObjectsWithAccuracy) (lit 6) : ℝ) ≠ 0 := fun h =>
    mul_ne_zero (ofInt_ne h.ne') (lit_ne (by norm_num))
  simp only [h.mods, h.amount, h.great, h.total, h.ok, h.meh, h.od, lit_some, ofInt_some, mul_some]
  by_cases h0 : q.amountHitObjectsWithAccuracy > 0
  · simp only [if_pos h0, div_some _ (hs h0), lt_some, ite_some, pow_some, mul_some, fmin_some, div_lit _ (show (1000 : ℚ) ≠ 0 by norm_num)]
  · simp only [if_neg h0, lt_some, ite_some, pow_some, mul_some, fmin_some, div_lit _ (show (1000 : ℚ) ≠ 0 by norm_num)]

theorem flashlight_some (h : Alike p q) (hc : 0 < q.attribs.maxCombo) (ht : q.totalHits ≠ 0) :
    p.computeFlashlightValue = some q.computeFlashlightValue := by
  unfold computeFlashlightValue
  have hm : ∀ m, p.diff.checkModActive m = q.diff.checkModActive m := fun m => by
    unfold Difficulty.checkModActive
    rw [h.mods]
  simp only [hm, h.flashlight, h.misses, h.maxCombo, h.total, h.accuracy, h.od,
    comboScaling_some h hc, missPenalty_some h ht, lit_some, ofInt_some, pow_some, ite_some, mul_some,
    add_some, fmin_some, div_lit _ (show (200 : ℚ) ≠ 0 by norm_num), div_lit _ (show (2 : ℚ) ≠ 0 by norm_num),
    div_lit _ (show (2500 : ℚ) ≠ 0 by norm_num)]

theorem multiplier_some (h : Alike p q) : p.finalMultiplier = some q.finalMultiplier := by
  unfold finalMultiplier
  simp only [h.mods, h.misses, h.total, h.spinners, lit_some, ofInt_some, mul_some, sub_some, fmax_some]
  by_cases h0 : q.totalHits > 0 ∧ Modifier.active q.diff.mods Mod.SpunOut = true
  · simp only [if_pos h0, div_some _ (ofInt_ne h0.1.ne'), pow_some, mul_some, sub_some, ite_some]
  · simp only [if_neg h0, mul_some, ite_some]

theorem total_some (a s c f m : ℝ) : total (some a) (some s) (some c) (some f) (some m) = some (total a s c f m) := by
  unfold total
  simp only [lit_some, pow_some, add_some, mul_some]

theorem misses_some (h : Alike p q) : p.calculateEffectiveMissCount = q.calculateEffectiveMissCount := by
  unfold calculateEffectiveMissCount
  have hm : ∀ z : ℝ, (fmax (lit 1) z : ℝ) ≠ 0 := fun z => by
    rw [RealArith.fmax, RealArith.lit]
    have : (1 : ℝ) ≤ max ((1 : ℚ) : ℝ) z := by push_cast; exact le_max_left _ _
    linarith
  simp only [h.sliders, h.maxCombo, h.combo, h.total, h.miss, lit_some, ofInt_some, mul_some, sub_some, fmax_some, lt_some,
    div_some _ (hm _), ite_some, fmin_some, floor_some, trunc_some]

theorem relax_some (h : Alike p q) : Alike p.relaxMisses q.relaxMisses := by
  unfold relaxMisses
  rw [h.mods]
  split
  · exact { h with misses := by show minI _ _ = minI _ _; rw [h.misses, h.ok, h.meh, h.total] }
  · exact h

end

/-- The same map, once with and once without undefined numbers. -/
structure AlikeMap (a : Attributes (Option ℝ)) (b : Attributes ℝ) : Prop where
  aim : a.aim = some b.aim
  speed : a.speed = some b.speed
  flashlight : a.flashlight = some b.flashlight
  sliderFactor : a.sliderFactor = some b.sliderFactor
  objects : a.objectCount = b.objectCount
  circles : a.circles = b.circles
  sliders : a.sliders = b.sliders
  spinners : a.spinners = b.spinners
  maxCombo : a.maxCombo = b.maxCombo

/-- The same difficulty, once with and once without undefined numbers. -/
structure AlikeDiff (d : Difficulty (Option ℝ)) (e : Difficulty ℝ) : Prop where
  mods : d.mods = e.mods
  ar : d.arReal = some e.arReal
  od : d.odReal = some e.odReal

theorem setup_some (pp : PPv2 (Option ℝ)) (qq : PPv2 ℝ) {a : Attributes (Option ℝ)} {b : Attributes ℝ} {d : Difficulty (Option ℝ)}
    {e : Difficulty ℝ} (ha : AlikeMap a b) (hd : AlikeDiff d e) (combo n300 n100 n50 nmiss : ℤ) :
    Alike (pp.setup a combo n300 n100 n50 nmiss d) (qq.setup b combo n300 n100 n50 nmiss e) := by
  have hm : ∀ m, d.checkModActive m = e.checkModActive m := fun m => by
    unfold Difficulty.checkModActive
    rw [hd.mods]
  have g : (if n300 < 0 then a.objectCount - n100 - n50 - nmiss else n300) = if n300 < 0 then b.objectCount - n100 - n50 - nmiss else n300 := by
    rw [ha.objects]
  have hne : ∀ k : ℤ, k ≠ 0 → (GoFloat.mul (ofInt k) (lit 300) : ℝ) ≠ 0 := fun k hk => mul_ne_zero (ofInt_ne hk) (lit_ne (by norm_num))
  have base : Alike
      { (pp.setup a combo n300 n100 n50 nmiss d) with effectiveMissCount := 0 } { (qq.setup b combo n300 n100 n50 nmiss e) with effectiveMissCount := 0 } := {
    aim := ha.aim
    speed := ha.speed
    flashlight := ha.flashlight
    sliderFactor := ha.sliderFactor
    sliders := ha.sliders
    spinners := ha.spinners
    maxCombo := congrArg (maxI 1) ha.maxCombo
    combo := by
      show (if combo < 0 then maxI 1 a.maxCombo else combo) = if combo < 0 then maxI 1 b.maxCombo else combo
      rw [ha.maxCombo]
    great := g
    ok := rfl
    meh := rfl
    miss := rfl
    misses := rfl
    mods := hd.mods
    ar := hd.ar
    od := hd.od
    total := congrArg (· + n100 + n50 + nmiss) g
    accuracy := by
      unfold setup
      simp only [g, lit_some, ofInt_some, mul_some, add_some]
      generalize (if n300 < 0 then b.objectCount - n100 - n50 - nmiss else n300) = m
      by_cases h0 : m + n100 + n50 + nmiss = 0
      · rw [if_pos h0, if_pos h0]
      · rw [if_neg h0, if_neg h0, div_some _ (hne _ h0), clamp_some]
    amount := by
      unfold setup
      simp only [hm, ha.objects, ha.circles] }
  have hmis := misses_some base
  exact { base with misses := hmis }

/-- Performance points of a map and a difficulty with defined numbers are those of `ℝ`. -/
theorem ppv2x_some (pp : PPv2 (Option ℝ)) (qq : PPv2 ℝ) {a : Attributes (Option ℝ)} {b : Attributes ℝ} {d : Difficulty (Option ℝ)}
    {e : Difficulty ℝ} (ha : AlikeMap a b) (hd : AlikeDiff d e) {combo n300 n100 n50 nmiss : ℤ} (h3 : 0 ≤ n300)
    (ht : 0 < n300 + n100 + n50 + nmiss) :
    let r := (qq.ppv2x b combo n300 n100 n50 nmiss e).results
    (pp.ppv2x a combo n300 n100 n50 nmiss d).results = ⟨some r.aim, some r.speed, some r.acc, some r.flashlight, some r.total⟩ := by
  have h := setup_some pp qq ha hd combo n300 n100 n50 nmiss
  have hr := relax_some h
  have e1 : (qq.setup b combo n300 n100 n50 nmiss e).relaxMisses.totalHits = n300 + n100 + n50 + nmiss := by
    unfold relaxMisses
    have : (qq.setup b combo n300 n100 n50 nmiss e).totalHits = n300 + n100 + n50 + nmiss := by
      show (if n300 < 0 then _ else n300) + n100 + n50 + nmiss = _
      rw [if_neg (by omega)]
    split <;> exact this
  have e2 : 0 < (qq.setup b combo n300 n100 n50 nmiss e).relaxMisses.attribs.maxCombo := by
    have : (qq.setup b combo n300 n100 n50 nmiss e).relaxMisses.attribs.maxCombo = maxI 1 b.maxCombo := by
      unfold relaxMisses
      split <;> rfl
    rw [this]
    unfold maxI
    split <;> omega
  have ht' : (qq.setup b combo n300 n100 n50 nmiss e).relaxMisses.totalHits ≠ 0 := by omega
  have c1 := aim_some hr e2 ht'
  have c2 := speed_some hr e2 ht'
  have c3 := accuracy_some hr
  have c4 := flashlight_some hr e2 ht'
  have c5 := multiplier_some h
  intro r
  show PPv2Results.mk _ _ _ _ (total _ _ _ _ _) = _
  have f1 : (pp.setup a combo n300 n100 n50 nmiss d).relaxMisses.computeAimValue = some r.aim := c1
  have f2 : (pp.setup a combo n300 n100 n50 nmiss d).relaxMisses.computeSpeedValue = some r.speed := c2
  have f3 : (pp.setup a combo n300 n100 n50 nmiss d).relaxMisses.computeAccuracyValue = some r.acc := c3
  have f4 : (pp.setup a combo n300 n100 n50 nmiss d).relaxMisses.computeFlashlightValue = some r.flashlight := c4
  have f5 : total (pp.setup a combo n300 n100 n50 nmiss d).relaxMisses.computeAimValue
      (pp.setup a combo n300 n100 n50 nmiss d).relaxMisses.computeSpeedValue
      (pp.setup a combo n300 n100 n50 nmiss d).relaxMisses.computeAccuracyValue
      (pp.setup a combo n300 n100 n50 nmiss d).relaxMisses.computeFlashlightValue
      (pp.setup a combo n300 n100 n50 nmiss d).finalMultiplier = some r.total := by
    rw [c1, c2, c3, c4, c5, total_some]
    rfl
  exact congr (congr (congr (congr (congrArg PPv2Results.mk f1) f2) f3) f4) f5

end GosuPP.PPv2
