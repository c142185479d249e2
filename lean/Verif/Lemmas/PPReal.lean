import Verif.Spec.PP
import Mathlib.Analysis.SpecialFunctions.Pow.Real

/-!
# Monotonicity of performance points in exact arithmetic
-/

namespace GosuPP
open Go

/-- `0 ≤ x ≤ y` -/
def Ord (x y : ℝ) : Prop := 0 ≤ x ∧ x ≤ y

namespace Ord
theorem refl {x : ℝ} (h : 0 ≤ x) : Ord x x := ⟨h, le_refl x⟩

theorem mul {a b c d : ℝ} (h : Ord a b) (h' : Ord c d) : Ord (a * c) (b * d) :=
  ⟨mul_nonneg h.1 h'.1, mul_le_mul h.2 h'.2 h'.1 (h.1.trans h.2)⟩

theorem add {a b c d : ℝ} (h : Ord a b) (h' : Ord c d) : Ord (a + c) (b + d) :=
  ⟨add_nonneg h.1 h'.1, add_le_add h.2 h'.2⟩

theorem pow {a b e : ℝ} (h : Ord a b) (he : 0 ≤ e) : Ord (a ^ e) (b ^ e) :=
  ⟨Real.rpow_nonneg h.1 e, Real.rpow_le_rpow h.1 h.2 he⟩

theorem const {x y c : ℝ} (hc : 0 ≤ c) (h : Ord x y) : Ord (c * x) (c * y) := (refl hc).mul h

theorem div {a b c : ℝ} (h : Ord a b) (hc : 0 ≤ c) : Ord (a / c) (b / c) :=
  ⟨div_nonneg h.1 hc, div_le_div_of_nonneg_right h.2 hc⟩

theorem of_if {p : Prop} [Decidable p] {a b c d : ℝ} (h : p → Ord a b) (h' : ¬p → Ord c d) :
    Ord (if p then a else c) (if p then b else d) := by
  split
  · exact h ‹_›
  · exact h' ‹_›
end Ord

theorem ppBase_real (x : ℝ) : ppBase x = (5 * max 1 (x / 0.0675) - 4) ^ (3 : ℝ) / 100000 := by
  unfold ppBase
  simp only [RealArith.pow, RealArith.sub, RealArith.mul, RealArith.div, RealArith.fmax, RealArith.lit]
  norm_num

theorem ppBase_ord {x y : ℝ} (h : x ≤ y) : Ord (ppBase x) (ppBase y) := by
  rw [ppBase_real, ppBase_real]
  refine (Ord.pow ⟨?_, ?_⟩ (by norm_num)).div (by norm_num)
  · have := le_max_left 1 (x / 0.0675); linarith
  · have : max 1 (x / 0.0675) ≤ max 1 (y / 0.0675) :=
      max_le_max (le_refl _) (div_le_div_of_nonneg_right h (by norm_num))
    linarith

theorem ppBase_pos (x : ℝ) : 0 < ppBase x := by
  rw [ppBase_real]
  have := le_max_left 1 (x / 0.0675)
  have : (0 : ℝ) < 5 * max 1 (x / 0.0675) - 4 := by linarith
  positivity

namespace PPv2

/-- What holds of a play after the effective misses were counted. -/
structure Sane (p : PPv2 ℝ) : Prop where
  total : 0 < p.totalHits
  miss0 : 0 ≤ p.effectiveMissCount
  miss1 : p.effectiveMissCount ≤ p.totalHits
  combo : 0 ≤ p.scoreMaxCombo
  acc0 : 0 ≤ p.accuracy
  acc1 : p.accuracy ≤ 1
  aim : 0 ≤ p.attribs.aim
  speed : 0 ≤ p.attribs.speed
  flashlight : 0 ≤ p.attribs.flashlight
  sf0 : 0 ≤ p.attribs.sliderFactor
  sf1 : p.attribs.sliderFactor ≤ 1
  amount : 0 ≤ p.amountHitObjectsWithAccuracy
  ar : p.diff.arReal ≤ 37

/-- `p` is at most as good a play as `q` of the same map. -/
structure Worse (p q : PPv2 ℝ) : Prop where
  total : p.totalHits = q.totalHits
  diff : p.diff = q.diff
  amount : p.amountHitObjectsWithAccuracy = q.amountHitObjectsWithAccuracy
  sliders : p.attribs.sliders = q.attribs.sliders
  sf : p.attribs.sliderFactor = q.attribs.sliderFactor
  maxCombo : p.attribs.maxCombo = q.attribs.maxCombo
  aim : p.attribs.aim ≤ q.attribs.aim
  speed : p.attribs.speed ≤ q.attribs.speed
  flashlight : p.attribs.flashlight ≤ q.attribs.flashlight
  misses : q.effectiveMissCount ≤ p.effectiveMissCount
  combo : p.scoreMaxCombo ≤ q.scoreMaxCombo
  imperfect : q.countOk + q.countMeh + q.countMiss ≤ p.countOk + p.countMeh + p.countMiss
  accuracy : p.accuracy ≤ q.accuracy
  od : p.accuracy = q.accuracy ∨ p.diff.odReal ≤ 14.5
  points : p.countGreat * 6 + p.countOk * 2 + p.countMeh ≤ q.countGreat * 6 + q.countOk * 2 + q.countMeh

theorem lengthBonus_eq {p q : PPv2 ℝ} (h : Worse p q) : p.lengthBonus = q.lengthBonus := by
  unfold lengthBonus; rw [h.total]

theorem lengthBonus_pos {p : PPv2 ℝ} (h : Sane p) : 0 < p.lengthBonus := by
  unfold lengthBonus
  simp only [RealArith.add, RealArith.mul, RealArith.div, RealArith.fmin, RealArith.lit, RealArith.ofInt]
  have ht : (0 : ℝ) < p.totalHits := by exact_mod_cast h.total
  have h1 : (0 : ℝ) ≤ min 1 ((p.totalHits : ℝ) / 2000) := le_min (by norm_num) (by positivity)
  have hlog : p.totalHits > 2000 → (0 : ℝ) ≤ GoLibm.log10 ((p.totalHits : ℝ) / 2000) := by
    intro h2
    show 0 ≤ Real.logb 10 _
    apply Real.logb_nonneg (by norm_num)
    rw [le_div_iff₀ (by norm_num)]
    have : (2000 : ℝ) < p.totalHits := by exact_mod_cast h2
    linarith
  generalize hm : min 1 ((p.totalHits : ℝ) / 2000) = m at h1
  have e : min ((1 : ℚ) : ℝ) ((p.totalHits : ℝ) / ((2000 : ℚ) : ℝ)) = m := by rw [← hm]; norm_num
  have e' : ((p.totalHits : ℝ) / ((2000 : ℚ) : ℝ)) = (p.totalHits : ℝ) / 2000 := by norm_num
  rw [e, e']
  split
  · rename_i h2
    have := hlog h2
    generalize (GoLibm.log10 ((p.totalHits : ℝ) / 2000) : ℝ) = l at this
    norm_num
    positivity
  · norm_num
    positivity

/-- The factor for misses, with the exponent as a function of their number. -/
theorem missFactor_ord {p q : PPv2 ℝ} (hp : Sane p) (hq : Sane q) (h : Worse p q) (e : ℝ → ℝ)
    (he : ∀ x y, 1 ≤ x → x ≤ y → 0 < e x ∧ e x ≤ e y) {v w : ℝ} (hv : Ord v w) :
    Ord (if p.effectiveMissCount > 0 then v *. p.missPenalty (e p.effectiveMissCount) else v)
      (if q.effectiveMissCount > 0 then w *. q.missPenalty (e q.effectiveMissCount) else w) := by
  have ht : (0 : ℝ) < p.totalHits := by exact_mod_cast hp.total
  have base : ∀ {r : PPv2 ℝ}, Sane r → Ord (((r.effectiveMissCount : ℝ) / r.totalHits) ^ (0.775 : ℝ)) 1 := by
    intro r hr
    have h1 : (0 : ℝ) < r.totalHits := by exact_mod_cast hr.total
    have h2 : (0 : ℝ) ≤ r.effectiveMissCount := by exact_mod_cast hr.miss0
    have h3 : (r.effectiveMissCount : ℝ) ≤ r.totalHits := by exact_mod_cast hr.miss1
    have := Ord.pow (a := (r.effectiveMissCount : ℝ) / r.totalHits) (b := 1) (e := 0.775)
      ⟨by positivity, by rw [div_le_one h1]; exact h3⟩ (by norm_num)
    rwa [Real.one_rpow] at this
  have pen : ∀ r : PPv2 ℝ, ∀ x, r.missPenalty x = 0.97 * (1 - ((r.effectiveMissCount : ℝ) / r.totalHits) ^ (0.775 : ℝ)) ^ x := by
    intro r x
    unfold missPenalty
    simp only [RealArith.pow, RealArith.sub, RealArith.mul, RealArith.div, RealArith.ofInt, RealArith.lit]
    norm_num
  rw [pen, pen]
  simp only [RealArith.mul]
  have bp := base hp
  have bq := base hq
  by_cases hqm : q.effectiveMissCount > 0
  · have hpm : p.effectiveMissCount > 0 := lt_of_lt_of_le hqm h.misses
    rw [if_pos hqm, if_pos hpm]
    refine hv.mul (Ord.const (by norm_num) ?_)
    have hle : ((q.effectiveMissCount : ℝ) / q.totalHits) ^ (0.775 : ℝ) ≤ ((p.effectiveMissCount : ℝ) / p.totalHits) ^ (0.775 : ℝ) := by
      apply Real.rpow_le_rpow _ _ (by norm_num)
      · have : (0 : ℝ) ≤ q.effectiveMissCount := by exact_mod_cast hq.miss0
        rw [← h.total]; positivity
      · rw [← h.total]
        apply div_le_div_of_nonneg_right _ ht.le
        exact_mod_cast h.misses
    have hx : (1 : ℝ) ≤ q.effectiveMissCount := by exact_mod_cast hqm
    have hy : (q.effectiveMissCount : ℝ) ≤ p.effectiveMissCount := by exact_mod_cast h.misses
    obtain ⟨he1, he2⟩ := he _ _ hx hy
    refine ⟨Real.rpow_nonneg (by linarith [bp.2]) _, ?_⟩
    have hb0 : 0 ≤ 1 - ((p.effectiveMissCount : ℝ) / p.totalHits) ^ (0.775 : ℝ) := by linarith [bp.2]
    have hb1 : 1 - ((p.effectiveMissCount : ℝ) / p.totalHits) ^ (0.775 : ℝ) ≤ 1 := by linarith [bp.1]
    have hc0 : 0 ≤ 1 - ((q.effectiveMissCount : ℝ) / q.totalHits) ^ (0.775 : ℝ) := by linarith [bq.2]
    have hc1 : 1 - ((q.effectiveMissCount : ℝ) / q.totalHits) ^ (0.775 : ℝ) ≤ 1 := by linarith [bq.1]
    exact (Real.rpow_le_rpow hb0 (by linarith) (he1.le.trans he2)).trans
      (Real.rpow_le_rpow_of_exponent_ge' hc0 hc1 he1.le he2)
  · rw [if_neg hqm]
    split
    · rename_i hpm
      have hx : (1 : ℝ) ≤ p.effectiveMissCount := by exact_mod_cast hpm
      obtain ⟨he1, -⟩ := he _ _ hx (le_refl _)
      have hb0 : 0 ≤ 1 - ((p.effectiveMissCount : ℝ) / p.totalHits) ^ (0.775 : ℝ) := by linarith [bp.2]
      have hb1 : 1 - ((p.effectiveMissCount : ℝ) / p.totalHits) ^ (0.775 : ℝ) ≤ 1 := by linarith [bp.1]
      have h1 := Real.rpow_le_one hb0 hb1 he1.le
      have h0 := Real.rpow_nonneg hb0 (e p.effectiveMissCount)
      have := hv.mul (c := 0.97 * (1 - ((p.effectiveMissCount : ℝ) / p.totalHits) ^ (0.775 : ℝ)) ^ e p.effectiveMissCount)
        (d := 1) ⟨by positivity, by linarith⟩
      rwa [mul_one] at this
    · exact hv

theorem comboScaling_ord {p q : PPv2 ℝ} (hp : Sane p) (h : Worse p q) (hm : p.attribs.maxCombo > 0) :
    Ord p.comboScaling q.comboScaling := by
  unfold comboScaling
  simp only [RealArith.pow, RealArith.div, RealArith.fmin, RealArith.ofInt, RealArith.lit]
  rw [← h.maxCombo]
  have h0 : (0 : ℝ) ≤ p.scoreMaxCombo := by exact_mod_cast hp.combo
  have h1 : (p.scoreMaxCombo : ℝ) ≤ q.scoreMaxCombo := by exact_mod_cast h.combo
  have hm' : (0 : ℝ) < p.attribs.maxCombo := by exact_mod_cast hm
  have := (Ord.pow (e := 0.8) ⟨h0, h1⟩ (by norm_num)).div (c := (p.attribs.maxCombo : ℝ) ^ (0.8 : ℝ)) (by positivity)
  have e : ((0.8 : ℚ) : ℝ) = (0.8 : ℝ) := by norm_num
  rw [e]
  exact ⟨le_min this.1 (by norm_num), min_le_min this.2 (le_refl _)⟩

theorem comboFactor_ord {p q : PPv2 ℝ} (hp : Sane p) (h : Worse p q) {v w : ℝ} (hv : Ord v w) :
    Ord (if p.attribs.maxCombo > 0 then v *. p.comboScaling else v)
      (if q.attribs.maxCombo > 0 then w *. q.comboScaling else w) := by
  rw [← h.maxCombo]
  refine Ord.of_if (fun hm => hv.mul (comboScaling_ord hp h hm)) (fun _ => hv)

private theorem arFactor_ord {p q : PPv2 ℝ} (hp : Sane p) (h : Worse p q) {f : Difficulty ℝ → ℝ}
    (hf : ∀ d, 0 ≤ f d) {v w : ℝ} (hv : Ord v w) :
    Ord (v * (1 + f p.diff * p.lengthBonus)) (w * (1 + f q.diff * q.lengthBonus)) := by
  rw [← h.diff, ← lengthBonus_eq h]
  refine hv.mul (Ord.refl ?_)
  have := hf p.diff
  have := lengthBonus_pos hp
  positivity

private theorem hiddenFactor_ord {p q : PPv2 ℝ} (hp : Sane p) (h : Worse p q) {v w : ℝ} (hv : Ord v w) :
    Ord (if Modifier.active p.diff.mods Mod.Hidden = true then v * (1 + 0.04 * (12 - p.diff.arReal)) else v)
      (if Modifier.active q.diff.mods Mod.Hidden = true then w * (1 + 0.04 * (12 - q.diff.arReal)) else w) := by
  rw [← h.diff]
  refine Ord.of_if (fun _ => hv.mul (Ord.refl ?_)) (fun _ => hv)
  have := hp.ar
  linarith

private theorem sq_nonneg' (x : ℝ) : 0 ≤ x ^ (2 : ℝ) := by
  rw [Real.rpow_two]; positivity

theorem minI_eq (a b : Int) : minI a b = min a b := by
  unfold minI; split <;> omega

theorem maxI_eq (a b : Int) : maxI a b = max a b := by
  unfold maxI; split <;> omega

private theorem clamp_real (x a b : ℝ) : clampF64 x a b = min b (max a x) := by
  unfold clampF64; rw [RealArith.fmin, RealArith.fmax]

/-- The factor for dropped slider ends. -/
private theorem sliderFactor_ord {p q : PPv2 ℝ} (hp : Sane p) (h : Worse p q) {v w : ℝ} (hv : Ord v w) :
    Ord (if p.attribs.sliders > 0 then v * ((1 - p.attribs.sliderFactor) *
          (1 - min ((p.attribs.sliders : ℝ) * 0.15) (max 0 ((min (p.countOk + p.countMeh + p.countMiss)
            (p.attribs.maxCombo - p.scoreMaxCombo) : Int) : ℝ)) / ((p.attribs.sliders : ℝ) * 0.15)) ^ (3 : ℝ)
          + p.attribs.sliderFactor) else v)
      (if q.attribs.sliders > 0 then w * ((1 - q.attribs.sliderFactor) *
          (1 - min ((q.attribs.sliders : ℝ) * 0.15) (max 0 ((min (q.countOk + q.countMeh + q.countMiss)
            (q.attribs.maxCombo - q.scoreMaxCombo) : Int) : ℝ)) / ((q.attribs.sliders : ℝ) * 0.15)) ^ (3 : ℝ)
          + q.attribs.sliderFactor) else w) := by
  rw [← h.sliders, ← h.sf]
  refine Ord.of_if (fun hs => hv.mul (Ord.add ?_ (Ord.refl hp.sf0))) (fun _ => hv)
  refine Ord.const (by linarith [hp.sf1]) (Ord.pow ?_ (by norm_num))
  have hs' : (0 : ℝ) < (p.attribs.sliders : ℝ) * 0.15 := by
    have : (0 : ℝ) < p.attribs.sliders := by exact_mod_cast hs
    positivity
  have hle : (min (q.countOk + q.countMeh + q.countMiss) (q.attribs.maxCombo - q.scoreMaxCombo) : Int) ≤
      min (p.countOk + p.countMeh + p.countMiss) (p.attribs.maxCombo - p.scoreMaxCombo) := by
    have := h.imperfect; have := h.combo; have := h.maxCombo
    omega
  generalize (min (q.countOk + q.countMeh + q.countMiss) (q.attribs.maxCombo - q.scoreMaxCombo) : Int) = a at hle ⊢
  generalize (min (p.countOk + p.countMeh + p.countMiss) (p.attribs.maxCombo - p.scoreMaxCombo) : Int) = b at hle ⊢
  generalize (p.attribs.sliders : ℝ) * 0.15 = e at hs' ⊢
  have hle' : (a : ℝ) ≤ b := by exact_mod_cast hle
  constructor
  · have : min e (max 0 (b : ℝ)) / e ≤ 1 := by rw [div_le_one hs']; exact min_le_left _ _
    linarith
  · have : min e (max 0 (a : ℝ)) / e ≤ min e (max 0 (b : ℝ)) / e :=
      div_le_div_of_nonneg_right (min_le_min_left _ (max_le_max_left _ hle')) hs'.le
    linarith

theorem aim_ord {p q : PPv2 ℝ} (hp : Sane p) (hq : Sane q) (h : Worse p q) :
    Ord p.computeAimValue q.computeAimValue := by
  unfold computeAimValue
  simp only [clamp_real, minI_eq]
  have h1 : Ord (ppBase (if Modifier.active p.diff.mods Mod.TouchDevice = true then
      GoLibm.pow p.attribs.aim (lit 0.8) else p.attribs.aim) *. p.lengthBonus)
      (ppBase (if Modifier.active q.diff.mods Mod.TouchDevice = true then
      GoLibm.pow q.attribs.aim (lit 0.8) else q.attribs.aim) *. q.lengthBonus) := by
    rw [← lengthBonus_eq h, ← h.diff]
    refine (ppBase_ord ?_).mul (Ord.refl (lengthBonus_pos hp).le)
    exact (Ord.of_if (fun _ => Ord.pow ⟨hp.aim, h.aim⟩ (by show (0 : ℝ) ≤ ((0.8 : ℚ) : ℝ); norm_num)) (fun _ => ⟨hp.aim, h.aim⟩)).2
  have h2 := missFactor_ord hp hq h (fun x => x) (fun x y hx hxy => ⟨by linarith, hxy⟩) h1
  have h3 := comboFactor_ord hp h h2
  have h4 := arFactor_ord hp h (f := fun d => if d.arReal >. lit 10.33 then lit 0.3 *. (d.arReal -. lit 10.33)
    else if d.arReal <. lit 8 then lit 0.1 *. (lit 8 -. d.arReal) else lit 0) (by
      intro d
      simp only [RealArith.lt, RealArith.mul, RealArith.sub, RealArith.lit]
      split
      · rename_i hlt; norm_num at hlt ⊢; linarith
      · split
        · rename_i hlt; norm_num at hlt ⊢; linarith
        · norm_num) h3
  have h5 := hiddenFactor_ord hp h h4
  have h6 := sliderFactor_ord hp h h5
  have h7 := h6.mul (⟨hp.acc0, h.accuracy⟩ : Ord p.accuracy q.accuracy)
  have h8 := h7.mul (c := 0.98 + p.diff.odReal ^ (2 : ℝ) / 2500) (d := 0.98 + q.diff.odReal ^ (2 : ℝ) / 2500) (by
    rw [← h.diff]
    have := sq_nonneg' p.diff.odReal
    exact Ord.refl (by positivity))
  simp only [RealArith.pow, RealArith.mul, RealArith.sub, RealArith.add, RealArith.div, RealArith.lit, RealArith.ofInt] at h8 ⊢
  convert h8 using 12 <;> norm_num

private theorem pow875 (x y : ℝ) (hx : 1 ≤ x) (hxy : x ≤ y) :
    0 < GoLibm.pow x (lit 0.875) ∧ GoLibm.pow x (lit 0.875) ≤ GoLibm.pow y (lit 0.875 : ℝ) := by
  simp only [RealArith.pow, RealArith.lit]
  have h0 : (0 : ℝ) < x := by linarith
  exact ⟨by positivity, Real.rpow_le_rpow h0.le hxy (by norm_num)⟩

private theorem mehFactor_ord {p q : PPv2 ℝ} (h : Worse p q) (hm : q.countMeh ≤ p.countMeh) {v w : ℝ} (hv : Ord v w) :
    Ord (v * (0.98 : ℝ) ^ (if (p.countMeh : ℝ) ≥ p.totalHits / 500 then (p.countMeh : ℝ) - p.totalHits / 500 else 0))
      (w * (0.98 : ℝ) ^ (if (q.countMeh : ℝ) ≥ q.totalHits / 500 then (q.countMeh : ℝ) - q.totalHits / 500 else 0)) := by
  refine hv.mul ⟨by positivity, Real.rpow_le_rpow_of_exponent_ge (by norm_num) (by norm_num) ?_⟩
  rw [← h.total]
  have : (q.countMeh : ℝ) ≤ p.countMeh := by exact_mod_cast hm
  split <;> split <;> linarith

theorem speed_ord {p q : PPv2 ℝ} (hp : Sane p) (hq : Sane q) (h : Worse p q)
    (hm : q.countMeh ≤ p.countMeh) :
    Ord p.computeSpeedValue q.computeSpeedValue := by
  unfold computeSpeedValue
  have h1 : Ord (ppBase p.attribs.speed *. p.lengthBonus) (ppBase q.attribs.speed *. q.lengthBonus) := by
    rw [← lengthBonus_eq h]
    exact (ppBase_ord h.speed).mul (Ord.refl (lengthBonus_pos hp).le)
  have h2 := missFactor_ord hp hq h (fun x => GoLibm.pow x (lit 0.875)) pow875 h1
  have h3 := comboFactor_ord hp h h2
  have h4 := arFactor_ord hp h (f := fun d => if d.arReal >. lit 10.33 then lit 0.3 *. (d.arReal -. lit 10.33)
    else lit 0) (by
      intro d
      simp only [RealArith.lt, RealArith.mul, RealArith.sub, RealArith.lit]
      split
      · rename_i hlt; norm_num at hlt ⊢; linarith
      · norm_num) h3
  have h5 := hiddenFactor_ord hp h h4
  have h6 := h5.mul (c := (0.95 + p.diff.odReal ^ (2 : ℝ) / 750) * p.accuracy ^ ((14.5 - max p.diff.odReal 8) / 2))
    (d := (0.95 + q.diff.odReal ^ (2 : ℝ) / 750) * q.accuracy ^ ((14.5 - max q.diff.odReal 8) / 2)) (by
    rw [← h.diff]
    have := sq_nonneg' p.diff.odReal
    refine Ord.const (by positivity) ?_
    rcases h.od with e | hod
    · rw [← e]
      exact Ord.refl (Real.rpow_nonneg hp.acc0 _)
    · refine Ord.pow ⟨hp.acc0, h.accuracy⟩ ?_
      have : max p.diff.odReal 8 ≤ 14.5 := max_le hod (by norm_num)
      linarith)
  have h7 := mehFactor_ord h hm h6
  simp only [RealArith.pow, RealArith.mul, RealArith.sub, RealArith.add, RealArith.div, RealArith.lit, RealArith.ofInt,
    RealArith.fmax, RealArith.le] at h7 ⊢
  convert h7 using 10 <;> norm_num

/-- Speed PP before accuracy and 50s. -/
noncomputable def speedPrefix (pp : PPv2 ℝ) : ℝ :=
  let v := ppBase pp.attribs.speed
  let v := v *. pp.lengthBonus
  let v := if pp.effectiveMissCount > 0 then
    v *. pp.missPenalty (GoLibm.pow (ofInt pp.effectiveMissCount) (lit 0.875)) else v
  let v := if pp.attribs.maxCombo > 0 then v *. pp.comboScaling else v
  let approachRateFactor :=
    if pp.diff.arReal >. lit 10.33 then lit 0.3 *. (pp.diff.arReal -. lit 10.33) else lit 0
  let v := v *. (lit 1 +. approachRateFactor *. pp.lengthBonus)
  let v := if Modifier.active pp.diff.mods Mod.Hidden then
    v *. (lit 1 +. lit 0.04 *. (lit 12 -. pp.diff.arReal)) else v
  v *. (lit 0.95 +. GoLibm.pow pp.diff.odReal (lit 2) /. lit 750)

theorem speed_split (p : PPv2 ℝ) : p.computeSpeedValue = p.speedPrefix *
    (p.accuracy ^ ((14.5 - max p.diff.odReal 8) / 2) *
      (0.98 : ℝ) ^ (if (p.countMeh : ℝ) ≥ p.totalHits / 500 then (p.countMeh : ℝ) - p.totalHits / 500 else 0)) := by
  have key : ∀ V A B C B' C' : ℝ, B = B' → C = C' → (V *. (A *. B)) *. C = (V *. A) * (B' * C') := by
    rintro V A B C _ _ rfl rfl
    simp only [RealArith.mul]
    ring
  refine key _ _ _ _ _ _ ?_ ?_
  · simp only [RealArith.pow, RealArith.sub, RealArith.div, RealArith.lit, RealArith.fmax]
    norm_num
  · simp only [RealArith.pow, RealArith.sub, RealArith.div, RealArith.lit, RealArith.ofInt, RealArith.le]
    norm_num

theorem speedPrefix_congr {p q : PPv2 ℝ} (total : p.totalHits = q.totalHits) (diff : p.diff = q.diff)
    (attribs : p.attribs = q.attribs) (misses : p.effectiveMissCount = q.effectiveMissCount)
    (combo : p.scoreMaxCombo = q.scoreMaxCombo) : p.speedPrefix = q.speedPrefix := by
  unfold speedPrefix lengthBonus missPenalty comboScaling
  rw [total, diff, attribs, misses, combo]

theorem speedPrefix_pos {p : PPv2 ℝ} (hp : Sane p) (h : p.effectiveMissCount < p.totalHits)
    (hc : 0 < p.scoreMaxCombo)
    (har : p.diff.arReal < 37) : 0 < p.speedPrefix := by
  unfold speedPrefix
  simp only
  have ht : (0 : ℝ) < p.totalHits := by exact_mod_cast hp.total
  have h1 : 0 < ppBase p.attribs.speed *. p.lengthBonus := mul_pos (ppBase_pos _) (lengthBonus_pos hp)
  have h2 : ∀ e : ℝ, 0 < p.missPenalty e := by
    intro e
    unfold missPenalty
    simp only [RealArith.pow, RealArith.sub, RealArith.mul, RealArith.div, RealArith.ofInt, RealArith.lit]
    refine mul_pos (by norm_num) (Real.rpow_pos_of_pos ?_ _)
    have h3 : (0 : ℝ) ≤ p.effectiveMissCount := by exact_mod_cast hp.miss0
    have h4 : (p.effectiveMissCount : ℝ) < p.totalHits := by exact_mod_cast h
    have := Real.rpow_lt_one (x := (p.effectiveMissCount : ℝ) / p.totalHits) (z := ((0.775 : ℚ) : ℝ))
      (by positivity) (by rw [div_lt_one ht]; exact h4) (by norm_num)
    push_cast at *
    linarith
  have hcombo : p.attribs.maxCombo > 0 → 0 < p.comboScaling := by
    intro hm
    unfold comboScaling
    simp only [RealArith.pow, RealArith.div, RealArith.fmin, RealArith.ofInt, RealArith.lit]
    have h3 : (0 : ℝ) < p.scoreMaxCombo := by exact_mod_cast hc
    have h4 : (0 : ℝ) < p.attribs.maxCombo := by exact_mod_cast hm
    exact lt_min (by positivity) (by norm_num)
  have a1 : 0 < (if p.effectiveMissCount > 0 then ppBase p.attribs.speed *. p.lengthBonus *.
      p.missPenalty (GoLibm.pow (ofInt p.effectiveMissCount) (lit 0.875)) else ppBase p.attribs.speed *. p.lengthBonus) := by
    split
    · exact mul_pos h1 (h2 _)
    · exact h1
  generalize (if p.effectiveMissCount > 0 then ppBase p.attribs.speed *. p.lengthBonus *.
      p.missPenalty (GoLibm.pow (ofInt p.effectiveMissCount) (lit 0.875)) else ppBase p.attribs.speed *. p.lengthBonus) = v1 at a1 ⊢
  have a2 : 0 < (if p.attribs.maxCombo > 0 then v1 *. p.comboScaling else v1) := by
    split
    · exact mul_pos a1 (hcombo ‹_›)
    · exact a1
  generalize (if p.attribs.maxCombo > 0 then v1 *. p.comboScaling else v1) = v2 at a2 ⊢
  have hf : 0 ≤ (if (p.diff.arReal >. lit 10.33) = true then lit 0.3 *. (p.diff.arReal -. lit 10.33) else lit 0 : ℝ) := by
    simp only [RealArith.lt, RealArith.mul, RealArith.sub, RealArith.lit]
    split
    · rename_i hlt; norm_num at hlt ⊢; linarith
    · norm_num
  generalize (if (p.diff.arReal >. lit 10.33) = true then lit 0.3 *. (p.diff.arReal -. lit 10.33) else lit 0 : ℝ) = f at hf ⊢
  have hl := lengthBonus_pos hp
  have a3 : 0 < v2 *. (lit 1 +. f *. p.lengthBonus) := by
    simp only [RealArith.mul, RealArith.add, RealArith.lit]
    push_cast
    positivity
  generalize v2 *. (lit 1 +. f *. p.lengthBonus) = v3 at a3 ⊢
  have hod := sq_nonneg' p.diff.odReal
  refine mul_pos ?_ ?_
  · split
    · refine mul_pos a3 ?_
      simp only [RealArith.mul, RealArith.add, RealArith.sub, RealArith.lit]
      norm_num
      linarith
    · exact a3
  · simp only [RealArith.add, RealArith.div, RealArith.lit, RealArith.pow]
    rw [show ((2 : ℚ) : ℝ) = 2 by norm_num]
    norm_num at hod ⊢
    positivity

theorem accuracy_ord {p q : PPv2 ℝ} (hp : Sane p) (h : Worse p q) :
    Ord p.computeAccuracyValue q.computeAccuracyValue := by
  unfold computeAccuracyValue
  simp only [← h.diff, ← h.amount]
  refine Ord.of_if (fun _ => Ord.refl (by simp [RealArith.lit])) (fun _ => ?_)
  have key : ∀ {v w : ℝ}, Ord v w →
      Ord (if Modifier.active p.diff.mods Mod.Flashlight = true then
            (if Modifier.active p.diff.mods Mod.Hidden = true then v *. lit 1.08 else v) *. lit 1.02
          else if Modifier.active p.diff.mods Mod.Hidden = true then v *. lit 1.08 else v)
        (if Modifier.active p.diff.mods Mod.Flashlight = true then
            (if Modifier.active p.diff.mods Mod.Hidden = true then w *. lit 1.08 else w) *. lit 1.02
          else if Modifier.active p.diff.mods Mod.Hidden = true then w *. lit 1.08 else w) := by
    intro v w hv
    have h1 : Ord (if Modifier.active p.diff.mods Mod.Hidden = true then v *. lit 1.08 else v)
        (if Modifier.active p.diff.mods Mod.Hidden = true then w *. lit 1.08 else w) :=
      Ord.of_if (fun _ => hv.mul (Ord.refl (by simp only [RealArith.lit]; norm_num))) (fun _ => hv)
    exact Ord.of_if (fun _ => h1.mul (Ord.refl (by simp only [RealArith.lit]; norm_num))) (fun _ => h1)
  apply key
  have ha : (0 : ℝ) ≤ p.amountHitObjectsWithAccuracy := by exact_mod_cast hp.amount
  refine Ord.mul (Ord.mul (Ord.mul ?_ ?_) ?_) ?_
  · exact Ord.refl (by simp only [RealArith.pow, RealArith.lit]; positivity)
  · simp only [RealArith.pow, RealArith.lit]
    refine Ord.pow ?_ (by norm_num)
    simp only [RealArith.lt, RealArith.mul, RealArith.div, RealArith.ofInt]
    have hpts : (((p.countGreat - (p.totalHits - p.amountHitObjectsWithAccuracy)) * 6 + p.countOk * 2 + p.countMeh : Int) : ℝ) ≤
        (((q.countGreat - (q.totalHits - p.amountHitObjectsWithAccuracy)) * 6 + q.countOk * 2 + q.countMeh : Int) : ℝ) := by
      have := h.points; have := h.total
      exact_mod_cast (by omega)
    generalize (((p.countGreat - (p.totalHits - p.amountHitObjectsWithAccuracy)) * 6 + p.countOk * 2 + p.countMeh : Int) : ℝ) = a at hpts ⊢
    generalize (((q.countGreat - (q.totalHits - p.amountHitObjectsWithAccuracy)) * 6 + q.countOk * 2 + q.countMeh : Int) : ℝ) = b at hpts ⊢
    have h6 : (0 : ℝ) ≤ (p.amountHitObjectsWithAccuracy : ℝ) * ((6 : ℚ) : ℝ) := by positivity
    have hd := div_le_div_of_nonneg_right hpts h6
    generalize a / ((p.amountHitObjectsWithAccuracy : ℝ) * ((6 : ℚ) : ℝ)) = x at hd ⊢
    generalize b / ((p.amountHitObjectsWithAccuracy : ℝ) * ((6 : ℚ) : ℝ)) = y at hd ⊢
    rw [show ((0 : ℚ) : ℝ) = 0 by norm_num]
    split
    · unfold Ord; split <;> split <;> constructor <;> linarith
    · norm_num [Ord]
  · exact Ord.refl (by simp only [RealArith.lit]; norm_num)
  · simp only [RealArith.fmin, RealArith.pow, RealArith.div, RealArith.lit, RealArith.ofInt]
    exact Ord.refl (le_min (by norm_num) (Real.rpow_nonneg (div_nonneg ha (by norm_num)) _))

theorem flashlight_ord {p q : PPv2 ℝ} (hp : Sane p) (hq : Sane q) (h : Worse p q) :
    Ord p.computeFlashlightValue q.computeFlashlightValue := by
  unfold computeFlashlightValue
  simp only [show q.diff.checkModActive = p.diff.checkModActive by rw [h.diff]]
  refine Ord.of_if (fun _ => Ord.refl (by simp [RealArith.lit])) (fun _ => ?_)
  have h0 : Ord (if p.diff.checkModActive Mod.TouchDevice = true then
      GoLibm.pow p.attribs.flashlight (lit 0.8) else p.attribs.flashlight)
      (if p.diff.checkModActive Mod.TouchDevice = true then
      GoLibm.pow q.attribs.flashlight (lit 0.8) else q.attribs.flashlight) :=
    Ord.of_if (fun _ => Ord.pow ⟨hp.flashlight, h.flashlight⟩ (by show (0 : ℝ) ≤ ((0.8 : ℚ) : ℝ); norm_num))
      (fun _ => ⟨hp.flashlight, h.flashlight⟩)
  have h1 := (Ord.pow (e := lit 2) h0 (by simp only [RealArith.lit]; norm_num)).mul
    (Ord.refl (x := lit 25) (by simp only [RealArith.lit]; norm_num))
  have h1' := Ord.of_if (p := p.diff.checkModActive Mod.Hidden = true)
    (fun _ => h1.mul (Ord.refl (x := lit 1.3) (by simp only [RealArith.lit]; norm_num))) (fun _ => h1)
  have h2 := missFactor_ord hp hq h (fun x => GoLibm.pow x (lit 0.875)) pow875 h1'
  have h3 := comboFactor_ord hp h h2
  refine Ord.mul (Ord.mul (Ord.mul h3 ?_) ?_) ?_
  · rw [← h.total]
    refine Ord.refl ?_
    simp only [RealArith.mul, RealArith.add, RealArith.div, RealArith.lit, RealArith.ofInt, RealArith.fmin]
    have ht : (0 : ℝ) ≤ p.totalHits := by exact_mod_cast hp.total.le
    have hb : (0 : ℝ) ≤ ((0.7 : ℚ) : ℝ) + ((0.1 : ℚ) : ℝ) * min ((1 : ℚ) : ℝ) ((p.totalHits : ℝ) / ((200 : ℚ) : ℝ)) := by
      have : (0 : ℝ) ≤ min ((1 : ℚ) : ℝ) ((p.totalHits : ℝ) / ((200 : ℚ) : ℝ)) :=
        le_min (by norm_num) (div_nonneg ht (by norm_num))
      positivity
    split
    · rename_i h2
      refine add_nonneg hb (mul_nonneg (by norm_num) (le_min (by norm_num) (div_nonneg ?_ (by norm_num))))
      exact_mod_cast (by omega)
    · exact hb
  · simp only [RealArith.add, RealArith.div, RealArith.lit]
    refine Ord.add (Ord.refl (by norm_num)) (Ord.div ⟨hp.acc0, h.accuracy⟩ (by norm_num))
  · rw [← h.diff]
    simp only [RealArith.add, RealArith.div, RealArith.lit, RealArith.pow]
    refine Ord.refl (add_nonneg (by norm_num) (div_nonneg ?_ (by norm_num)))
    have := sq_nonneg' p.diff.odReal
    rw [show ((2 : ℚ) : ℝ) = 2 by norm_num]
    exact this

/-- The multiplier only needs the effective misses and the spinners. -/
theorem multiplier_ord {p q : PPv2 ℝ} (total : p.totalHits = q.totalHits) (diff : p.diff = q.diff)
    (misses : q.effectiveMissCount ≤ p.effectiveMissCount)
    (spinners : p.attribs.spinners = q.attribs.spinners) (h0 : 0 ≤ p.attribs.spinners)
    (h1 : p.attribs.spinners ≤ p.totalHits) : Ord p.finalMultiplier q.finalMultiplier := by
  unfold finalMultiplier
  simp only [← diff, ← total, ← spinners]
  have a0 : Ord (lit 1.12 : ℝ) (lit 1.12) := Ord.refl (by simp only [RealArith.lit]; norm_num)
  have a1 := Ord.of_if (p := Modifier.active p.diff.mods Mod.NoFail = true)
    (fun _ => a0.mul (c := fmax (lit 0.9) (lit 1 -. lit 0.02 *. ofInt p.effectiveMissCount))
      (d := fmax (lit 0.9) (lit 1 -. lit 0.02 *. ofInt q.effectiveMissCount)) (by
        simp only [RealArith.mul, RealArith.sub, RealArith.lit, RealArith.ofInt, RealArith.fmax]
        have : (q.effectiveMissCount : ℝ) ≤ p.effectiveMissCount := by exact_mod_cast misses
        refine ⟨le_max_of_le_left (by norm_num), max_le_max_left _ ?_⟩
        norm_num
        linarith)) (fun _ => a0)
  have a2 := Ord.of_if (p := p.totalHits > 0 ∧ Modifier.active p.diff.mods Mod.SpunOut = true)
    (fun hc => a1.mul (Ord.refl (x := lit 1 -. GoLibm.pow (ofInt p.attribs.spinners /. ofInt p.totalHits) (lit 0.85)) (by
        simp only [RealArith.sub, RealArith.lit, RealArith.ofInt, RealArith.div, RealArith.pow]
        have h2 : (0 : ℝ) < p.totalHits := by exact_mod_cast hc.1
        have h3 : (0 : ℝ) ≤ p.attribs.spinners := by exact_mod_cast h0
        have h4 : (p.attribs.spinners : ℝ) ≤ p.totalHits := by exact_mod_cast h1
        have := Real.rpow_le_one (x := (p.attribs.spinners : ℝ) / p.totalHits) (z := ((0.85 : ℚ) : ℝ))
          (by positivity) (by rw [div_le_one h2]; exact h4) (by norm_num)
        push_cast at *
        linarith))) (fun _ => a1)
  exact Ord.of_if (p := Modifier.active p.diff.mods Mod.Relax = true)
    (fun _ => a2.mul (Ord.refl (x := lit 0.6) (by simp only [RealArith.lit]; norm_num))) (fun _ => a2)

theorem total_ord {a s c f m a' s' c' f' m' : ℝ} (ha : Ord a a') (hs : Ord s s') (hc : Ord c c')
    (hf : Ord f f') (hm : Ord m m') : Ord (PPv2.total a s c f m) (PPv2.total a' s' c' f' m') := by
  unfold PPv2.total
  have e : (0 : ℝ) ≤ lit 1.1 := by simp only [RealArith.lit]; norm_num
  exact Ord.mul (Ord.pow (Ord.add (Ord.add (Ord.add (ha.pow e) (hs.pow e)) (hc.pow e)) (hf.pow e))
    (by simp only [RealArith.lit]; norm_num)) hm

/-! ### From the arguments of `PPv2x` -/

/-- Misses implied by the combo. -/
noncomputable def comboMisses (a : Attributes ℝ) (combo total : Int) : ℝ :=
  min (if a.sliders > 0 then
      if (combo : ℝ) < (max 1 a.maxCombo : Int) - 0.1 * a.sliders then
        ((max 1 a.maxCombo : Int) - 0.1 * a.sliders) / max 1 (combo : ℝ)
      else 0
    else 0) total

theorem comboMisses_nonneg (a : Attributes ℝ) {combo total : Int} (hc : 0 ≤ combo) (ht : 0 ≤ total) :
    0 ≤ comboMisses a combo total := by
  unfold comboMisses
  have hc' : (0 : ℝ) ≤ combo := by exact_mod_cast hc
  refine le_min ?_ (by exact_mod_cast ht)
  split
  · split
    · rename_i h
      exact div_nonneg (hc'.trans h.le) (le_max_of_le_left (by norm_num))
    · exact le_refl _
  · exact le_refl _

theorem comboMisses_anti (a : Attributes ℝ) {combo combo' total : Int} (hc : 0 ≤ combo)
    (h : combo ≤ combo') : comboMisses a combo' total ≤ comboMisses a combo total := by
  unfold comboMisses
  have hc' : (0 : ℝ) ≤ combo := by exact_mod_cast hc
  have h' : (combo : ℝ) ≤ combo' := by exact_mod_cast h
  refine min_le_min_right _ ?_
  split
  · generalize ((max 1 a.maxCombo : Int) : ℝ) - 0.1 * a.sliders = t
    split
    · rename_i h1
      rw [if_pos (h'.trans_lt h1)]
      exact div_le_div_of_nonneg_left (by linarith) (lt_of_lt_of_le one_pos (le_max_left _ _)) (max_le_max_left _ h')
    · split
      · exact div_nonneg (by linarith) (le_max_of_le_left (by norm_num))
      · exact le_refl _
  · exact le_refl _

theorem setup_misses (pp : PPv2 ℝ) (a : Attributes ℝ) (d : Difficulty ℝ) {combo n300 n100 n50 nmiss : Int}
    (hc : 0 ≤ combo) (h3 : 0 ≤ n300) (ht : 0 ≤ n300 + n100 + n50 + nmiss) :
    (pp.setup a combo n300 n100 n50 nmiss d).effectiveMissCount =
      max nmiss ⌊comboMisses a combo (n300 + n100 + n50 + nmiss)⌋ := by
  unfold setup calculateEffectiveMissCount
  simp only [maxI_eq]
  rw [if_neg (by omega : ¬ n300 < 0), if_neg (by omega : ¬ combo < 0)]
  have e : (fmin (if a.sliders > 0 then
      if ((ofInt combo : ℝ) <. ofInt (max 1 a.maxCombo) -. lit 0.1 *. ofInt a.sliders) = true then
        (ofInt (max 1 a.maxCombo) -. lit 0.1 *. ofInt a.sliders) /. fmax (lit 1) (ofInt combo)
      else lit 0
    else lit 0) (ofInt (n300 + n100 + n50 + nmiss)) : ℝ) = comboMisses a combo (n300 + n100 + n50 + nmiss) := by
    unfold comboMisses
    simp only [RealArith.fmin, RealArith.fmax, RealArith.lt, RealArith.sub, RealArith.mul, RealArith.div, RealArith.lit, RealArith.ofInt]
    norm_num
  rw [e]
  have h0 := comboMisses_nonneg a hc ht
  generalize comboMisses a combo (n300 + n100 + n50 + nmiss) = x at h0 ⊢
  have hf : 0 ≤ ⌊x⌋ := Int.floor_nonneg.mpr h0
  congr 1
  show (if ((⌊x⌋ : Int) : ℝ) < 0 then ⌈((⌊x⌋ : Int) : ℝ)⌉ else ⌊((⌊x⌋ : Int) : ℝ)⌋) = ⌊x⌋
  rw [if_neg (by push_neg; exact_mod_cast hf), Int.floor_intCast]

/-- The play after its misses were counted. -/
noncomputable def counted (pp : PPv2 ℝ) (a : Attributes ℝ) (combo n300 n100 n50 nmiss : Int) (d : Difficulty ℝ) : PPv2 ℝ :=
  (pp.setup a combo n300 n100 n50 nmiss d).relaxMisses

theorem counted_fields (pp : PPv2 ℝ) (a : Attributes ℝ) (d : Difficulty ℝ) {combo n300 n100 n50 nmiss : Int}
    (hc : 0 ≤ combo) (h3 : 0 ≤ n300) (ht : 0 < n300 + n100 + n50 + nmiss) :
    let p := pp.counted a combo n300 n100 n50 nmiss d
    p.totalHits = n300 + n100 + n50 + nmiss ∧ p.diff = d ∧ p.scoreMaxCombo = combo ∧ p.countGreat = n300 ∧
    p.countOk = n100 ∧ p.countMeh = n50 ∧ p.countMiss = nmiss ∧
    p.attribs = { a with maxCombo := max 1 a.maxCombo } ∧
    p.accuracy = min 1 (max 0 (((50 * n50 + 100 * n100 + 300 * n300 : Int) : ℝ) / (300 * (n300 + n100 + n50 + nmiss) : Int))) ∧
    p.amountHitObjectsWithAccuracy = (if d.checkModActive Mod.ScoreV2 = true then a.objectCount else a.circles) ∧
    p.effectiveMissCount = (let em := max nmiss ⌊comboMisses a combo (n300 + n100 + n50 + nmiss)⌋
      if d.mods.active Mod.Relax = true then min (em + n100 + n50) (n300 + n100 + n50 + nmiss) else em) := by
  have hem := setup_misses pp a d hc h3 ht.le
  unfold counted relaxMisses
  rw [hem]
  unfold setup
  simp only
  have e : ∀ {α : Type} (x y : α), (if n300 < 0 then x else y) = y := fun x y => if_neg (by omega)
  have e' : ∀ {α : Type} (x y : α), (if combo < 0 then x else y) = y := fun x y => if_neg (by omega)
  have e'' : ∀ {α : Type} (x y : α), (if n300 + n100 + n50 + nmiss = 0 then x else y) = y := fun x y => if_neg (by omega)
  have hacc : clampF64 ((ofInt n50 *. lit 50 +. ofInt n100 *. lit 100 +. ofInt n300 *. lit 300) /.
      (ofInt (n300 + n100 + n50 + nmiss) *. lit 300)) (lit 0) (lit 1) =
      min 1 (max 0 (((50 * n50 + 100 * n100 + 300 * n300 : Int) : ℝ) / (300 * (n300 + n100 + n50 + nmiss) : Int))) := by
    rw [clamp_real]
    simp only [RealArith.mul, RealArith.add, RealArith.div, RealArith.lit, RealArith.ofInt]
    push_cast
    ring_nf
  simp only [e, e', e'', maxI_eq, minI_eq, hacc]
  split
  · exact ⟨rfl, rfl, rfl, rfl, rfl, rfl, rfl, rfl, rfl, rfl, rfl⟩
  · refine ⟨rfl, rfl, rfl, rfl, rfl, rfl, rfl, rfl, rfl, rfl, ?_⟩
    unfold setup at hem
    simp only [e, e', maxI_eq] at hem
    exact hem

theorem counted_sane (pp : PPv2 ℝ) {a : Attributes ℝ} {d : Difficulty ℝ} {combo n300 n100 n50 nmiss : Int}
    (hc : 0 ≤ combo) (h : Spec.ValidPlay a d n300 n100 n50 nmiss) :
    Sane (pp.counted a combo n300 n100 n50 nmiss d) := by
  obtain ⟨h1, h2, h3, h4, h5, h6, h7, h8, h9, h10, h11⟩ := counted_fields pp a d hc h.n300_nonneg h.total
  have ht := h.total
  have := h.n300_nonneg; have := h.n100_nonneg; have := h.n50_nonneg; have := h.nmiss_nonneg
  have f0 := Int.floor_nonneg.mpr (comboMisses_nonneg a hc ht.le)
  have f1 : ⌊comboMisses a combo (n300 + n100 + n50 + nmiss)⌋ ≤ n300 + n100 + n50 + nmiss := by
    have : comboMisses a combo (n300 + n100 + n50 + nmiss) ≤ ((n300 + n100 + n50 + nmiss : Int) : ℝ) := min_le_right _ _
    exact_mod_cast (Int.floor_le _).trans this
  refine ⟨by rw [h1]; exact ht, ?_, ?_, by rw [h3]; exact hc, ?_, ?_, by rw [h8]; exact h.aim,
    by rw [h8]; exact h.speed, by rw [h8]; exact h.flashlight, by rw [h8]; exact h.sliderFactor.1,
    by rw [h8]; exact h.sliderFactor.2, ?_, by rw [h2]; exact h.ar⟩
  · rw [h11]; simp only; split <;> omega
  · rw [h11, h1]; simp only; split <;> omega
  · rw [h9]; exact le_min (by norm_num) (le_max_left _ _)
  · rw [h9]; exact min_le_left _ _
  · rw [h10]; split
    · exact h.objects
    · exact h.circles

/-- Two plays of one map: `'` is the worse one. -/
theorem counted_worse (pp : PPv2 ℝ) {a a' : Attributes ℝ} {d : Difficulty ℝ}
    {combo n300 n100 n50 nmiss combo' n300' n100' n50' nmiss' : Int}
    (hr : Spec.RatedHigher a' a)
    (hc : 0 ≤ combo') (hcc : combo' ≤ combo)
    (h : Spec.ValidPlay a d n300 n100 n50 nmiss) (h' : Spec.ValidPlay a' d n300' n100' n50' nmiss')
    (hw : Spec.WorseHits d n300' n100' n50' nmiss' n300 n100 n50 nmiss)
    (hod : 6 * n300' + 2 * n100' + n50' = 6 * n300 + 2 * n100 + n50 ∨ d.odReal ≤ 14.5) :
    Worse (pp.counted a' combo' n300' n100' n50' nmiss' d) (pp.counted a combo n300 n100 n50 nmiss d) := by
  obtain ⟨h1, h2, h3, h4, h5, h6, h7, h8, h9, h10, h11⟩ :=
    counted_fields pp a d (hc.trans hcc) h.n300_nonneg h.total
  obtain ⟨k1, k2, k3, k4, k5, k6, k7, k8, k9, k10, k11⟩ := counted_fields pp a' d hc h'.n300_nonneg h'.total
  have ht := h.total
  have ht' := h'.total
  have hs := hw.total
  have hmiss := hw.miss
  have himp := hw.imperfect
  have hpts := hw.points
  have hcm : comboMisses a' combo' (n300' + n100' + n50' + nmiss') =
      comboMisses a combo' (n300 + n100 + n50 + nmiss) := by
    unfold comboMisses; rw [hr.sliders, hr.maxCombo, hs]
  have f : ⌊comboMisses a combo (n300 + n100 + n50 + nmiss)⌋ ≤
      ⌊comboMisses a' combo' (n300' + n100' + n50' + nmiss')⌋ := by
    rw [hcm]; exact Int.floor_le_floor (comboMisses_anti a hc hcc)
  refine ⟨by rw [h1, k1, hs], by rw [h2, k2], by rw [h10, k10, hr.objects, hr.circles],
    by rw [h8, k8]; exact hr.sliders, by rw [h8, k8]; exact hr.sliderFactor,
    by rw [h8, k8]; simp only; rw [hr.maxCombo], by rw [h8, k8]; exact hr.aim,
    by rw [h8, k8]; exact hr.speed, by rw [h8, k8]; exact hr.flashlight, ?_, by rw [h3, k3]; exact hcc,
    by rw [h5, h6, h7, k5, k6, k7]; exact himp, ?_, ?_, by rw [h4, h5, h6, k4, k5, k6]; omega⟩
  · rw [h11, k11]
    simp only
    split
    · have := hw.relax ‹_›
      omega
    · omega
  · rw [h9, k9]
    refine min_le_min_left _ (max_le_max_left _ ?_)
    rw [hs]
    apply div_le_div_of_nonneg_right
    · exact_mod_cast (by omega)
    · exact_mod_cast (by omega)
  · rw [h9, k9, k2]
    refine hod.imp_left ?_
    intro e
    rw [hs, show 50 * n50' + 100 * n100' + 300 * n300' = 50 * n50 + 100 * n100 + 300 * n300 by omega]

/-- The results of `PPv2x` in terms of the counted play. -/
theorem ppv2x_results (pp : PPv2 ℝ) (a : Attributes ℝ) (d : Difficulty ℝ) (combo n300 n100 n50 nmiss : Int) :
    let p := pp.counted a combo n300 n100 n50 nmiss d
    (pp.ppv2x a combo n300 n100 n50 nmiss d).results =
      ⟨p.computeAimValue, p.computeSpeedValue, p.computeAccuracyValue, p.computeFlashlightValue,
        PPv2.total p.computeAimValue p.computeSpeedValue p.computeAccuracyValue p.computeFlashlightValue
          (pp.setup a combo n300 n100 n50 nmiss d).finalMultiplier⟩ := rfl

theorem setup_multiplier_ord (pp : PPv2 ℝ) {a a' : Attributes ℝ} {d : Difficulty ℝ}
    {combo n300 n100 n50 nmiss combo' n300' n100' n50' nmiss' : Int}
    (hr : Spec.RatedHigher a' a) (hc : 0 ≤ combo') (hcc : combo' ≤ combo)
    (h : Spec.ValidPlay a d n300 n100 n50 nmiss) (h' : Spec.ValidPlay a' d n300' n100' n50' nmiss')
    (hw : Spec.WorseHits d n300' n100' n50' nmiss' n300 n100 n50 nmiss) :
    Ord (pp.setup a' combo' n300' n100' n50' nmiss' d).finalMultiplier
      (pp.setup a combo n300 n100 n50 nmiss d).finalMultiplier := by
  have m := setup_misses pp a d (hc.trans hcc) h.n300_nonneg h.total.le
  have m' := setup_misses pp a' d hc h'.n300_nonneg h'.total.le
  have t : ∀ {a : Attributes ℝ} {combo n300 n100 n50 nmiss : Int}, 0 ≤ n300 →
      (pp.setup a combo n300 n100 n50 nmiss d).totalHits = n300 + n100 + n50 + nmiss := by
    intro a combo n300 n100 n50 nmiss h0
    show (if n300 < 0 then _ else n300) + n100 + n50 + nmiss = _
    rw [if_neg (by omega)]
  have hs := hw.total
  have hcm : comboMisses a' combo' (n300' + n100' + n50' + nmiss') =
      comboMisses a combo' (n300 + n100 + n50 + nmiss) := by
    unfold comboMisses; rw [hr.sliders, hr.maxCombo, hs]
  have f : ⌊comboMisses a combo (n300 + n100 + n50 + nmiss)⌋ ≤
      ⌊comboMisses a' combo' (n300' + n100' + n50' + nmiss')⌋ := by
    rw [hcm]; exact Int.floor_le_floor (comboMisses_anti a hc hcc)
  have hmiss := hw.miss
  refine multiplier_ord (by rw [t h.n300_nonneg, t h'.n300_nonneg, hs]) rfl (by rw [m, m']; omega) hr.spinners
    h'.spinners.1 ?_
  rw [t h'.n300_nonneg]
  exact h'.spinners.2

end PPv2
end GosuPP
