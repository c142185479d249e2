import Verif.Lemmas.PPReal
import Verif.Props.Difficulty

/-!
# Performance points in exact arithmetic: C56 (sign), C57 (worse plays), C66 (ratings), and C58
(star rating as a function of the skills)
-/

namespace GosuPP.Props
open Go

/-- Same ratings. -/
private theorem rated_refl (a : Attributes ℝ) : Spec.RatedHigher a a :=
  ⟨le_refl _, le_refl _, le_refl _, rfl, rfl, rfl, rfl, rfl, rfl⟩

private theorem hits_refl (d : Difficulty ℝ) (n300 n100 n50 nmiss : Int) :
    Spec.WorseHits d n300 n100 n50 nmiss n300 n100 n50 nmiss :=
  ⟨rfl, le_refl _, le_refl _, le_refl _, fun _ => le_refl _⟩

private theorem all_ord (pp : PPv2 ℝ) {a a' : Attributes ℝ} {d : Difficulty ℝ}
    {combo n300 n100 n50 nmiss combo' n300' n100' n50' nmiss' : Int}
    (hr : Spec.RatedHigher a' a) (hc : 0 ≤ combo') (hcc : combo' ≤ combo)
    (h : Spec.ValidPlay a d n300 n100 n50 nmiss) (h' : Spec.ValidPlay a' d n300' n100' n50' nmiss')
    (hw : Spec.WorseHits d n300' n100' n50' nmiss' n300 n100 n50 nmiss) (hm : n50 ≤ n50')
    (hod : 6 * n300' + 2 * n100' + n50' = 6 * n300 + 2 * n100 + n50 ∨ d.odReal ≤ 14.5) :
    Spec.ResultsLE (pp.ppv2x a' combo' n300' n100' n50' nmiss' d).results
      (pp.ppv2x a combo n300 n100 n50 nmiss d).results := by
  have s := PPv2.counted_sane pp (hc.trans hcc) h
  have s' := PPv2.counted_sane pp hc h'
  have w := PPv2.counted_worse pp hr hc hcc h h' hw hod
  have m := PPv2.setup_multiplier_ord pp hr hc hcc h h' hw
  have f := PPv2.counted_fields pp a d (hc.trans hcc) h.n300_nonneg h.total
  have f' := PPv2.counted_fields pp a' d hc h'.n300_nonneg h'.total
  have ha := PPv2.aim_ord s' s w
  have hs := PPv2.speed_ord s' s w (by rw [f.2.2.2.2.2.1, f'.2.2.2.2.2.1]; exact hm)
  have hacc := PPv2.accuracy_ord s' w
  have hf := PPv2.flashlight_ord s' s w
  rw [PPv2.ppv2x_results, PPv2.ppv2x_results]
  exact ⟨ha, hs, hacc, hf, PPv2.total_ord ha hs hacc hf m⟩

/-! ### C56 -/

/-- C56 (exact). All components of a valid play, and their total, are non-negative. -/
theorem C56_nonneg (pp : PPv2 ℝ) (a : Attributes ℝ) (d : Difficulty ℝ) (combo n300 n100 n50 nmiss : Int)
    (hc : 0 ≤ combo) (h : Spec.ValidPlay a d n300 n100 n50 nmiss) :
    let r := (pp.ppv2x a combo n300 n100 n50 nmiss d).results
    0 ≤ r.aim ∧ 0 ≤ r.speed ∧ 0 ≤ r.acc ∧ 0 ≤ r.flashlight ∧ 0 ≤ r.total := by
  have := all_ord pp (rated_refl a) hc (le_refl _) h h (hits_refl d _ _ _ _) (le_refl _) (.inl rfl)
  exact ⟨this.aim.1, this.speed.1, this.acc.1, this.flashlight.1, this.total.1⟩

/-- C56, why spinners must not exceed the hits (exact). With SpunOut, and more spinners on the map
than hits passed in, the total is not positive, and negative as soon as speed PP is positive. -/
theorem C56_spunout_negative (pp : PPv2 ℝ) (a : Attributes ℝ) (d : Difficulty ℝ)
    (combo n300 n100 n50 nmiss : Int) (hspun : d.mods.active Mod.SpunOut = true) (h3 : 0 ≤ n300)
    (ht : 0 < n300 + n100 + n50 + nmiss) (hsp : n300 + n100 + n50 + nmiss < a.spinners) :
    let r := (pp.ppv2x a combo n300 n100 n50 nmiss d).results
    0 ≤ r.aim → 0 ≤ r.speed → 0 ≤ r.acc → 0 ≤ r.flashlight → r.total ≤ 0 ∧ (0 < r.speed → r.total < 0) := by
  intro r ha hs hacc hf
  have hm : (pp.setup a combo n300 n100 n50 nmiss d).finalMultiplier < 0 := by
    have e1 : (pp.setup a combo n300 n100 n50 nmiss d).totalHits = n300 + n100 + n50 + nmiss := by
      show (if n300 < 0 then _ else n300) + n100 + n50 + nmiss = _
      rw [if_neg (by omega)]
    have e2 : (pp.setup a combo n300 n100 n50 nmiss d).diff = d := rfl
    have e3 : (pp.setup a combo n300 n100 n50 nmiss d).attribs.spinners = a.spinners := rfl
    unfold PPv2.finalMultiplier
    have hcond : n300 + n100 + n50 + nmiss > 0 ∧ Modifier.active d.mods Mod.SpunOut = true := ⟨ht, hspun⟩
    simp only [e1, e2, e3, if_pos hcond]
    have ht' : (0 : ℝ) < (n300 + n100 + n50 + nmiss : Int) := by exact_mod_cast ht
    have hb : (1 : ℝ) < (a.spinners : ℝ) / (n300 + n100 + n50 + nmiss : Int) := by
      rw [lt_div_iff₀ ht', one_mul]; exact_mod_cast hsp
    have hpow := Real.one_lt_rpow hb (by norm_num : (0 : ℝ) < ((0.85 : ℚ) : ℝ))
    have hneg : (lit 1 -. GoLibm.pow (ofInt a.spinners /. ofInt (n300 + n100 + n50 + nmiss)) (lit 0.85) : ℝ) < 0 := by
      simp only [RealArith.sub, RealArith.lit, RealArith.pow, RealArith.div, RealArith.ofInt]
      norm_num at hpow ⊢
      exact hpow
    have hpos : (0 : ℝ) < (if d.mods.active Mod.NoFail = true then
        lit 1.12 *. fmax (lit 0.9) (lit 1 -. lit 0.02 *. ofInt (pp.setup a combo n300 n100 n50 nmiss d).effectiveMissCount)
        else lit 1.12) := by
      split
      · simp only [RealArith.mul, RealArith.sub, RealArith.fmax, RealArith.lit]
        exact mul_pos (by norm_num) (lt_max_of_lt_left (by norm_num))
      · simp only [RealArith.lit]; norm_num
    have hprod := mul_neg_of_pos_of_neg hpos hneg
    split
    · exact mul_neg_of_neg_of_pos hprod (by simp only [RealArith.lit]; norm_num)
    · exact hprod
  have hr : r.total = PPv2.total r.aim r.speed r.acc r.flashlight
      (pp.setup a combo n300 n100 n50 nmiss d).finalMultiplier := by
    simp only [r, PPv2.ppv2x_results]
  rw [hr]
  unfold PPv2.total
  simp only [RealArith.pow, RealArith.add, RealArith.mul, RealArith.lit]
  have p1 := Real.rpow_nonneg ha ((1.1 : ℚ) : ℝ)
  have p2 := Real.rpow_nonneg hs ((1.1 : ℚ) : ℝ)
  have p3 := Real.rpow_nonneg hacc ((1.1 : ℚ) : ℝ)
  have p4 := Real.rpow_nonneg hf ((1.1 : ℚ) : ℝ)
  constructor
  · exact mul_nonpos_of_nonneg_of_nonpos (Real.rpow_nonneg (by positivity) _) hm.le
  · intro hpos
    refine mul_neg_of_pos_of_neg (Real.rpow_pos_of_pos ?_ _) hm
    have := Real.rpow_pos_of_pos hpos ((1.1 : ℚ) : ℝ)
    linarith

/-! ### C57 -/

/-- C57 (exact). A play of the same map that has no better hits, no fewer 50s and no higher combo
gets no more PP, in every component and in total. -/
theorem C57_worse_play (pp : PPv2 ℝ) (a : Attributes ℝ) (d : Difficulty ℝ)
    (combo n300 n100 n50 nmiss combo' n300' n100' n50' nmiss' : Int)
    (hc : 0 ≤ combo') (hcc : combo' ≤ combo) (hod : d.odReal ≤ 14.5)
    (h : Spec.ValidPlay a d n300 n100 n50 nmiss) (h' : Spec.ValidPlay a d n300' n100' n50' nmiss')
    (hw : Spec.WorseHits d n300' n100' n50' nmiss' n300 n100 n50 nmiss) (hm : n50 ≤ n50') :
    Spec.ResultsLE (pp.ppv2x a combo' n300' n100' n50' nmiss' d).results
      (pp.ppv2x a combo n300 n100 n50 nmiss d).results :=
  all_ord pp (rated_refl a) hc hcc h h' hw hm (.inr hod)

/-- C57. In particular turning 300s into 100s, 50s and misses never gains PP. -/
theorem C57_lost_hits (pp : PPv2 ℝ) (a : Attributes ℝ) (d : Difficulty ℝ)
    (combo n300 n100 n50 nmiss k100 k50 kmiss : Int) (hc : 0 ≤ combo) (hod : d.odReal ≤ 14.5)
    (h : Spec.ValidPlay a d n300 n100 n50 nmiss) (hk1 : 0 ≤ k100) (hk2 : 0 ≤ k50) (hk3 : 0 ≤ kmiss)
    (hk : k100 + k50 + kmiss ≤ n300) :
    Spec.ResultsLE
      (pp.ppv2x a combo (n300 - k100 - k50 - kmiss) (n100 + k100) (n50 + k50) (nmiss + kmiss) d).results
      (pp.ppv2x a combo n300 n100 n50 nmiss d).results := by
  have := h.n100_nonneg; have := h.n50_nonneg; have := h.nmiss_nonneg; have := h.total
  have := h.spinners
  refine C57_worse_play pp a d _ _ _ _ _ _ _ _ _ _ hc (le_refl _) hod h
    { h with n300_nonneg := by omega, n100_nonneg := by omega, n50_nonneg := by omega, nmiss_nonneg := by omega
             total := by omega, spinners := by omega }
    ⟨by omega, by omega, by omega, by omega, fun _ => by omega⟩ (by omega)

/-- C57. Aim, accuracy and flashlight PP do not even need the number of 50s. -/
theorem C57_worse_play_components (pp : PPv2 ℝ) (a : Attributes ℝ) (d : Difficulty ℝ)
    (combo n300 n100 n50 nmiss combo' n300' n100' n50' nmiss' : Int)
    (hc : 0 ≤ combo') (hcc : combo' ≤ combo) (hod : d.odReal ≤ 14.5)
    (h : Spec.ValidPlay a d n300 n100 n50 nmiss) (h' : Spec.ValidPlay a d n300' n100' n50' nmiss')
    (hw : Spec.WorseHits d n300' n100' n50' nmiss' n300 n100 n50 nmiss) :
    let r' := (pp.ppv2x a combo' n300' n100' n50' nmiss' d).results
    let r := (pp.ppv2x a combo n300 n100 n50 nmiss d).results
    r'.aim ≤ r.aim ∧ r'.acc ≤ r.acc ∧ r'.flashlight ≤ r.flashlight := by
  have s := PPv2.counted_sane pp (hc.trans hcc) h
  have s' := PPv2.counted_sane pp hc h'
  have w := PPv2.counted_worse pp (rated_refl a) hc hcc h h' hw (.inr hod)
  intro r' r
  simp only [r', r, PPv2.ppv2x_results]
  exact ⟨(PPv2.aim_ord s' s w).2, (PPv2.accuracy_ord s' w).2, (PPv2.flashlight_ord s' s w).2⟩

/-! ### C66 -/

/-- C66 (exact). The same play on a map with higher ratings gets no less PP. -/
theorem C66_ratings (pp : PPv2 ℝ) (a b : Attributes ℝ) (d : Difficulty ℝ) (combo n300 n100 n50 nmiss : Int)
    (hc : 0 ≤ combo) (h : Spec.ValidPlay a d n300 n100 n50 nmiss) (hr : Spec.RatedHigher a b) :
    Spec.ResultsLE (pp.ppv2x a combo n300 n100 n50 nmiss d).results
      (pp.ppv2x b combo n300 n100 n50 nmiss d).results := by
  refine all_ord pp hr hc (le_refl _) ⟨h.n300_nonneg, h.n100_nonneg, h.n50_nonneg, h.nmiss_nonneg, h.total,
    h.aim.trans hr.aim, h.speed.trans hr.speed, h.flashlight.trans hr.flashlight, ?_, ?_, ?_, ?_, h.ar⟩
    h (hits_refl d _ _ _ _) (le_refl _) (.inl rfl)
  · rw [← hr.sliderFactor]; exact h.sliderFactor
  · rw [← hr.circles]; exact h.circles
  · rw [← hr.objects]; exact h.objects
  · rw [← hr.spinners]; exact h.spinners

/-! ### A concrete play that meets the hypotheses -/

/-- 1000 objects, half of them sliders. -/
noncomputable def exampleMap : Attributes ℝ :=
  { total := 6, aim := 3, sliderFactor := 0.98, speed := 2.5, flashlight := 2, objectCount := 1000, circles := 497
    sliders := 500, spinners := 3, maxCombo := 1600 }

noncomputable def exampleDiff (m : Modifier) : Difficulty ℝ := (Spec.DiffInput.mk 5 4 8 9 m 1).fresh

theorem exampleDiff_ranges (m : Modifier) : (exampleDiff m).arReal ≤ 37 ∧ (exampleDiff m).odReal ≤ 14.5 := by
  have := C11_bounded 5 4 8 9 1 m (by norm_num) (by norm_num) (by norm_num)
  exact ⟨this.1.trans (by norm_num), this.2.trans (by norm_num)⟩

theorem exampleDiff_mods (m : Modifier) : (exampleDiff m).mods = m := by
  unfold exampleDiff; rw [fresh_eq]; rfl

theorem example_valid (m : Modifier) {n300 n100 n50 nmiss : Int} (h1 : 0 ≤ n300) (h2 : 0 ≤ n100) (h3 : 0 ≤ n50)
    (h4 : 0 ≤ nmiss) (h5 : 3 ≤ n300 + n100 + n50 + nmiss) :
    Spec.ValidPlay exampleMap (exampleDiff m) n300 n100 n50 nmiss :=
  ⟨h1, h2, h3, h4, by omega, by norm_num [exampleMap], by norm_num [exampleMap], by norm_num [exampleMap],
    by norm_num [exampleMap], by norm_num [exampleMap], by norm_num [exampleMap],
    by simp only [exampleMap]; omega, (exampleDiff_ranges m).1⟩

/-- Turning five 300s into 100s and ten into misses, and losing combo, on the example map. -/
example (pp : PPv2 ℝ) (m : Modifier) :
    Spec.ResultsLE (pp.ppv2x exampleMap 700 965 25 0 10 (exampleDiff m)).results
      (pp.ppv2x exampleMap 1500 980 20 0 0 (exampleDiff m)).results :=
  C57_worse_play pp _ _ _ _ _ _ _ _ _ _ _ _ (by norm_num) (by norm_num) (exampleDiff_ranges m).2
    (example_valid m (by norm_num) (by norm_num) (by norm_num) (by norm_num) (by norm_num))
    (example_valid m (by norm_num) (by norm_num) (by norm_num) (by norm_num) (by norm_num))
    ⟨by norm_num, by norm_num, by norm_num, by norm_num, fun _ => by norm_num⟩ (by norm_num)

/-- The components do not depend on the number of spinners. -/
private theorem results_spinners (pp : PPv2 ℝ) (a : Attributes ℝ) (d : Difficulty ℝ) (combo n300 n100 n50 nmiss k : Int) :
    let r := (pp.ppv2x a combo n300 n100 n50 nmiss d).results
    let r' := (pp.ppv2x { a with spinners := k } combo n300 n100 n50 nmiss d).results
    r.aim = r'.aim ∧ r.speed = r'.speed ∧ r.acc = r'.acc ∧ r.flashlight = r'.flashlight := by
  intro r r'
  have e : pp.setup { a with spinners := k } combo n300 n100 n50 nmiss d =
      { pp.setup a combo n300 n100 n50 nmiss d with
        attribs := { (pp.setup a combo n300 n100 n50 nmiss d).attribs with spinners := k } } := rfl
  simp only [r, r', PPv2.ppv2x_results, PPv2.counted, e]
  generalize pp.setup a combo n300 n100 n50 nmiss d = q
  unfold PPv2.relaxMisses
  simp only
  split <;> exact ⟨rfl, rfl, rfl, rfl⟩

/-- C56. Such a negative total exists: two of the objects of the example map hit, which has three
spinners, with SpunOut. -/
theorem C56_negative_total (pp : PPv2 ℝ) :
    (pp.ppv2x exampleMap 1600 2 0 0 0 (exampleDiff Mod.SpunOut)).results.total < 0 := by
  have v : Spec.ValidPlay { exampleMap with spinners := 0 } (exampleDiff Mod.SpunOut) 2 0 0 0 := by
    refine ⟨by norm_num, by norm_num, by norm_num, by norm_num, by norm_num, by norm_num [exampleMap],
      by norm_num [exampleMap], by norm_num [exampleMap], by norm_num [exampleMap], by norm_num [exampleMap],
      by norm_num [exampleMap], by norm_num, (exampleDiff_ranges _).1⟩
  have nn := C56_nonneg pp _ _ 1600 _ _ _ _ (by norm_num) v
  have s := PPv2.counted_sane pp (combo := 1600) (by norm_num) v
  obtain ⟨h1, h2, h3, h4, h5, h6, h7, h8, h9, h10, h11⟩ :=
    PPv2.counted_fields pp { exampleMap with spinners := 0 } (exampleDiff Mod.SpunOut) (combo := 1600) (by norm_num)
      v.n300_nonneg v.total
  have hcm : ⌊PPv2.comboMisses { exampleMap with spinners := 0 } 1600 2⌋ = 0 := by
    unfold PPv2.comboMisses exampleMap
    norm_num
  have hrel : Modifier.active (exampleDiff Mod.SpunOut).mods Mod.Relax = false := by
    rw [exampleDiff_mods]; decide +kernel
  norm_num [hcm, hrel] at h1 h9 h11
  have hpos : 0 < (pp.counted { exampleMap with spinners := 0 } 1600 2 0 0 0 (exampleDiff Mod.SpunOut)).computeSpeedValue := by
    rw [PPv2.speed_split]
    refine mul_pos (PPv2.speedPrefix_pos s ?_ ?_ ?_) (mul_pos ?_ (by positivity))
    · rw [h11, h1]; norm_num
    · rw [h3]; norm_num
    · rw [h2]
      have := C11_bounded 5 4 8 9 1 Mod.SpunOut (by norm_num) (by norm_num) (by norm_num)
      exact lt_of_le_of_lt this.1 (by norm_num)
    · rw [h9, Real.one_rpow]; norm_num
  have hpos' : 0 < (pp.ppv2x { exampleMap with spinners := 0 } 1600 2 0 0 0 (exampleDiff Mod.SpunOut)).results.speed := by
    rw [PPv2.ppv2x_results]
    exact hpos
  obtain ⟨e1, e2, e3, e4⟩ := results_spinners pp exampleMap (exampleDiff Mod.SpunOut) 1600 2 0 0 0 0
  obtain ⟨n1, n2, n3, n4, -⟩ := nn
  rw [← e1] at n1
  rw [← e2] at n2 hpos'
  rw [← e3] at n3
  rw [← e4] at n4
  exact (C56_spunout_negative pp exampleMap _ 1600 2 0 0 0 (by rw [exampleDiff_mods]; decide +kernel) (by norm_num)
    (by norm_num) (by simp [exampleMap]) n1 n2 n3 n4).2 hpos'

/-- C66 on the example map: one star more in each skill. -/
example (pp : PPv2 ℝ) (m : Modifier) :
    Spec.ResultsLE (pp.ppv2x exampleMap 700 965 25 0 10 (exampleDiff m)).results
      (pp.ppv2x { exampleMap with aim := 4, speed := 3.5, flashlight := 3 } 700 965 25 0 10 (exampleDiff m)).results :=
  C66_ratings pp _ _ _ _ _ _ _ _ (by norm_num)
    (example_valid m (by norm_num) (by norm_num) (by norm_num) (by norm_num) (by norm_num))
    ⟨by norm_num [exampleMap], by norm_num [exampleMap], by norm_num [exampleMap], rfl, rfl, rfl, rfl, rfl, rfl⟩

/-- C57, the other direction (exact): one more miss instead of a 50 can gain speed PP, because the
penalty for 50s is larger than the loss of accuracy, and the combo already accounts for the miss. -/
theorem C57_fifty_to_miss (pp : PPv2 ℝ) :
    Spec.ValidPlay exampleMap (exampleDiff 0) 990 0 10 0 ∧
    (pp.ppv2x exampleMap 100 990 0 10 0 (exampleDiff 0)).results.speed <
      (pp.ppv2x exampleMap 100 990 0 9 1 (exampleDiff 0)).results.speed := by
  refine ⟨example_valid 0 (by norm_num) (by norm_num) (by norm_num) (by norm_num) (by norm_num), ?_⟩
  have v := example_valid 0 (n300 := 990) (n100 := 0) (n50 := 10) (nmiss := 0) (by norm_num) (by norm_num) (by norm_num) (by norm_num) (by norm_num)
  have v' := example_valid 0 (n300 := 990) (n100 := 0) (n50 := 9) (nmiss := 1) (by norm_num) (by norm_num) (by norm_num) (by norm_num) (by norm_num)
  obtain ⟨h1, h2, h3, h4, h5, h6, h7, h8, h9, h10, h11⟩ :=
    PPv2.counted_fields pp exampleMap (exampleDiff 0) (combo := 100) (by norm_num) v.n300_nonneg v.total
  obtain ⟨k1, k2, k3, k4, k5, k6, k7, k8, k9, k10, k11⟩ :=
    PPv2.counted_fields pp exampleMap (exampleDiff 0) (combo := 100) (by norm_num) v'.n300_nonneg v'.total
  have s := PPv2.counted_sane pp (combo := 100) (by norm_num) v
  have hcm : ⌊PPv2.comboMisses exampleMap 100 1000⌋ = 15 := by
    unfold PPv2.comboMisses exampleMap
    norm_num
  have hrel : Modifier.active (exampleDiff 0).mods Mod.Relax = false := by
    rw [exampleDiff_mods]; decide +kernel
  norm_num [hcm, hrel] at h1 h9 h11 k1 k9 k11
  have e := PPv2.speed_split
  rw [PPv2.ppv2x_results, PPv2.ppv2x_results]
  simp only [e]
  rw [PPv2.speedPrefix_congr (h1.trans k1.symm) (h2.trans k2.symm) (h8.trans k8.symm) (h11.trans k11.symm) (h3.trans k3.symm)]
  have hpos : 0 < (pp.counted exampleMap 100 990 0 9 1 (exampleDiff 0)).speedPrefix := by
    refine PPv2.speedPrefix_pos (PPv2.counted_sane pp (combo := 100) (by norm_num) v') ?_ ?_ ?_
    · rw [k11, k1]; norm_num
    · rw [k3]; norm_num
    · rw [k2]
      have := C11_bounded 5 4 8 9 1 0 (by norm_num) (by norm_num) (by norm_num)
      exact lt_of_le_of_lt this.1 (by norm_num)
  refine mul_lt_mul_of_pos_left ?_ hpos
  rw [h1, h2, h6, h9, k1, k2, k6, k9]
  have hod := (exampleDiff_ranges 0).2
  generalize (exampleDiff 0).odReal = od at hod
  have he : 0 ≤ (14.5 - max od 8) / 2 := by
    have : max od 8 ≤ 14.5 := max_le hod (by norm_num)
    linarith
  have he' : (14.5 - max od 8) / 2 ≤ 4 := by
    have := le_max_right od 8
    norm_num
    linarith
  generalize (14.5 - max od 8) / 2 = e at he he'
  have h8 : (if (((10 : Int) : ℝ) ≥ ((1000 : Int) : ℝ) / 500) then ((10 : Int) : ℝ) - ((1000 : Int) : ℝ) / 500 else 0) = 7 + 1 := by
    norm_num
  have h7 : (if (((9 : Int) : ℝ) ≥ ((1000 : Int) : ℝ) / 500) then ((9 : Int) : ℝ) - ((1000 : Int) : ℝ) / 500 else 0) = 7 := by
    norm_num
  rw [h8, h7, Real.rpow_add (by norm_num), Real.rpow_one]
  have hx : (1983 / 2000 : ℝ) ^ e = (119 / 120 : ℝ) ^ e * (5949 / 5950 : ℝ) ^ e := by
    rw [← Real.mul_rpow (by norm_num) (by norm_num)]
    norm_num
  rw [hx]
  have hr : (0.98 : ℝ) < (5949 / 5950 : ℝ) ^ e := by
    refine lt_of_lt_of_le ?_ (Real.rpow_le_rpow_of_exponent_ge (by norm_num) (by norm_num) he')
    norm_num
  have p1 : (0 : ℝ) < (119 / 120 : ℝ) ^ e := by positivity
  have p2 : (0 : ℝ) < (0.98 : ℝ) ^ (7 : ℝ) := by positivity
  calc (119 / 120 : ℝ) ^ e * ((0.98 : ℝ) ^ (7 : ℝ) * 0.98) = ((119 / 120 : ℝ) ^ e * (0.98 : ℝ) ^ (7 : ℝ)) * 0.98 := by ring
    _ < ((119 / 120 : ℝ) ^ e * (0.98 : ℝ) ^ (7 : ℝ)) * (5949 / 5950 : ℝ) ^ e := mul_lt_mul_of_pos_left hr (by positivity)
    _ = _ := by ring

/-! ### C58 -/

private theorem cbrt_ord {x y : ℝ} (h : Ord x y) : Ord (GoLibm.cbrt x) (GoLibm.cbrt y) := by
  have e : ∀ z : ℝ, 0 ≤ z → GoLibm.cbrt z = z ^ ((1 : ℝ) / 3) := by
    intro z hz
    show (if z < 0 then _ else _) = _
    rw [if_neg (not_lt.mpr hz)]
  rw [e x h.1, e y (h.1.trans h.2)]
  exact h.pow (by norm_num)

private theorem base_perf {a s f : ℝ} (ha : (1 : ℝ) / 100000 ≤ a) (hs : (1 : ℝ) / 100000 ≤ s) (hf : 0 ≤ f) :
    (1 : ℝ) / 100000 * 2 ^ ((10 : ℝ) / 11) ≤
      GoLibm.pow (GoLibm.pow a (lit 1.1) +. GoLibm.pow s (lit 1.1) +. GoLibm.pow f (lit 1.1)) (lit (1 / 1.1)) := by
  simp only [RealArith.pow, RealArith.add, RealArith.lit]
  have e1 : ((1.1 : ℚ) : ℝ) = 11 / 10 := by norm_num
  have e2 : ((1 / 1.1 : ℚ) : ℝ) = 10 / 11 := by norm_num
  rw [e1, e2]
  have hb : (0 : ℝ) < (1 / 100000 : ℝ) ^ ((11 : ℝ) / 10) := by positivity
  have h1 : (1 / 100000 : ℝ) ^ ((11 : ℝ) / 10) ≤ a ^ ((11 : ℝ) / 10) := Real.rpow_le_rpow (by norm_num) ha (by norm_num)
  have h2 : (1 / 100000 : ℝ) ^ ((11 : ℝ) / 10) ≤ s ^ ((11 : ℝ) / 10) := Real.rpow_le_rpow (by norm_num) hs (by norm_num)
  have h3 := Real.rpow_nonneg hf ((11 : ℝ) / 10)
  have h4 : (1 / 100000 : ℝ) ^ ((11 : ℝ) / 10) * 2 ≤ a ^ ((11 : ℝ) / 10) + s ^ ((11 : ℝ) / 10) + f ^ ((11 : ℝ) / 10) := by
    linarith
  have h5 := Real.rpow_le_rpow (by positivity) h4 (by norm_num : (0 : ℝ) ≤ 10 / 11)
  rwa [Real.mul_rpow hb.le (by norm_num), ← Real.rpow_mul (by norm_num), show (11 : ℝ) / 10 * (10 / 11) = 1 by norm_num,
    Real.rpow_one] at h5

private theorem ppBase_min (x : ℝ) : (1 : ℝ) / 100000 ≤ ppBase x := by
  rw [ppBase_real]
  have := le_max_left 1 (x / 0.0675)
  have h : (1 : ℝ) ≤ 5 * max 1 (x / 0.0675) - 4 := by linarith
  have := Real.one_le_rpow h (by norm_num : (0 : ℝ) ≤ 3)
  exact div_le_div_of_nonneg_right this (by norm_num)

private theorem totalFromBases_ord {a s f a' s' f' : ℝ} (ha : (1 : ℝ) / 100000 ≤ a) (hs : (1 : ℝ) / 100000 ≤ s)
    (hf : 0 ≤ f) (haa : a ≤ a') (hss : s ≤ s') (hff : f ≤ f') :
    Ord (totalFromBases a s f) (totalFromBases a' s' f') := by
  have h0 : (0 : ℝ) < 1 / 100000 := by norm_num
  have e : (0 : ℝ) ≤ lit 1.1 := by simp only [RealArith.lit]; norm_num
  have oa : Ord a a' := ⟨h0.le.trans ha, haa⟩
  have os : Ord s s' := ⟨h0.le.trans hs, hss⟩
  have of : Ord f f' := ⟨hf, hff⟩
  have hb : Ord (GoLibm.pow (GoLibm.pow a (lit 1.1) +. GoLibm.pow s (lit 1.1) +. GoLibm.pow f (lit 1.1)) (lit (1 / 1.1)))
      (GoLibm.pow (GoLibm.pow a' (lit 1.1) +. GoLibm.pow s' (lit 1.1) +. GoLibm.pow f' (lit 1.1)) (lit (1 / 1.1))) :=
    Ord.pow (((oa.pow e).add (os.pow e)).add (of.pow e)) (by simp only [RealArith.lit]; norm_num)
  have hlow := base_perf ha hs hf
  have hlow' := hlow.trans hb.2
  unfold totalFromBases
  simp only [RealArith.lt]
  generalize GoLibm.pow (GoLibm.pow a (lit 1.1) +. GoLibm.pow s (lit 1.1) +. GoLibm.pow f (lit 1.1)) (lit (1 / 1.1)) = x at *
  generalize GoLibm.pow (GoLibm.pow a' (lit 1.1) +. GoLibm.pow s' (lit 1.1) +. GoLibm.pow f' (lit 1.1)) (lit (1 / 1.1)) = y at *
  have h2 : (1 : ℝ) < 2 ^ ((10 : ℝ) / 11) := Real.one_lt_rpow (by norm_num) (by norm_num)
  have hx : (lit 0.00001 : ℝ) < x := by
    simp only [RealArith.lit]; norm_num at *; linarith
  have hy : (lit 0.00001 : ℝ) < y := hx.trans_le hb.2
  rw [if_pos hx, if_pos hy]
  have c0 : (0 : ℝ) ≤ GoLibm.cbrt (lit 1.12) *. lit 0.027 := by
    refine mul_nonneg (cbrt_ord (Ord.refl ?_)).1 ?_ <;> (simp only [RealArith.lit]; norm_num)
  refine Ord.const c0 (Ord.add (cbrt_ord (Ord.const ?_ hb)) (Ord.refl ?_))
  · simp only [RealArith.lit, RealArith.div, RealArith.pow]
    exact div_nonneg (by norm_num) (Real.rpow_nonneg (by norm_num) _)
  · simp only [RealArith.lit]; norm_num

private theorem rating_le {x y : ℝ} (h : x ≤ y) :
    Ord (GoFloat.sqrt x *. lit 0.0675) (GoFloat.sqrt y *. lit 0.0675) := by
  simp only [RealArith.sqrt, RealArith.mul, RealArith.lit]
  exact Ord.mul ⟨Real.sqrt_nonneg _, Real.sqrt_le_sqrt h⟩ (Ord.refl (by norm_num))

/-- C58 (exact). The star rating does not decrease when raw aim, raw speed or raw flashlight
difficulty increases. -/
theorem C58_monotone (aim aimNS speed fl aim' aimNS' speed' fl' : ℝ) (d : Difficulty ℝ) (attr attr' : Attributes ℝ)
    (ha : aim ≤ aim') (hs : speed ≤ speed') (hf : fl ≤ fl') :
    let r := getStarsFromRawValues aim aimNS speed fl d attr
    let r' := getStarsFromRawValues aim' aimNS' speed' fl' d attr'
    0 ≤ r.total ∧ r.total ≤ r'.total := by
  intro r r'
  simp only [r, r', getStarsFromRawValues]
  refine totalFromBases_ord (ppBase_min _) (ppBase_min _) ?_ (ppBase_ord (rating_le ha).2).2 ?_ ?_
  · split
    · simp only [RealArith.pow, RealArith.mul, RealArith.lit]
      exact mul_nonneg (Real.rpow_nonneg (rating_le (le_refl fl)).1 _) (by norm_num)
    · simp only [RealArith.lit]; norm_num
  · split
    · exact le_refl _
    · exact (ppBase_ord (rating_le hs).2).2
  · split
    · simp only [RealArith.pow, RealArith.mul, RealArith.lit]
      exact (((rating_le hf).pow (by norm_num)).mul (Ord.refl (by norm_num))).2
    · exact le_refl _

/-- C58 (any arithmetic). With Relax the attributes do not depend on raw speed, and without
Flashlight the total does not depend on raw flashlight. -/
theorem C58_relax {D : Type} [GoFloat D] [GoLibm D] (aim aimNS speed speed' fl : D) (d : Difficulty D)
    (attr : Attributes D) (h : d.mods.active Mod.Relax = true) :
    getStarsFromRawValues aim aimNS speed fl d attr = getStarsFromRawValues aim aimNS speed' fl d attr := by
  unfold getStarsFromRawValues
  have h' : d.checkModActive Mod.Relax = true := h
  simp only [h', if_true]

theorem C58_no_flashlight {D : Type} [GoFloat D] [GoLibm D] (aim aimNS speed fl fl' : D) (d : Difficulty D)
    (attr : Attributes D) (h : d.mods.active Mod.Flashlight = false) :
    (getStarsFromRawValues aim aimNS speed fl d attr).total = (getStarsFromRawValues aim aimNS speed fl' d attr).total := by
  unfold getStarsFromRawValues
  have h' : d.checkModActive Mod.Flashlight = false := h
  simp only [h', Bool.false_eq_true, if_false]

/-- C58 (exact). No map has fewer than `0.135 · ∛1.12` (about 0.14) stars; a map without any strain
has exactly that many. -/
theorem C58_minimum (aim aimNS speed fl : ℝ) (d : Difficulty ℝ) (attr : Attributes ℝ) :
    0.135 * (1.12 : ℝ) ^ ((1 : ℝ) / 3) ≤ (getStarsFromRawValues aim aimNS speed fl d attr).total ∧
    (getStarsFromRawValues 0 0 0 0 d attr).total = 0.135 * (1.12 : ℝ) ^ ((1 : ℝ) / 3) := by
  have key : (getStarsFromRawValues 0 0 0 0 d attr).total = 0.135 * (1.12 : ℝ) ^ ((1 : ℝ) / 3) := by
    have hs : (GoFloat.sqrt (0 : ℝ) *. lit 0.0675 : ℝ) = 0 := by
      simp only [RealArith.sqrt, RealArith.mul, Real.sqrt_zero, zero_mul]
    have hb : ppBase (0 : ℝ) = 1 / 100000 := by rw [ppBase_real]; norm_num
    have hl : (lit 0 : ℝ) = 0 := by simp [RealArith.lit]
    unfold getStarsFromRawValues
    simp only [hs, hl, ite_self, hb]
    have hf : (if d.checkModActive Mod.Flashlight = true then GoLibm.pow (0 : ℝ) (lit 2) *. lit 25 else 0) = 0 := by
      split
      · simp only [RealArith.pow, RealArith.mul, RealArith.lit]
        rw [Real.zero_rpow (by norm_num), zero_mul]
      · rfl
    rw [hf]
    unfold totalFromBases
    have e1 : ((1.1 : ℚ) : ℝ) = 11 / 10 := by norm_num
    have e2 : ((1 / 1.1 : ℚ) : ℝ) = 10 / 11 := by norm_num
    have hp : GoLibm.pow (GoLibm.pow (1 / 100000 : ℝ) (lit 1.1) +. GoLibm.pow (1 / 100000 : ℝ) (lit 1.1) +.
        GoLibm.pow (0 : ℝ) (lit 1.1)) (lit (1 / 1.1)) = 1 / 100000 * 2 ^ ((10 : ℝ) / 11) := by
      simp only [RealArith.pow, RealArith.add, RealArith.lit]
      rw [e1, e2, Real.zero_rpow (by norm_num), add_zero, ← mul_two, Real.mul_rpow (by positivity) (by norm_num),
        ← Real.rpow_mul (by norm_num), show (11 : ℝ) / 10 * (10 / 11) = 1 by norm_num, Real.rpow_one]
    simp only [hp]
    have h2 : (1 : ℝ) < 2 ^ ((10 : ℝ) / 11) := Real.one_lt_rpow (by norm_num) (by norm_num)
    rw [if_pos (by rw [RealArith.lt, RealArith.lit]; norm_num at *; linarith)]
    have hc : ∀ z : ℝ, 0 ≤ z → GoLibm.cbrt z = z ^ ((1 : ℝ) / 3) := by
      intro z hz
      show (if z < 0 then _ else _) = _
      rw [if_neg (not_lt.mpr hz)]
    have h1 : (lit 100000 /. GoLibm.pow (lit 2) (lit (1 / 1.1)) *. (1 / 100000 * 2 ^ ((10 : ℝ) / 11)) : ℝ) = 1 := by
      simp only [RealArith.pow, RealArith.mul, RealArith.div, RealArith.lit]
      rw [e2, show ((2 : ℚ) : ℝ) = 2 by norm_num]
      have : (2 : ℝ) ^ ((10 : ℝ) / 11) ≠ 0 := by positivity
      field_simp
      norm_num
    rw [h1, hc 1 (by norm_num), Real.one_rpow, RealArith.lit, hc _ (by norm_num)]
    simp only [RealArith.mul, RealArith.add, RealArith.lit]
    norm_num
    ring
  refine ⟨?_, key⟩
  rw [← key]
  have e : ∀ x : ℝ, GoFloat.sqrt x = GoFloat.sqrt (max 0 x) := by
    intro x
    simp only [RealArith.sqrt]
    rcases le_total 0 x with h | h
    · rw [max_eq_right h]
    · rw [max_eq_left h, Real.sqrt_zero, Real.sqrt_eq_zero_of_nonpos h]
  have e' : getStarsFromRawValues aim aimNS speed fl d attr =
      getStarsFromRawValues (max 0 aim) aimNS (max 0 speed) (max 0 fl) d attr := by
    unfold getStarsFromRawValues
    rw [← e, ← e, ← e]
  rw [e']
  exact (C58_monotone 0 0 0 0 _ aimNS _ _ d attr attr (le_max_left _ _) (le_max_left _ _) (le_max_left _ _)).2

end GosuPP.Props
