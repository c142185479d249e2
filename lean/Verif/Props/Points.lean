import Verif.Lemmas.ExactPP
import Verif.Lemmas.PPStricter
import Verif.Lemmas.Rates
import Verif.Props.Enlarged
import Verif.Props.Harder
import Verif.Props.Visible
import Verif.Spec.Points

/-!
# C109: performance points of every play of a map
-/

namespace GosuPP.Props
open Go Spec Exactly PPv2
attribute [local instance] exactLibm

/-- Ratings as they are needed for performance points. -/
private structure Fit (a : Attributes (Option ℝ)) : Prop where
  aim : Amount a.aim
  speed : Amount a.speed
  flashlight : Amount a.flashlight
  factor : ∃ f : ℝ, a.sliderFactor = some f ∧ 0 ≤ f ∧ f ≤ 1

private def plainMap (a : Attributes (Option ℝ)) : Attributes ℝ where
  total := 0
  aim := a.aim.getD 0
  sliderFactor := a.sliderFactor.getD 0
  speed := a.speed.getD 0
  flashlight := a.flashlight.getD 0
  objectCount := a.objectCount
  circles := a.circles
  sliders := a.sliders
  spinners := a.spinners
  maxCombo := a.maxCombo

private noncomputable def plainDiff (mods : Modifier) (ar od : ℝ) : Difficulty ℝ :=
  { (Difficulty.new 0 0 0 0 : Difficulty ℝ) with mods := mods, arReal := ar, odReal := od }

private theorem alike_map {a : Attributes (Option ℝ)} (h : Fit a) : AlikeMap a (plainMap a) := by
  obtain ⟨⟨x, hx, -⟩, ⟨y, hy, -⟩, ⟨z, hz, -⟩, f, hf, -⟩ := h
  constructor <;> simp [plainMap, hx, hy, hz, hf]

private theorem alike_diff {d : Difficulty (Option ℝ)} {ar od : ℝ} (h1 : d.arReal = some ar) (h2 : d.odReal = some od) :
    AlikeDiff d (plainDiff d.mods ar od) := ⟨rfl, h1, h2⟩

private theorem valid {a : Attributes (Option ℝ)} (h : Fit a) (hc : 0 ≤ a.circles) (ho : 0 ≤ a.objectCount) (hs : 0 ≤ a.spinners)
    {n300 n100 n50 nmiss : ℤ} (hj : Judged a.spinners n300 n100 n50 nmiss) (mods : Modifier) {ar : ℝ} (har : ar ≤ 37) (od : ℝ) :
    ValidPlay (plainMap a) (plainDiff mods ar od) n300 n100 n50 nmiss := by
  obtain ⟨⟨x, hx, x0⟩, ⟨y, hy, y0⟩, ⟨z, hz, z0⟩, f, hf, f0⟩ := h
  refine ⟨hj.greats, hj.goods, hj.mehs, hj.misses, hj.judged, ?_, ?_, ?_, ?_, hc, ho, ⟨hs, hj.spins⟩, har⟩
  · simpa [plainMap, hx] using x0
  · simpa [plainMap, hy] using y0
  · simpa [plainMap, hz] using z0
  · simpa [plainMap, hf] using f0

private theorem no_fewer {r s : PPv2Results ℝ} (h : ResultsLE r s) :
    NoFewer ⟨some r.aim, some r.speed, some r.acc, some r.flashlight, some r.total⟩
      ⟨some s.aim, some s.speed, some s.acc, some s.flashlight, some s.total⟩ := by
  obtain ⟨h1, h2, h3, h4, h5⟩ := h
  have k := fun {x y : ℝ} (h : 0 ≤ x ∧ x ≤ y) => (.inr ⟨x, y, rfl, rfl, h.1, h.2⟩ : NoMore (some x) (some y))
  exact ⟨⟨⟨_, rfl, h1.1⟩, ⟨_, rfl, h2.1⟩, ⟨_, rfl, h3.1⟩, ⟨_, rfl, h4.1⟩, ⟨_, rfl, h5.1⟩⟩,
    ⟨⟨_, rfl, h1.1.trans h1.2⟩, ⟨_, rfl, h2.1.trans h2.2⟩, ⟨_, rfl, h3.1.trans h3.2⟩, ⟨_, rfl, h4.1.trans h4.2⟩, ⟨_, rfl, h5.1.trans h5.2⟩⟩,
    k h1, k h2, k h3, k h4, k h5⟩

private theorem le_trans' {r s t : PPv2Results ℝ} (h : ResultsLE r s) (k : ResultsLE s t) : ResultsLE r t :=
  ⟨⟨h.aim.1, h.aim.2.trans k.aim.2⟩, ⟨h.speed.1, h.speed.2.trans k.speed.2⟩, ⟨h.acc.1, h.acc.2.trans k.acc.2⟩,
    ⟨h.flashlight.1, h.flashlight.2.trans k.flashlight.2⟩, ⟨h.total.1, h.total.2.trans k.total.2⟩⟩

/-- The comparison behind all of C109. -/
private theorem compare_judged {a b : Attributes (Option ℝ)} (ha : Fit a) (hb : Fit b) (h1 : NoMore a.aim b.aim) (h2 : NoMore a.speed b.speed)
    (h3 : NoMore a.flashlight b.flashlight) (h4 : b.sliderFactor = a.sliderFactor)
    (h5 : (b.objectCount, b.circles, b.sliders, b.spinners, b.maxCombo) = (a.objectCount, a.circles, a.sliders, a.spinners, a.maxCombo))
    (hc : 0 ≤ a.circles) (ho : 0 ≤ a.objectCount) (hs : 0 ≤ a.spinners) {d d' : Difficulty (Option ℝ)} (hm : d'.mods = d.mods)
    {ar od od' : ℝ} (har : d.arReal = some ar) (har' : d'.arReal = some ar) (har1 : ar ≤ 37) (hod : d.odReal = some od)
    (hod' : d'.odReal = some od') (hle : od = od' ∨ 0 ≤ od ∧ od ≤ od' ∧ od' ≤ 14.5) (pp : PPv2 (Option ℝ)) (combo : ℤ)
    {n300 n100 n50 nmiss : ℤ} (hj : Judged a.spinners n300 n100 n50 nmiss) :
    NoFewer (pp.ppv2x a combo n300 n100 n50 nmiss d).results (pp.ppv2x b combo n300 n100 n50 nmiss d').results := by
  simp only [Prod.mk.injEq] at h5
  obtain ⟨c1, c2, c3, c4, c5⟩ := h5
  wlog hcombo : 0 ≤ combo generalizing combo
  · rw [C53_combo _ _ _ _ _ _ _ _ (not_le.mp hcombo), C53_combo _ _ _ _ _ _ _ _ (not_le.mp hcombo), c5]
    exact this _ (by omega)
  have real : ∀ {x y : Option ℝ}, Amount x → NoMore x y → x.getD 0 ≤ y.getD 0 := by
    rintro x y ⟨u, rfl, -⟩ (⟨h, -⟩ | ⟨v, w, h, rfl, -, hvw⟩)
    · cases h
    · rw [h]; exact hvw
  have hr : RatedHigher (plainMap a) (plainMap b) :=
    ⟨real ha.aim h1, real ha.speed h2, real ha.flashlight h3, by simp only [plainMap, h4], c1.symm, c2.symm, c3.symm, c4.symm, c5.symm⟩
  have v := valid ha hc ho hs hj d.mods har1 od
  have v' := valid hb (c2 ▸ hc) (c1 ▸ ho) (c4 ▸ hs) (c4 ▸ hj) d.mods har1 od
  let qq : PPv2 ℝ := ⟨⟨0, 0, 0, 0, 0⟩, plainMap a, 0, 0, 0, 0, 0, 0, plainDiff 0 0 0, 0, 0, 0⟩
  have e1 := ppv2x_some pp qq (combo := combo) (alike_map ha) (alike_diff har hod) hj.greats hj.judged
  have e2 := ppv2x_some pp qq (combo := combo) (alike_map hb) (alike_diff har' hod') hj.greats hj.judged
  dsimp only at e1 e2
  rw [e1, e2, hm]
  have r1 := C66_ratings qq (plainMap a) (plainMap b) (plainDiff d.mods ar od) combo n300 n100 n50 nmiss hcombo v hr
  rcases hle with rfl | ⟨o1, o2, o3⟩
  · exact no_fewer r1
  · exact no_fewer (le_trans' r1 (stricter_od (d' := plainDiff d.mods ar od') qq hcombo v' rfl rfl o1 o2 o3))

private theorem compare {a b : Attributes (Option ℝ)} (ha : Fit a) (hb : Fit b) (h1 : NoMore a.aim b.aim) (h2 : NoMore a.speed b.speed)
    (h3 : NoMore a.flashlight b.flashlight) (h4 : b.sliderFactor = a.sliderFactor)
    (h5 : (b.objectCount, b.circles, b.sliders, b.spinners, b.maxCombo) = (a.objectCount, a.circles, a.sliders, a.spinners, a.maxCombo))
    (hc : 0 ≤ a.circles) (ho : 0 ≤ a.objectCount) (hs : 0 ≤ a.spinners) {d d' : Difficulty (Option ℝ)} (hm : d'.mods = d.mods)
    {ar od od' : ℝ} (har : d.arReal = some ar) (har' : d'.arReal = some ar) (har1 : ar ≤ 37) (hod : d.odReal = some od)
    (hod' : d'.odReal = some od') (hle : od = od' ∨ 0 ≤ od ∧ od ≤ od' ∧ od' ≤ 14.5) (pp : PPv2 (Option ℝ)) (combo : ℤ)
    {n300 n100 n50 nmiss : ℤ} (hj : Played a.objectCount a.spinners n300 n100 n50 nmiss) :
    NoFewer (pp.ppv2x a combo n300 n100 n50 nmiss d).results (pp.ppv2x b combo n300 n100 n50 nmiss d').results := by
  rcases hj with ⟨hneg, hj⟩ | hj
  · have e : b.objectCount = a.objectCount := by
      simp only [Prod.mk.injEq] at h5
      exact h5.1
    rw [C53_n300 _ _ _ _ _ _ _ _ hneg, C53_n300 _ _ _ _ _ _ _ _ hneg, e]
    exact compare_judged ha hb h1 h2 h3 h4 h5 hc ho hs hm har har' har1 hod hod' hle pp combo hj
  · exact compare_judged ha hb h1 h2 h3 h4 h5 hc ho hs hm har har' har1 hod hod' hle pp combo hj

private theorem nomore_refl {x : Option ℝ} (h : Amount x) : NoMore x x := by
  obtain ⟨v, rfl, h⟩ := h
  exact .inr ⟨v, v, rfl, rfl, h, le_rfl⟩

private theorem counts_nonneg [GoSort] {objs : List (Obj (Option ℝ) (Option ℝ))} {d : Difficulty (Option ℝ)} {fuel : ℕ} {a : Attributes (Option ℝ)}
    (h : calculateSingle fuel objs d = .ok a) : 0 ≤ a.circles ∧ 0 ≤ a.objectCount ∧ 0 ≤ a.spinners := by
  obtain ⟨h1, h2, -, h4, -⟩ := C46_counts fuel objs d a h
  rw [h1, h2, h4]
  and_intros <;> omega

private theorem fit [GoSort] {objs : List (Obj (Option ℝ) (Option ℝ))} {d : Difficulty (Option ℝ)} {c r w : ℝ} (hv : Visible d.mods objs)
    (hne : objs ≠ []) (hr : d.speed = some r) (hr0 : 0 < r) (hc : d.circleRadius = some c) (hc0 : 0 < c) (hw : d.hit300 = some w) (hw0 : 0 < w)
    {fuel : ℕ} {a : Attributes (Option ℝ)} (ha : calculateSingle fuel objs d = .ok a) :
    Fit a ∧ ((∀ o ∈ objs, o.isSlider = false) → a.sliderFactor = some 1) := by
  have hs := visible_shows hc hc0 hne hv
  by_cases hn : 2 ≤ objs.length
  · choose isl hl using islands_exist (r := r) (x := notesOf d objs)
    obtain ⟨l1, l2, l3, l4, -, -, -, -, -, g1, g2, g3, g4, g5⟩ := C100_ratings hs hr hr0 hc hc0 hw hw0 hl hn ha
    refine ⟨⟨⟨_, g1, ratingOf_nonneg _⟩, ⟨_, g3, ?_⟩, ⟨_, g4, ratingOf_nonneg _⟩, C101_sliderFactor hs hr hr0 hc hc0 hw hw0 hn ha⟩,
      fun hpl => C101_circles hs hr hr0 hc hc0 hw hw0 hn (plain_note hpl hne) ha⟩
    split
    · exact le_rfl
    · exact ratingOf_nonneg _
  · have h1 : objs.length = 1 := by
      have : 0 < objs.length := List.length_pos_iff.mpr hne
      omega
    obtain ⟨o, rfl⟩ := List.length_eq_one_iff.mp h1
    obtain ⟨a1, a2, a3, a4, a5⟩ := C100_one ha
    exact ⟨⟨⟨_, a2, le_rfl⟩, ⟨_, a3, le_rfl⟩, ⟨_, a4, le_rfl⟩, ⟨_, a5, by norm_num, le_rfl⟩⟩, fun _ => a5⟩

/-- The values a difficulty derives from its stats. -/
private theorem derived {d : Difficulty (Option ℝ)} {cs od ar s : ℝ} (hcs : d.cs = some cs) (hcs1 : cs ≤ 12) (hod : d.od = some od) (hod1 : od ≤ 13)
    (har : d.ar = some ar) (har1 : ar ≤ 12) (hs : 0 < s) (hcu : d.customSpeed = some s) :
    ∃ r c w : ℝ, 0 < r ∧ 0 < c ∧ 0 < w ∧ d.calculate.speed = some r ∧ d.calculate.circleRadius = some c ∧ d.calculate.hit300 = some w ∧
      d.calculate.odReal = some ((80 - w / r) / 6) ∧ ∃ y : ℝ, y ≤ 37 ∧ d.calculate.arReal = some y := by
  obtain ⟨-, x, -, ex, -, h12⟩ := Exactly.adjust_mono d.mods (k := 1.3) (by norm_num) (show (10 : ℝ) ≤ 12 by norm_num) (le_refl cs)
  obtain ⟨-, y, -, ey, -, h13⟩ := Exactly.adjust_mono d.mods (k := 1.4) (by norm_num) (show (10 : ℝ) ≤ 13 by norm_num) (le_refl od)
  obtain ⟨-, z, -, ez, -, h14⟩ := Exactly.adjust_mono d.mods (k := 1.4) (by norm_num) (show (10 : ℝ) ≤ 12 by norm_num) (le_refl ar)
  obtain ⟨p, hp, ep⟩ := preempt_pos (h14 har1)
  have hr := mul_pos (modRate_pos d.mods) hs
  obtain ⟨v, hv, ev⟩ := ar_number (div_pos hp hr)
  refine ⟨modRate d.mods * s, 54.4 - 4.48 * x, 80 - 6 * y, hr, ?_, ?_, ?_, ?_, ?_, ?_, v, by linarith, ?_⟩
  · have := h12 hcs1
    norm_num
    linarith
  · have := h13 hod1
    linarith
  · show lit 1 /. Difficulty.modifiedTime d.mods d.customSpeed (lit 1) = _
    rw [hcu, speed_exact d.mods hs]
  · show difficultyRate (Difficulty.adjust d.mods 1.3 d.cs) _ _ _ = _
    rw [hcs, ex, radius_exact]
  · show difficultyRate (Difficulty.adjust d.mods 1.4 d.od) _ _ _ = _
    rw [hod, ey, rate300]
  · show diffFromRate (Difficulty.modifiedTime d.mods d.customSpeed (difficultyRate (Difficulty.adjust d.mods 1.4 d.od) _ _ _)) _ _ _ = _
    rw [hod, ey, rate300, hcu, modified d.mods hs, od_exact]
  · show diffFromRate (Difficulty.modifiedTime d.mods d.customSpeed (difficultyRate (Difficulty.adjust d.mods 1.4 d.ar) _ _ _)) _ _ _ = _
    rw [har, ez, ep, hcu, modified d.mods hs, ev]

section
variable [GoSort] {objs : List (Obj (Option ℝ) (Option ℝ))} {d : Difficulty (Option ℝ)}

/-- C109 (exact arithmetic). On a map in which all times and positions are defined, every play gets performance points that are
numbers and not negative: with all mods, at all speeds and with every combo (below 0 for the largest). CS and AR are at most 12, OD
at most 13. -/
theorem C109_points {cs od ar s : ℝ} {mods : Modifier} (hv : Visible mods objs) (hne : objs ≠ []) (hcs : d.cs = some cs) (hcs1 : cs ≤ 12)
    (hod : d.od = some od) (hod1 : od ≤ 13) (har : d.ar = some ar) (har1 : ar ≤ 12) (hs : 0 < s) :
    ∃ N, ∀ fuel ≥ N, ∃ a, calculateSingle fuel objs ((d.setMods mods).setCustomSpeed (some s)) = .ok a ∧
      ∀ (pp : PPv2 (Option ℝ)) (combo n300 n100 n50 nmiss : ℤ), Played objs.length (objs.countP Obj.isSpinner) n300 n100 n50 nmiss →
        Points (pp.ppv2x a combo n300 n100 n50 nmiss ((d.setMods mods).setCustomSpeed (some s))).results := by
  obtain ⟨r, c, w, hr, hc, hw, er, ec, ew, eo, y, hy, ey⟩ := derived (d := { d.setMods mods with customSpeed := some s }) hcs hcs1 hod hod1 har har1 hs rfl
  obtain ⟨N, hN⟩ := C105_rated (d := (d.setMods mods).setCustomSpeed (some s)) hv hne er hr ec hc ew hw
  refine ⟨N, fun fuel hf => ?_⟩
  obtain ⟨a, ha, -⟩ := hN fuel hf
  refine ⟨a, ha, fun pp combo n300 n100 n50 nmiss hj => ?_⟩
  obtain ⟨f, -⟩ := fit (d := (d.setMods mods).setCustomSpeed (some s)) hv hne er hr ec hc ew hw ha
  obtain ⟨n1, n2, n3⟩ := counts_nonneg ha
  rw [← (C46_counts fuel objs _ a ha).1, ← (C46_counts fuel objs _ a ha).2.2.2.1] at hj
  exact (compare f f (nomore_refl f.aim) (nomore_refl f.speed) (nomore_refl f.flashlight) rfl rfl n1 n2 n3 rfl ey ey hy eo eo (.inl rfl) pp combo hj).before

/-- C109 (exact arithmetic). Raising OD to at most 13 never lowers any performance points of a play, as long as the effective OD
before was not negative (it is negative at low OD with HalfTime, see `C109_low_od`). -/
theorem C109_od {cs ar s x y e : ℝ} (hv : Visible d.mods objs) (hne : objs ≠ []) (hcs : d.cs = some cs) (hcs1 : cs ≤ 12)
    (har : d.ar = some ar) (har1 : ar ≤ 12) (hs : 0 < s) (hcu : d.customSpeed = some s) (hxy : x ≤ y) (hy : y ≤ 13)
    (he : (d.setOD (some x)).odReal = some e) (he0 : 0 ≤ e) :
    ∃ N, ∀ fuel ≥ N, ∃ a a', calculateSingle fuel objs (d.setOD (some x)) = .ok a ∧ calculateSingle fuel objs (d.setOD (some y)) = .ok a' ∧
      ∀ (pp : PPv2 (Option ℝ)) (combo n300 n100 n50 nmiss : ℤ), Played objs.length (objs.countP Obj.isSpinner) n300 n100 n50 nmiss →
        NoFewer (pp.ppv2x a combo n300 n100 n50 nmiss (d.setOD (some x))).results
          (pp.ppv2x a' combo n300 n100 n50 nmiss (d.setOD (some y))).results := by
  obtain ⟨r, c, w, hr, hc, hw, er, ec, ew, eo, v, hv1, ev⟩ := derived (d := { d with od := some x }) hcs hcs1 rfl (hxy.trans hy) har har1 hs hcu
  obtain ⟨r', c', w', hr', hc', hw', er', ec', ew', eo', v', hv1', ev'⟩ := derived (d := { d with od := some y }) hcs hcs1 rfl hy har har1 hs hcu
  obtain ⟨N, hN⟩ := C105_rated (d := d.setOD (some x)) hv hne er hr ec hc ew hw
  refine ⟨N, fun fuel hf => ?_⟩
  obtain ⟨a, ha, -⟩ := hN fuel hf
  obtain ⟨a', ha', hh⟩ := C91_od hv.time hs hcu hxy hy ha
  refine ⟨a, a', ha, ha', fun pp combo n300 n100 n50 nmiss hj => ?_⟩
  obtain ⟨f, -⟩ := fit (d := d.setOD (some x)) hv hne er hr ec hc ew hw ha
  obtain ⟨f', -⟩ := fit (d := d.setOD (some y)) hv hne er' hr' ec' hc' ew' hw' ha'
  obtain ⟨n1, n2, n3⟩ := counts_nonneg ha
  rw [← (C46_counts fuel objs _ a ha).1, ← (C46_counts fuel objs _ a ha).2.2.2.1] at hj
  have rr : r' = r := Option.some.inj (er'.symm.trans er)
  have vv : v' = v := Option.some.inj (ev'.symm.trans ev)
  subst rr vv
  have ww : w' ≤ w := by
    obtain ⟨x', y', ex, ey, hle, -⟩ := Exactly.adjust_mono d.mods (k := 1.4) (by norm_num) (show (10 : ℝ) ≤ 13 by norm_num) hxy
    have i1 : difficultyRate (Difficulty.adjust d.mods 1.4 (some x)) (lit 80) (lit 50) (lit 20) = some w := ew
    have i2 : difficultyRate (Difficulty.adjust d.mods 1.4 (some y)) (lit 80) (lit 50) (lit 20) = some w' := ew'
    rw [ex, rate300] at i1
    rw [ey, rate300] at i2
    rw [← Option.some.inj i1, ← Option.some.inj i2]
    linarith
  have q := div_le_div_of_nonneg_right ww hr.le
  have q' := div_pos hw' hr
  have he' : (80 - w / r') / 6 = e := Option.some.inj (eo.symm.trans he)
  refine compare (d := d.setOD (some x)) (d' := d.setOD (some y)) f f' ?_ hh.speed ?_ hh.sliderFactor hh.counts n1 n2 n3 rfl ev ev' hv1 eo eo' (.inr ⟨he' ▸ he0, ?_, ?_⟩) pp combo hj
  · rw [hh.aim]; exact nomore_refl f.aim
  · rw [hh.flashlight]; exact nomore_refl f.flashlight
  · linarith
  · norm_num; linarith

/-- C109 (exact arithmetic). Raising CS to at most 12 never lowers any performance points of a play of a map of circles and
spinners. -/
theorem C109_cs {od ar s x y : ℝ} (hpl : ∀ o ∈ objs, o.isSlider = false) (hv : Visible d.mods objs) (hne : objs ≠ [])
    (hod : d.od = some od) (hod1 : od ≤ 13) (har : d.ar = some ar) (har1 : ar ≤ 12) (hs : 0 < s) (hcu : d.customSpeed = some s)
    (hxy : x ≤ y) (hy : y ≤ 12) :
    ∃ N, ∀ fuel ≥ N, ∃ a a', calculateSingle fuel objs (d.setCS (some x)) = .ok a ∧ calculateSingle fuel objs (d.setCS (some y)) = .ok a' ∧
      ∀ (pp : PPv2 (Option ℝ)) (combo n300 n100 n50 nmiss : ℤ), Played objs.length (objs.countP Obj.isSpinner) n300 n100 n50 nmiss →
        NoFewer (pp.ppv2x a combo n300 n100 n50 nmiss (d.setCS (some x))).results
          (pp.ppv2x a' combo n300 n100 n50 nmiss (d.setCS (some y))).results := by
  obtain ⟨r, c, w, hr, hc, hw, er, ec, ew, eo, v, hv1, ev⟩ := derived (d := { d with cs := some x }) rfl (hxy.trans hy) hod hod1 har har1 hs hcu
  obtain ⟨r', c', w', hr', hc', hw', er', ec', ew', eo', v', hv1', ev'⟩ := derived (d := { d with cs := some y }) rfl hy hod hod1 har har1 hs hcu
  obtain ⟨N, hN⟩ := C104_cs hpl hv hne hs hcu hod hod1 hxy hy
  refine ⟨N, fun fuel hf => ?_⟩
  obtain ⟨a, a', -, -, ha, ha', -, -, hh, -⟩ := hN fuel hf
  refine ⟨a, a', ha, ha', fun pp combo n300 n100 n50 nmiss hj => ?_⟩
  obtain ⟨f, g⟩ := fit (d := d.setCS (some x)) hv hne er hr ec hc ew hw ha
  obtain ⟨f', g'⟩ := fit (d := d.setCS (some y)) hv hne er' hr' ec' hc' ew' hw' ha'
  obtain ⟨n1, n2, n3⟩ := counts_nonneg ha
  obtain ⟨k1, k2, k3, k4, k5⟩ := C46_counts fuel objs _ a ha
  obtain ⟨l1, l2, l3, l4, l5⟩ := C46_counts fuel objs _ a' ha'
  rw [← k1, ← k4] at hj
  have vv : v' = v := Option.some.inj (ev'.symm.trans ev)
  have oo : (80 - w' / r') / 6 = (80 - w / r) / 6 := Option.some.inj (eo'.symm.trans eo)
  subst vv
  refine compare (d := d.setCS (some x)) (d' := d.setCS (some y)) f f' hh.aim hh.speed hh.flashlight ?_ ?_ n1 n2 n3 rfl ev ev' hv1 eo eo' (.inl oo.symm) pp combo hj
  · rw [g hpl, g' hpl]
  · rw [k1, k2, k3, k4, k5, l1, l2, l3, l4, l5]

end

/-- C109 (exact arithmetic). From the file to the performance points: a map with objects that is read from a file as in
`C105_visible`. -/
theorem C109_file [GoSort] {fuel : ℕ} {text : Str} {m : BeatMap (Option ℝ) (Option ℝ)} (h : parseText fuel text = .ok (some m))
    (hclean : ∀ arr ∈ records "HitObjects" (scanLines bufferSize text), CleanRecord arr)
    (hmov : ∀ o ∈ m.hitObjects, Moving m.timings o) (hne : m.hitObjects ≠ []) {cs od ar s : ℝ} (hcs : m.difficulty.getCS = some cs)
    (hcs1 : cs ≤ 12) (hod : m.difficulty.getOD = some od) (hod1 : od ≤ 13) (har : m.difficulty.getAR = some ar) (har1 : ar ≤ 12)
    (hs : 0 < s) (mods : Modifier) :
    ∃ N, ∀ fuel ≥ N, ∃ a, calculateSingle fuel m.hitObjects ((m.difficulty.setMods mods).setCustomSpeed (some s)) = .ok a ∧
      ∀ (pp : PPv2 (Option ℝ)) (combo n300 n100 n50 nmiss : ℤ),
        Played m.hitObjects.length (m.hitObjects.countP Obj.isSpinner) n300 n100 n50 nmiss →
        Points (pp.ppv2x a combo n300 n100 n50 nmiss ((m.difficulty.setMods mods).setCustomSpeed (some s))).results :=
  C109_points (C105_visible h hclean ⟨_, hcs⟩ hmov mods) hne hcs hcs1 hod hod1 har har1 hs

/-- C109 (exact arithmetic). Every play of a map as an editor writes it gets performance points that are numbers and not
negative. -/
theorem C109_written [GoSort] {fuel : ℕ} {f : File} (hf : FairFile f) (hne : f.objects ≠ []) {m : BeatMap (Option ℝ) (Option ℝ)}
    (h : parseText fuel f.text = .ok (some m)) {s : ℝ} (hs : 0 < s) (mods : Modifier) :
    ∃ N, ∀ fuel ≥ N, ∃ a, calculateSingle fuel m.hitObjects ((m.difficulty.setMods mods).setCustomSpeed (some s)) = .ok a ∧
      ∀ (pp : PPv2 (Option ℝ)) (combo n300 n100 n50 nmiss : ℤ),
        Played m.hitObjects.length (m.hitObjects.countP Obj.isSpinner) n300 n100 n50 nmiss →
        Points (pp.ppv2x a combo n300 n100 n50 nmiss ((m.difficulty.setMods mods).setCustomSpeed (some s))).results := by
  obtain ⟨-, -, ⟨-, hcs, hod, har, -⟩, -⟩ := C78_values fuel f hf.good m h
  obtain ⟨-, -, -, hlen, -⟩ := C78_counters fuel f hf.good m h
  have hcl : ∀ d : Dec, ∃ x : ℝ, (clampF64 d.value (lit 0) (lit 10) : Option ℝ) = some x ∧ x ≤ 10 := by
    intro d
    rw [value_amount, Exact.lit, Exact.lit, Exact.clamp]
    exact ⟨_, rfl, (min_le_left _ _).trans (by norm_num)⟩
  obtain ⟨cs, ecs, hcs1⟩ := hcl f.cs
  obtain ⟨od, eod, hod1⟩ := hcl f.od
  obtain ⟨ar, ear, har1⟩ := hcl f.ar
  refine C109_file h ?_ ?_ ?_ (hcs.trans ecs) (by linarith) (hod.trans eod) (by linarith) (har.trans ear) (by linarith) hs mods
  · exact (written_moves hf h).1
  · exact (written_moves hf h).2
  · intro hnil
    rw [hnil, List.length_nil] at hlen
    exact hne (List.length_eq_zero_iff.mp hlen.symm)

/-- C109 (exact arithmetic), why the effective OD must not be negative: between two effective ODs of at most 0, the higher one gives
strictly fewer points for aim. -/
theorem C109_low_od {a : Attributes ℝ} {d d' : Difficulty ℝ} {combo n300 n100 n50 nmiss : ℤ} (pp : PPv2 ℝ) (hc : 0 ≤ combo)
    (h : ValidPlay a d n300 n100 n50 nmiss) (hm : d'.mods = d.mods) (har : d'.arReal = d.arReal) (hodd : d.odReal < d'.odReal)
    (hod : d'.odReal ≤ 0) (hpos : 0 < (pp.ppv2x a combo n300 n100 n50 nmiss d).results.aim) :
    (pp.ppv2x a combo n300 n100 n50 nmiss d').results.aim < (pp.ppv2x a combo n300 n100 n50 nmiss d).results.aim :=
  lower_od pp hc h hm har hodd hod hpos

private theorem all_great {objs : List (Obj (Option ℝ) (Option ℝ))} (hne : objs ≠ []) :
    Played objs.length (objs.countP Obj.isSpinner) (-1) 0 0 0 := by
  have h0 : 0 < objs.length := List.length_pos_iff.mpr hne
  have h1 : objs.countP Obj.isSpinner ≤ objs.length := List.countP_le_length
  refine .inl ⟨by omega, ?_⟩
  constructor <;> omega

/-- C109: a full combo of 300s on the sample file, with HardRock and DoubleTime at 1.25 times the speed. -/
example [GoSort] (pp : PPv2 (Option ℝ)) : ∃ m : BeatMap (Option ℝ) (Option ℝ), parseText 0 Sample.plain.text = .ok (some m) ∧
    ∃ fuel a, calculateSingle fuel m.hitObjects ((m.difficulty.setMods (Mod.HardRock ||| Mod.DoubleTime)).setCustomSpeed (some 1.25)) = .ok a ∧
      Points (pp.ppv2x a (-1) (-1) 0 0 0 ((m.difficulty.setMods (Mod.HardRock ||| Mod.DoubleTime)).setCustomSpeed (some 1.25))).results := by
  obtain ⟨m, hm⟩ := C78_parses (S := Option ℝ) (D := Option ℝ) 0 Sample.plain Sample.plain_good (by simp [Sample.plain, Sample.file])
    (by simp [Sample.plain, Sample.file]) (by decide)
  obtain ⟨N, hN⟩ := C109_written plain_fair (by simp [Sample.plain]) hm (s := 1.25) (by norm_num) (Mod.HardRock ||| Mod.DoubleTime)
  obtain ⟨a, ha, h⟩ := hN N le_rfl
  have hne : m.hitObjects ≠ [] := by
    obtain ⟨-, -, -, hlen, -⟩ := C78_counters 0 Sample.plain Sample.plain_good m hm
    intro hnil
    rw [hnil] at hlen
    simp [Sample.plain] at hlen
  exact ⟨m, hm, N, a, ha, h pp _ _ _ _ _ (all_great hne)⟩

private theorem stats_jumps : exactDiff.customSpeed = some 1 ∧ exactDiff.cs = some 5 ∧ exactDiff.od = some 5 ∧ exactDiff.ar = some 5 := by
  refine ⟨?_, ?_, ?_, ?_⟩ <;> exact congrArg some (by norm_num)

/-- C109: OD 5 and OD 9 with HalfTime on a map of jumps. -/
example [GoSort] (pp : PPv2 (Option ℝ)) : ∃ fuel a a', calculateSingle fuel (jumps 1) (exactDiff.setOD (some 5)) = .ok a ∧
    calculateSingle fuel (jumps 1) (exactDiff.setOD (some 9)) = .ok a' ∧
      NoFewer (pp.ppv2x a (-1) (-1) 0 0 0 (exactDiff.setOD (some 5))).results (pp.ppv2x a' (-1) (-1) 0 0 0 (exactDiff.setOD (some 9))).results := by
  obtain ⟨h1, h2, h3, h4⟩ := stats_jumps
  have he : (exactDiff.setOD (some 5)).odReal = some (20 / 9) := by
    have e1 : modRate exactDiff.mods = 0.75 := by unfold modRate; rw [if_neg (by decide), if_pos (by decide)]
    have e2 : Difficulty.adjust exactDiff.mods 1.4 (some 5 : Option ℝ) = some 5 := by
      unfold Difficulty.adjust
      rw [show Modifier.active exactDiff.mods Mod.HardRock = false from by decide, show Modifier.active exactDiff.mods Mod.Easy = false from by decide]
      rfl
    show diffFromRate (Difficulty.modifiedTime exactDiff.mods exactDiff.customSpeed
      (difficultyRate (Difficulty.adjust exactDiff.mods 1.4 (some 5)) _ _ _)) _ _ _ = _
    rw [e2, rate300, h1, modified _ one_pos, od_exact, e1]
    norm_num
  obtain ⟨N, hN⟩ := C109_od (d := exactDiff) (objs := jumps 1) (x := 5) (y := 9) (jumps_visible 1) (by simp [jumps]) h2 (by norm_num) h4 (by norm_num)
    one_pos h1 (by norm_num) (by norm_num) he (by norm_num)
  obtain ⟨a, a', ha, ha', h⟩ := hN N le_rfl
  exact ⟨N, a, a', ha, ha', h pp _ _ _ _ _ (all_great (by simp [jumps]))⟩

/-- C109: CS 4 and CS 6.5 on the same map, with one miss. -/
example [GoSort] (pp : PPv2 (Option ℝ)) : ∃ fuel a a', calculateSingle fuel (jumps 1) (exactDiff.setCS (some 4)) = .ok a ∧
    calculateSingle fuel (jumps 1) (exactDiff.setCS (some 6.5)) = .ok a' ∧
      NoFewer (pp.ppv2x a 1 (-1) 0 0 1 (exactDiff.setCS (some 4))).results (pp.ppv2x a' 1 (-1) 0 0 1 (exactDiff.setCS (some 6.5))).results := by
  obtain ⟨h1, h2, h3, h4⟩ := stats_jumps
  obtain ⟨N, hN⟩ := C109_cs (d := exactDiff) (objs := jumps 1) (x := 4) (y := 6.5) (fun o ho => (jumps_all 1 o ho).1.plain) (jumps_visible 1)
    (by simp [jumps]) h3 (by norm_num) h4 (by norm_num) one_pos h1 (by norm_num) (by norm_num)
  obtain ⟨a, a', ha, ha', h⟩ := hN N le_rfl
  refine ⟨N, a, a', ha, ha', h pp _ _ _ _ _ (.inl ⟨by norm_num, ?_⟩)⟩
  have hc : (jumps 1).countP Obj.isSpinner = 0 := rfl
  have hl : (jumps 1).length = 3 := rfl
  rw [hc, hl]
  constructor <;> norm_num

/-- C109: effective ODs of -4 and -3 (as with HalfTime at OD 0 to 1), a full combo on two objects with an aim rating of 3. -/
example (pp : PPv2 ℝ) (d : Difficulty ℝ) (hm : d.mods = 0) (har : d.arReal = 9) :
    let a : Attributes ℝ := ⟨3, 3, 1, 2, 0, 2, 2, 0, 0, 2⟩
    (pp.ppv2x a 2 2 0 0 0 { d with odReal := -3 }).results.aim < (pp.ppv2x a 2 2 0 0 0 { d with odReal := -4 }).results.aim := by
  intro a
  have v : ValidPlay a { d with odReal := -4 } 2 0 0 0 := by
    constructor <;> norm_num [a, har]
  refine C109_low_od pp (by norm_num) v rfl rfl (by norm_num) (by norm_num) ?_
  rw [(C95_perfect pp a { d with odReal := -4 } (combo := 2) (n := 2) (by norm_num [a]) (by norm_num) (by norm_num)
    (by norm_num [a]) (by unfold Spec.timed; split <;> norm_num [a])).1]
  unfold perfectAim
  have h1 : 0 < baseValue (touched { d with odReal := -4 } a.aim) := by
    have : touched { d with odReal := -4 } a.aim = 3 := by
      unfold touched
      rw [if_neg (by simp only [hm]; decide)]
    rw [this]
    unfold baseValue
    have := le_max_left (1 : ℝ) (3 / 0.0675)
    have : 0 < 5 * max (1 : ℝ) (3 / 0.0675) - 4 := by linarith
    positivity
  have h2 : Spec.hiddenFactor { d with odReal := -4 } = 1 := by
    unfold Spec.hiddenFactor
    rw [if_neg (by simp only [hm]; decide)]
  have h3 : Spec.lengthFactor ((2 : ℤ) : ℝ) = 0.9504 := by
    unfold Spec.lengthFactor
    rw [if_pos (by norm_num)]
    norm_num
  have h4 : 0 ≤ highAR { d with odReal := -4 } := mul_nonneg (by norm_num) (le_max_left _ _)
  have h5 : 0 ≤ lowAR { d with odReal := -4 } := mul_nonneg (by norm_num) (le_max_left _ _)
  rw [h2, h3]
  positivity

end GosuPP.Props
