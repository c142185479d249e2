import Verif.Lemmas.Rating
import Verif.Props.Rhythm
import Verif.Props.Memory

/-!
# C100: the ratings of every map
-/

namespace GosuPP.Props
open Go Spec Exactly
attribute [local instance] exactLibm

section
variable {c r w : ℝ} {x : ℕ → Note} {objs : List (Obj (Option ℝ) (Option ℝ))} {d : Difficulty (Option ℝ)}

/-- C100 (exact arithmetic). The ratings of every map with at least two objects. -/
theorem C100_ratings [GoSort] (hs : Shows d x objs) (hr : d.speed = some r) (hr0 : 0 < r) (hc : d.circleRadius = some c) (hc0 : 0 < c)
    (hw : d.hit300 = some w) (hw0 : 0 < w) {isl : ℕ → List (ℕ × ℕ)} (hl : ∀ n, Islands r x n (isl n))
    (hn : 2 ≤ objs.length) {fuel : ℕ} {a : Attributes (Option ℝ)} (h : calculateSingle fuel objs d = .ok a) :
    ∃ aims still taps lights : List ℝ,
      PeakList 0.15 (clock r x) (fun n => 23.25 * aimHit c r x true n) (fun _ => 1) (objs.length - 1) (aims.map some) ∧
      PeakList 0.15 (clock r x) (fun n => 23.25 * aimHit c r x false n) (fun _ => 1) (objs.length - 1) (still.map some) ∧
      PeakList 0.3 (clock r x) (fun n => 1375 * speedHit r w x c n) (fun n => rhythmFactor r w x n (isl n)) (objs.length - 1)
        (taps.map some) ∧
      (d.checkModActive Mod.Flashlight = true →
        PeakList 0.15 (clock r x) (fun n => 0.15 * flashHit c r x n) (fun _ => 1) (objs.length - 1) (lights.map some)) ∧
      (d.checkModActive Mod.Flashlight = false → lights = []) ∧
      let aim := ratingOf (peakValue 10 0.9 1.06 aims)
      let aimStill := ratingOf (peakValue 10 0.9 1.06 still)
      let speed := if d.checkModActive Mod.Relax = true then 0 else ratingOf (peakValue 5 0.9 1.04 taps)
      let flashlight := ratingOf (peakValue 10 1 1.06 lights)
      a.aim = some aim ∧
      a.sliderFactor = some (if 0.00001 < aim then aimStill / aim else 1) ∧
      a.speed = some speed ∧
      a.flashlight = some flashlight ∧
      a.total = some (starsOf aim speed flashlight) := by
  unfold calculateSingle calculateSingleCore at h
  obtain ⟨⟨a', sk⟩, h, e⟩ := bind_ok h
  obtain ⟨ds, hd, h⟩ := bind_ok h
  obtain ⟨first, -, h⟩ := bind_ok h
  obtain ⟨⟨attr, sk'⟩, hloop, h⟩ := bind_ok h
  have e1 := (Prod.mk.inj (Except.ok.inj h)).1
  have e2 := Except.ok.inj e
  simp only at e1 e2
  rw [← e2, ← e1]
  clear e h e1 e2
  obtain ⟨f1, f2, f3⟩ := singleLoop_fold hloop
  obtain ⟨f4, f5⟩ := singleLoop_flash hloop
  have c1 := (aim_notes true hs hr hr0 hc hc0 hd f1)
  have c2 := (aim_notes false hs hr hr0 hc hc0 hd f2)
  have c3 := (speed_notes hs hr hr0 hc hc0 hw hw0 hl hd f3)
  have p1 := (c1.curve (by omega)).list
  have p2 := (c2.curve (by omega)).list
  have p3 := (c3.curve (by omega)).list
  obtain ⟨la, ea, na⟩ := reals_of_peaks (by norm_num) (fun n => mul_nonneg (by norm_num) (aimHit_nonneg hc0 hs.toPlayable _ n)) (fun _ => zero_le_one) p1
  obtain ⟨ln, en, nn⟩ := reals_of_peaks (by norm_num) (fun n => mul_nonneg (by norm_num) (aimHit_nonneg hc0 hs.toPlayable _ n)) (fun _ => zero_le_one) p2
  obtain ⟨ls, es, ns⟩ := reals_of_peaks (by norm_num) (fun n => mul_nonneg (by norm_num) (speedHit_nonneg hc0 hr0 hw0 hs.toPlayable n))
    (fun _ => rhythmFactor_nonneg _ _) p3
  have q75 : (lit 0.9 : Option ℝ) = some 0.9 := by rw [Exact.lit]; norm_num
  have q106 : (lit 1.06 : Option ℝ) = some 1.06 := by rw [Exact.lit]; norm_num
  have q104 : (lit 1.04 : Option ℝ) = some 1.04 := by rw [Exact.lit]; norm_num
  have q1 : (lit 1 : Option ℝ) = some 1 := by rw [Exact.lit]; norm_num
  have q0 : (lit 0 : Option ℝ) = some 0 := by rw [Exact.lit]; norm_num
  have v1 : sk'.aim.difficultyValue = some (peakValue 10 0.9 1.06 la) := by
    unfold Skill.difficultyValue
    rw [ea, value_exact (c1.same.reducedStrainBaseline.symm.trans rfl) (c1.same.decayWeight.symm.trans q75) (c1.same.difficultyMultiplier.symm.trans q106),
      ← c1.same.reducedSectionCount]
    rfl
  have v2 : sk'.aimNoSliders.difficultyValue = some (peakValue 10 0.9 1.06 ln) := by
    unfold Skill.difficultyValue
    rw [en, value_exact (c2.same.reducedStrainBaseline.symm.trans rfl) (c2.same.decayWeight.symm.trans q75) (c2.same.difficultyMultiplier.symm.trans q106),
      ← c2.same.reducedSectionCount]
    rfl
  have v3 : sk'.speed.difficultyValue = some (peakValue 5 0.9 1.04 ls) := by
    unfold Skill.difficultyValue
    rw [es, value_exact (c3.same.reducedStrainBaseline.symm.trans rfl) (c3.same.decayWeight.symm.trans q75) (c3.same.difficultyMultiplier.symm.trans q104),
      ← c3.same.reducedSectionCount]
    rfl
  have z : peakValue 10 1 1.06 [] = 0 := by simp [peakValue, hardestFirst, easedFrom, weighted]
  obtain ⟨lf, v4, nf, l1, l2⟩ : ∃ lf : List ℝ,
      sk'.getStars d attr = getStarsFromRawValues (some (peakValue 10 0.9 1.06 la)) (some (peakValue 10 0.9 1.06 ln))
        (some (peakValue 5 0.9 1.04 ls)) (some (peakValue 10 1 1.06 lf)) d attr ∧
      (∀ y ∈ lf, 0 ≤ y) ∧ (d.checkModActive Mod.Flashlight = true →
        PeakList 0.15 (clock r x) (fun n => 0.15 * flashHit c r x n) (fun _ => 1) (objs.length - 1) (lf.map some)) ∧
      (d.checkModActive Mod.Flashlight = false → lf = []) := by
    unfold SkillSet.getStars
    rw [v1, v2, v3]
    cases hfl : d.checkModActive Mod.Flashlight
    · have := f4 (by show (if d.checkModActive Mod.Flashlight = true then _ else none) = none; rw [hfl]; rfl)
      refine ⟨[], ?_, by simp, by simp, fun _ => rfl⟩
      rw [this, z, ← q0]
    · obtain ⟨f', g1, g2⟩ := f5 (Skill.newFlashlight d)
        (by show (if d.checkModActive Mod.Flashlight = true then some (Skill.newFlashlight d) else none) = _; rw [hfl]; rfl)
      have c4 := flash_notes hs hr hr0 hc hc0 hd g2
      have p4 := (c4.curve (by omega)).list
      obtain ⟨lf, ef, nf⟩ := reals_of_peaks (by norm_num) (fun n => mul_nonneg (by norm_num) (flashHit_nonneg n)) (fun _ => zero_le_one) p4
      refine ⟨lf, ?_, nf, fun _ => ef ▸ p4, fun h => by cases h⟩
      rw [g1]
      simp only
      congr 1
      unfold Skill.difficultyValue
      rw [ef, value_exact (c4.same.reducedStrainBaseline.symm.trans rfl) (c4.same.decayWeight.symm.trans q1) (c4.same.difficultyMultiplier.symm.trans q106),
        ← c4.same.reducedSectionCount]
      rfl
  refine ⟨la, ln, ls, lf, ea ▸ p1, en ▸ p2, es ▸ p3, l1, l2, ?_⟩
  rw [v4, stars_exact d attr (peakValue_nonneg (by norm_num) (by norm_num) na) (peakValue_nonneg (by norm_num) (by norm_num) nn)
    (peakValue_nonneg (by norm_num) (by norm_num) ns) (peakValue_nonneg (by norm_num) (by norm_num) nf)
    (fun h => by rw [l2 h, z])]
  exact ⟨rfl, rfl, rfl, rfl, rfl⟩

/-- C100. No map has fewer than 0.135 times the cube root of 1.12 stars (about 0.14). -/
theorem C100_floor [GoSort] (hs : Shows d x objs) (hr : d.speed = some r) (hr0 : 0 < r) (hc : d.circleRadius = some c) (hc0 : 0 < c)
    (hw : d.hit300 = some w) (hw0 : 0 < w) (hn : 2 ≤ objs.length) {fuel : ℕ} {a : Attributes (Option ℝ)}
    (h : calculateSingle fuel objs d = .ok a) : ∃ t, a.total = some t ∧ (1.12 : ℝ) ^ (1 / 3 : ℝ) * 0.135 ≤ t := by
  choose isl hl using islands_exist (r := r) (x := x)
  obtain ⟨_, _, _, _, -, -, -, -, -, -, -, -, -, h⟩ := C100_ratings hs hr hr0 hc hc0 hw hw0 hl hn h
  exact ⟨_, h, starsOf_ge _ _ _⟩

/-- C100. That is what a map with a single object has. -/
theorem C100_one [GoSort] {o : Obj (Option ℝ) (Option ℝ)} {fuel : ℕ} {a : Attributes (Option ℝ)}
    (h : calculateSingle fuel [o] d = .ok a) :
    a.total = some ((1.12 : ℝ) ^ (1 / 3 : ℝ) * 0.135) ∧ a.aim = some 0 ∧ a.speed = some 0 ∧ a.flashlight = some 0 ∧
      a.sliderFactor = some 1 := by
  unfold calculateSingle calculateSingleCore at h
  obtain ⟨⟨a', sk⟩, h, e⟩ := bind_ok h
  obtain ⟨ds, hd, h⟩ := bind_ok h
  have hlen := createDifficultyObjects_length hd
  obtain rfl : ds = [] := List.length_eq_zero_iff.mp (by simpa using hlen)
  obtain ⟨first, -, h⟩ := bind_ok h
  obtain ⟨⟨attr, sk'⟩, hloop, h⟩ := bind_ok h
  obtain ⟨rfl, rfl⟩ := Prod.mk.inj (Except.ok.inj hloop)
  have e1 := (Prod.mk.inj (Except.ok.inj h)).1
  have e2 := Except.ok.inj e
  simp only at e1 e2
  rw [← e2, ← e1]
  clear e h e1 e2 hloop hd hlen
  have q9 : (lit 0.9 : Option ℝ) = some 0.9 := by rw [Exact.lit]; norm_num
  have q106 : (lit 1.06 : Option ℝ) = some 1.06 := by rw [Exact.lit]; norm_num
  have q104 : (lit 1.04 : Option ℝ) = some 1.04 := by rw [Exact.lit]; norm_num
  have q1 : (lit 1 : Option ℝ) = some 1 := by rw [Exact.lit]; norm_num
  have q0 : (lit 0 : Option ℝ) = some 0 := by rw [Exact.lit]; norm_num
  have z : ∀ (count : ℕ) (w m : ℝ), peakValue count w m [0] = 0 := by
    intro count w m; simp [peakValue, hardestFirst, easedFrom, weighted]
  have v0 : ∀ b, (Skill.newAim d b : Skill (Option ℝ) (Option ℝ)).difficultyValue = some 0 := by
    intro b
    rw [← z 10 0.9 1.06]
    have : (Skill.newAim d b : Skill (Option ℝ) (Option ℝ)).getCurrentStrainPeaks = [0].map some := by
      show [(lit 0 : Option ℝ)] = _; rw [q0]; rfl
    unfold Skill.difficultyValue
    rw [this, value_exact (dw := 0.9) (m := 1.06) rfl q9 q106]; rfl
  have v3 : (Skill.newSpeed d : Skill (Option ℝ) (Option ℝ)).difficultyValue = some 0 := by
    rw [← z 5 0.9 1.04]
    have : (Skill.newSpeed d : Skill (Option ℝ) (Option ℝ)).getCurrentStrainPeaks = [0].map some := by
      show [(lit 0 : Option ℝ)] = _; rw [q0]; rfl
    unfold Skill.difficultyValue
    rw [this, value_exact (dw := 0.9) (m := 1.04) rfl q9 q104]; rfl
  have v4 : (Skill.newFlashlight d : Skill (Option ℝ) (Option ℝ)).difficultyValue = some 0 := by
    rw [← z 10 1 1.06]
    have : (Skill.newFlashlight d : Skill (Option ℝ) (Option ℝ)).getCurrentStrainPeaks = [0].map some := by
      show [(lit 0 : Option ℝ)] = _; rw [q0]; rfl
    unfold Skill.difficultyValue
    rw [this, value_exact (dw := 1) (m := 1.06) rfl q1 q106]; rfl
  have hstars : ∀ attr, (SkillSet.new d : SkillSet (Option ℝ) (Option ℝ)).getStars d attr =
      getStarsFromRawValues (some 0) (some 0) (some 0) (some 0) d attr := by
    intro attr
    unfold SkillSet.getStars SkillSet.new
    simp only [v0, v3]
    congr 1
    cases d.checkModActive Mod.Flashlight
    · exact q0
    · exact v4
  rw [hstars, stars_exact d _ le_rfl le_rfl le_rfl le_rfl (fun _ => rfl)]
  have r0 : ratingOf 0 = 0 := by simp [ratingOf]
  simp only [r0, ite_self, starsOf_zero]
  norm_num

theorem peaksLoop_get {fl : Option (List (Option ℝ))} {sp l t : List (Option ℝ)} {i : ℕ} (h : peaksLoop d fl sp i l = .ok t) :
    t.length = l.length ∧ ∀ (j : ℕ) a, l[j]? = some a → ∃ s f, sp[i + j]? = some s ∧
      (match fl with | some q => q[i + j]? = some f | none => f = lit 0) ∧
      t[j]? = some (getStarsFromRawValues a a s f d Attributes.zero).total := by
  induction l generalizing i t with
  | nil => cases h; simp
  | cons a l ih =>
    obtain ⟨f, s, t', hf, hs, ht, rfl⟩ : ∃ f s t', (match fl with | some q => index q i | none => .ok (lit 0)) = .ok f ∧
        index sp i = .ok s ∧ peaksLoop d fl sp (i + 1) l = .ok t' ∧
        t = (getStarsFromRawValues a a s f d Attributes.zero).total :: t' := by
      unfold peaksLoop at h
      cases fl with
      | none =>
        obtain ⟨f, hf, h⟩ := bind_ok h
        obtain ⟨s, hs, h⟩ := bind_ok h
        obtain ⟨t', ht, h⟩ := bind_ok h
        exact ⟨f, s, t', hf, hs, ht, (Except.ok.inj h).symm⟩
      | some q =>
        obtain ⟨f, hf, h⟩ := bind_ok h
        obtain ⟨s, hs, h⟩ := bind_ok h
        obtain ⟨t', ht, h⟩ := bind_ok h
        exact ⟨f, s, t', hf, hs, ht, (Except.ok.inj h).symm⟩
    obtain ⟨h1, h2⟩ := ih ht
    refine ⟨by simp [h1], fun j b hj => ?_⟩
    cases j with
    | zero =>
      cases hj
      refine ⟨s, f, index_ok hs, ?_, rfl⟩
      cases fl with
      | none => exact (Except.ok.inj hf).symm
      | some q => exact index_ok hf
    | succ j =>
      obtain ⟨s', f', e1, e2, e3⟩ := h2 j b hj
      refine ⟨s', f', by rw [← e1]; congr 1; omega, ?_, e3⟩
      cases fl with
      | none => exact e2
      | some q => rw [← e2]; congr 1; omega

/-- C100. The total of each section is the number of stars for its peaks. -/
theorem C100_sections (hs : Shows d x objs) (hr : d.speed = some r) (hr0 : 0 < r) (hc : d.circleRadius = some c)
    (hc0 : 0 < c) (hw : d.hit300 = some w) (hw0 : 0 < w) (hn : 2 ≤ objs.length) {fuel : ℕ} {p : StrainPeaks (Option ℝ)}
    (h : calculateStrainPeaks fuel objs d = .ok p) : p.total.length = p.aim.length ∧
    ∀ i < p.aim.length, ∃ A S F : ℝ, p.aim[i]? = some (some A) ∧ p.speed[i]? = some (some S) ∧
      (if d.checkModActive Mod.Flashlight = true then p.flashlight[i]? = some (some F) else F = 0) ∧
      p.total[i]? = some (some (starsOf (ratingOf A) (if d.checkModActive Mod.Relax = true then 0 else ratingOf S) (ratingOf F))) := by
  choose isl hl using islands_exist (r := r) (x := x)
  have q0 : (lit 0 : Option ℝ) = some 0 := by rw [Exact.lit]; norm_num
  obtain ⟨la, ea, na⟩ := reals_of_peaks (by norm_num) (fun n => mul_nonneg (by norm_num) (aimHit_nonneg hc0 hs.toPlayable _ n))
    (fun _ => zero_le_one) (C97_aim hs hr hr0 hc hc0 hn h)
  obtain ⟨ls, es, ns⟩ := reals_of_peaks (by norm_num) (fun n => mul_nonneg (by norm_num) (speedHit_nonneg hc0 hr0 hw0 hs.toPlayable n))
    (fun _ => rhythmFactor_nonneg _ _) (C98_speed hs hr hr0 hc hc0 hw hw0 hl hn h)
  have hfl := fun e => reals_of_peaks (by norm_num) (fun n => mul_nonneg (by norm_num) (flashHit_nonneg n)) (fun _ => zero_le_one)
    (C99_flashlight hs e hr hr0 hc hc0 hn h)
  unfold calculateStrainPeaks at h
  obtain ⟨ds, hd, h⟩ := bind_ok h
  obtain ⟨sk, hsk, h⟩ := bind_ok h
  unfold getPeaks at h
  obtain ⟨t, ht, h⟩ := bind_ok h
  obtain ⟨h1, h2⟩ := peaksLoop_get ht
  cases h
  refine ⟨h1, fun i hi => ?_⟩
  simp only at ea es hi hfl ⊢
  obtain ⟨s, f, e1, e2, e3⟩ := h2 i _ (List.getElem?_eq_getElem hi)
  rw [Nat.zero_add] at e1 e2
  have mem : ∀ {l : List ℝ} {y : Option ℝ}, (∀ z ∈ l, 0 ≤ z) → (l.map some)[i]? = some y → ∃ z, y = some z ∧ 0 ≤ z := by
    intro l y hl hy
    obtain ⟨z, hz, rfl⟩ := List.mem_map.mp (List.mem_of_getElem? hy)
    exact ⟨z, rfl, hl z hz⟩
  obtain ⟨A, eA, hA⟩ := mem na (by rw [← ea]; exact List.getElem?_eq_getElem hi)
  obtain ⟨S, rfl, hS⟩ := mem ns (by rw [← es]; exact e1)
  rw [eA] at e3
  have fin : ∀ F : ℝ, 0 ≤ F → f = some F → (d.checkModActive Mod.Flashlight = false → F = 0) → t[i]? = some (some (starsOf (ratingOf A)
      (if d.checkModActive Mod.Relax = true then 0 else ratingOf S) (ratingOf F))) := by
    rintro F hF rfl h0
    rw [e3, stars_exact d _ hA hA hS hF h0]
  cases hm : d.checkModActive Mod.Flashlight
  · have hno : sk.flashlight = none := peakLoop_dark (by rw [hm]; rfl) hsk
    rw [hno] at e2
    refine ⟨A, S, 0, by rw [List.getElem?_eq_getElem hi, eA], e1, by simp, fin 0 le_rfl (e2.trans q0) (fun _ => rfl)⟩
  · obtain ⟨lf, ef, nf⟩ := hfl hm
    obtain ⟨g, hsf, -⟩ := peakLoop_flash (f := Skill.newFlashlight d) (by rw [hm]; rfl) hsk
    rw [hsf] at e2 ef
    simp only [Option.map_some, Option.getD_some] at e2 ef
    obtain ⟨F, rfl, hF⟩ := mem nf (by rw [← ef]; exact e2)
    exact ⟨A, S, F, by rw [List.getElem?_eq_getElem hi, eA], e1, by simpa [hsf] using e2, fin F hF rfl (by simp [hm])⟩

/-- C101 (exact arithmetic). The slider factor is between 0 and 1. -/
theorem C101_sliderFactor [GoSort] (hs : Shows d x objs) (hr : d.speed = some r) (hr0 : 0 < r) (hc : d.circleRadius = some c)
    (hc0 : 0 < c) (hw : d.hit300 = some w) (hw0 : 0 < w) (hn : 2 ≤ objs.length) {fuel : ℕ} {a : Attributes (Option ℝ)}
    (h : calculateSingle fuel objs d = .ok a) : ∃ f, a.sliderFactor = some f ∧ 0 ≤ f ∧ f ≤ 1 := by
  choose isl hl using islands_exist (r := r) (x := x)
  obtain ⟨l1, l2, _, _, h1, h2, -, -, -, -, h, -⟩ := C100_ratings hs hr hr0 hc hc0 hw hw0 hl hn h
  refine ⟨_, h, ?_⟩
  split
  · rename_i hA
    refine ⟨div_nonneg (ratingOf_nonneg _) (ratingOf_nonneg _), ?_⟩
    rw [div_le_one (by linarith)]
    refine ratingOf_le (peakValue_le ?_ d)
    exact peaks_le (by norm_num) (fun n => mul_nonneg (by norm_num) (aimHit_nonneg hc0 hs.toPlayable _ n))
      (fun n => mul_le_mul_of_nonneg_left (aimHit_sliders hc0 hs.toPlayable n) (by norm_num)) (fun _ => zero_le_one) h2 h1
  · norm_num

/-- C101. Without sliders it is 1. -/
theorem C101_circles [GoSort] (hs : Shows d x objs) (hr : d.speed = some r) (hr0 : 0 < r) (hc : d.circleRadius = some c)
    (hc0 : 0 < c) (hw : d.hit300 = some w) (hw0 : 0 < w) (hn : 2 ≤ objs.length) (hno : ∀ n, (x n).slide = none)
    {fuel : ℕ} {a : Attributes (Option ℝ)} (h : calculateSingle fuel objs d = .ok a) : a.sliderFactor = some 1 := by
  choose isl hl using islands_exist (r := r) (x := x)
  obtain ⟨l1, l2, _, _, h1, h2, -, -, -, -, h, -⟩ := C100_ratings hs hr hr0 hc hc0 hw hw0 hl hn h
  rw [h]
  simp only [aimHit_circles hno] at h2
  have e : l1 = l2 := List.map_injective_iff.mpr (Option.some_injective ℝ) (peaks_unique h1 h2)
  subst e
  split
  · rw [div_self (by linarith)]
  · rfl

/-- C102 (exact arithmetic). The aim rating by the highest aim strain. -/
theorem C102_aim [GoSort] (hs : Shows d x objs) (hr : d.speed = some r) (hr0 : 0 < r) (hc : d.circleRadius = some c)
    (hc0 : 0 < c) (hw : d.hit300 = some w) (hw0 : 0 < w) (hn : 2 ≤ objs.length) {fuel fuel' : ℕ} {a : Attributes (Option ℝ)}
    {p : StrainPeaks (Option ℝ)} (h : calculateSingle fuel objs d = .ok a) (hp : calculateStrainPeaks fuel' objs d = .ok p) {M : ℝ}
    (hM : some M ∈ p.aim) (hmax : ∀ y, some y ∈ p.aim → y ≤ M) :
    ∃ A, a.aim = some A ∧ 0.0675 * Real.sqrt (0.795 * M) ≤ A ∧ A ≤ 0.0675 * Real.sqrt (10.6 * M) := by
  choose isl hl using islands_exist (r := r) (x := x)
  obtain ⟨l, _, _, _, h1, -, -, -, -, h, -⟩ := C100_ratings hs hr hr0 hc hc0 hw hw0 hl hn h
  have hq := C97_aim hs hr hr0 hc hc0 hn hp
  obtain ⟨l', e', n0⟩ := reals_of_peaks (by norm_num) (fun n => mul_nonneg (by norm_num) (aimHit_nonneg hc0 hs.toPlayable _ n))
    (fun _ => zero_le_one) hq
  have e := peaks_unique hq h1
  rw [e] at e' hM hmax
  obtain rfl : l = l' := List.map_injective_iff.mpr (Option.some_injective ℝ) e'
  have mem : ∀ y, some y ∈ l.map some ↔ y ∈ l := fun y => by simp
  simp only [mem] at hM hmax
  refine ⟨_, h, ?_, ?_⟩
  · refine ratingOf_le (le_trans (le_of_eq ?_) (peakValue_ge (by norm_num) (by norm_num) n0 hM)); ring
  · refine ratingOf_le (le_trans (peakValue_le_max (by norm_num) n0 (n0 M hM) hmax) (le_of_eq ?_)); ring

/-- C102. The speed rating by the highest speed strain, without Relax. -/
theorem C102_speed [GoSort] (hs : Shows d x objs) (hr : d.speed = some r) (hr0 : 0 < r) (hc : d.circleRadius = some c)
    (hc0 : 0 < c) (hw : d.hit300 = some w) (hw0 : 0 < w) (hn : 2 ≤ objs.length) (hrx : d.checkModActive Mod.Relax = false)
    {fuel fuel' : ℕ} {a : Attributes (Option ℝ)}
    {p : StrainPeaks (Option ℝ)} (h : calculateSingle fuel objs d = .ok a) (hp : calculateStrainPeaks fuel' objs d = .ok p) {M : ℝ}
    (hM : some M ∈ p.speed) (hmax : ∀ y, some y ∈ p.speed → y ≤ M) :
    ∃ A, a.speed = some A ∧ 0.0675 * Real.sqrt (0.78 * M) ≤ A ∧ A ≤ 0.0675 * Real.sqrt (10.4 * M) := by
  choose isl hl using islands_exist (r := r) (x := x)
  obtain ⟨_, _, l, _, -, -, h1, -, -, -, -, h, -⟩ := C100_ratings hs hr hr0 hc hc0 hw hw0 hl hn h
  have hq := C98_speed hs hr hr0 hc hc0 hw hw0 hl hn hp
  obtain ⟨l', e', n0⟩ := reals_of_peaks (by norm_num) (fun n => mul_nonneg (by norm_num) (speedHit_nonneg hc0 hr0 hw0 hs.toPlayable n))
    (fun _ => rhythmFactor_nonneg _ _) hq
  have e := peaks_unique hq h1
  rw [e] at e' hM hmax
  obtain rfl : l = l' := List.map_injective_iff.mpr (Option.some_injective ℝ) e'
  have mem : ∀ y, some y ∈ l.map some ↔ y ∈ l := fun y => by simp
  simp only [mem] at hM hmax
  rw [hrx] at h
  refine ⟨_, h, ?_, ?_⟩
  · refine ratingOf_le (le_trans (le_of_eq ?_) (peakValue_ge (by norm_num) (by norm_num) n0 hM)); ring
  · refine ratingOf_le (le_trans (peakValue_le_max (by norm_num) n0 (n0 M hM) hmax) (le_of_eq ?_)); ring

/-- C102. The flashlight rating by the sum of the flashlight strains: no section outweighs the others. -/
theorem C102_flashlight [GoSort] (hs : Shows d x objs) (hr : d.speed = some r) (hr0 : 0 < r) (hc : d.circleRadius = some c)
    (hc0 : 0 < c) (hw : d.hit300 = some w) (hw0 : 0 < w) (hn : 2 ≤ objs.length) (hfl : d.checkModActive Mod.Flashlight = true)
    {fuel fuel' : ℕ} {a : Attributes (Option ℝ)}
    {p : StrainPeaks (Option ℝ)} (h : calculateSingle fuel objs d = .ok a) (hp : calculateStrainPeaks fuel' objs d = .ok p) :
    ∃ (A : ℝ) (l : List ℝ), a.flashlight = some A ∧ p.flashlight = l.map some ∧ 0.0675 * Real.sqrt (0.795 * l.sum) ≤ A ∧
      A ≤ 0.0675 * Real.sqrt (1.06 * l.sum) := by
  choose isl hl using islands_exist (r := r) (x := x)
  obtain ⟨_, _, _, l, -, -, -, h1, -, -, -, -, h, -⟩ := C100_ratings hs hr hr0 hc hc0 hw hw0 hl hn h
  have hq := C99_flashlight hs hfl hr hr0 hc hc0 hn hp
  obtain ⟨l', e', n0⟩ := reals_of_peaks (by norm_num) (fun n => mul_nonneg (by norm_num) (flashHit_nonneg n)) (fun _ => zero_le_one) hq
  have e := peaks_unique hq (h1 hfl)
  rw [e] at e'
  obtain rfl : l = l' := List.map_injective_iff.mpr (Option.some_injective ℝ) e'
  obtain ⟨b1, b2⟩ := peakValue_one (count := 10) (m := 1.06) (by norm_num) n0
  refine ⟨_, l, h, e, ?_, ?_⟩
  · refine ratingOf_le (le_trans (le_of_eq ?_) b1); ring
  · exact ratingOf_le b2

end

/-- C100, C101, C102: a slider, two circles, a spinner and a circle, with Flashlight. -/
example [GoSort] : ∃ fuel a p, calculateSingle fuel exactMixed exactDark = .ok a ∧ calculateStrainPeaks fuel exactMixed exactDark = .ok p ∧
    (∃ f, a.sliderFactor = some f ∧ 0 ≤ f ∧ f ≤ 1) ∧ (∃ t, a.total = some t ∧ 0.135 ≤ t) ∧
    (∃ (A : ℝ) (l : List ℝ), a.flashlight = some A ∧ p.flashlight = l.map some ∧ A ≤ 0.0675 * Real.sqrt (1.06 * l.sum)) ∧
    ∃ A M, a.aim = some A ∧ some M ∈ p.aim ∧ A ≤ 0.0675 * Real.sqrt (10.6 * M) := by
  have hs : Shows exactDark mixedNotes exactMixed := mixed_shows_of (e := exactDark)
    (by show Modifier.active (Mod.HalfTime ||| Mod.Flashlight) _ = _; decide)
    (by show Modifier.active (Mod.HalfTime ||| Mod.Flashlight) _ = _; decide) rfl
  have hfl : exactDark.checkModActive Mod.Flashlight = true := by
    show Modifier.active (Mod.HalfTime ||| Mod.Flashlight) _ = _; decide
  have hn : 2 ≤ exactMixed.length := by simp [exactMixed]
  obtain ⟨N, hN⟩ := C97_returns hs (r := 0.75) rfl (by norm_num) (by simp [exactMixed])
  obtain ⟨p, a, hp, h⟩ := hN N le_rfl
  have q := C97_aim hs (r := 0.75) rfl (by norm_num) (c := 32) rfl (by norm_num) hn hp
  obtain ⟨l, e, -⟩ := reals_of_peaks (by norm_num)
    (fun n => mul_nonneg (by norm_num) (aimHit_nonneg (by norm_num) hs.toPlayable _ n)) (fun _ => zero_le_one) q
  have hne : l ≠ [] := by
    rintro rfl
    have h1 := q.length
    have h2 := section_mono (clock_mono (r := 0.75) (by norm_num) hs.toPlayable 1 (exactMixed.length - 1) le_rfl (by simp [exactMixed]))
    rw [e] at h1
    simp only [List.map_nil, List.length_nil] at h1
    omega
  obtain ⟨M, hM, hmax⟩ : ∃ M ∈ l, ∀ y ∈ l, y ≤ M := by
    obtain ⟨y, hy⟩ := List.exists_mem_of_ne_nil l hne
    obtain ⟨M, hM, -⟩ := head_ge hy
    refine ⟨M, hardestFirst_mem.mp (List.mem_of_head? hM), fun z hz => ?_⟩
    obtain ⟨M', hM', h⟩ := head_ge hz
    rw [hM] at hM'
    exact Option.some.inj hM' ▸ h
  obtain ⟨t, ht, ht'⟩ := C100_floor hs (r := 0.75) rfl (by norm_num) (c := 32) rfl (by norm_num) (w := 40) rfl (by norm_num) hn h
  obtain ⟨A, hA, -, hA'⟩ := C102_aim hs (r := 0.75) rfl (by norm_num) (c := 32) rfl (by norm_num) (w := 40) rfl (by norm_num) hn h hp
    (M := M) (by rw [e]; simpa using hM) (by rw [e]; simpa using hmax)
  obtain ⟨B, l', b1, b2, -, b3⟩ := C102_flashlight hs (r := 0.75) rfl (by norm_num) (c := 32) rfl (by norm_num) (w := 40) rfl (by norm_num) hn hfl h hp
  refine ⟨N, a, p, h, hp, C101_sliderFactor hs (r := 0.75) rfl (by norm_num) (c := 32) rfl (by norm_num) (w := 40) rfl (by norm_num) hn h,
    ⟨t, ht, le_trans ?_ ht'⟩, ⟨B, l', b1, b2, b3⟩, A, M, hA, by rw [e]; simpa using hM, hA'⟩
  have : (1 : ℝ) ≤ (1.12 : ℝ) ^ (1 / 3 : ℝ) := Real.one_le_rpow (by norm_num) (by norm_num)
  linarith

/-- The notes after the first. -/
theorem shows_tail {d : Difficulty (Option ℝ)} {x : ℕ → Note} {o : Obj (Option ℝ) (Option ℝ)} {objs : List (Obj (Option ℝ) (Option ℝ))}
    (h : Shows d x (o :: objs)) : Shows d (fun n => x (n + 1)) objs where
  sorted i j hij := h.sorted _ _ (by omega)
  spinner i := h.spinner _
  length i := h.length _
  time i o ho := h.time (i + 1) o ho
  spins i o ho := h.spins (i + 1) o ho
  head i o ho := h.head (i + 1) o ho
  tail i o ho := h.tail (i + 1) o ho
  slider i o s ho := h.slider (i + 1) o s ho
  other i o ho := h.other (i + 1) o ho

/-- C101: two circles, a spinner and a circle. -/
example [GoSort] : ∃ fuel a, calculateSingle fuel exactMixed.tail exactDiff = .ok a ∧ a.sliderFactor = some 1 := by
  have hs := shows_tail (o := exactSlider) (objs := exactMixed.tail) mixed_shows
  obtain ⟨N, hN⟩ := C97_returns hs (r := 0.75) rfl (by norm_num) (by simp [exactMixed])
  obtain ⟨p, a, -, h⟩ := hN N le_rfl
  refine ⟨N, a, h, C101_circles hs (r := 0.75) rfl (by norm_num) (c := 32) rfl (by norm_num) (w := 40) rfl (by norm_num)
    (by simp [exactMixed]) (fun n => ?_) h⟩
  match n with
  | 0 => rfl
  | 1 => rfl
  | 2 => rfl
  | n + 3 => rfl

/-- C100: a map of a single slider. -/
example [GoSort] : ∃ fuel a, calculateSingle fuel [exactSlider] exactDiff = .ok a ∧
    a.total = some ((1.12 : ℝ) ^ (1 / 3 : ℝ) * 0.135) := by
  have hs : Shows exactDiff mixedNotes [exactSlider] := by
    refine { mixed_shows.toPlayable with time := ?_, spins := ?_, head := ?_, tail := ?_, slider := ?_, other := ?_ }
    all_goals intro i o
    · intro ho
      match i, ho with
      | 0, ho => exact mixed_shows.time 0 o ho
    · intro ho
      match i, ho with
      | 0, ho => exact mixed_shows.spins 0 o ho
    · intro ho
      match i, ho with
      | 0, ho => exact mixed_shows.head 0 o ho
    · intro ho
      match i, ho with
      | 0, ho => exact mixed_shows.tail 0 o ho
    · intro s ho
      match i, ho with
      | 0, ho => exact mixed_shows.slider 0 o s ho
    · intro ho
      match i, ho with
      | 0, ho => exact mixed_shows.other 0 o ho
  obtain ⟨N, hN⟩ := C97_returns hs (r := 0.75) rfl (by norm_num) (by simp)
  obtain ⟨p, a, -, h⟩ := hN N le_rfl
  exact ⟨N, a, h, (C100_one h).1⟩

end GosuPP.Props
