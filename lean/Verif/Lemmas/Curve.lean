import Verif.Lemmas.Calc
import Verif.Lemmas.Stacking

/-! Curve lookup never fails on the curves that sliders have. -/

namespace GosuPP
open Go
variable {S D : Type} [GoFloat S] [GoFloat D] [GoConv S D]

namespace MultiCurve

/-- The shape every curve made by `NewMultiCurveT` has. -/
def Shaped (mc : MultiCurve S) : Prop := mc.sections.length = mc.lines.length + 1

theorem sectionsFrom_length (ls : List (Linear S)) (p : S) : (sectionsFrom p ls).length = ls.length := by
  induction ls generalizing p with
  | nil => rfl
  | cons l ls ih => simp [sectionsFrom, ih]

theorem newT_shaped [GoLibm D] {fuel : Nat} {typ : Str} {points : List (Vec S)} {len : D}
    {mc : MultiCurve S} (h : newT fuel typ points len = .ok mc) : Shaped mc := by
  unfold newT at h
  obtain ⟨lines, h1, h⟩ := bind_ok h
  obtain ⟨fp, h2, h⟩ := bind_ok h
  cases h
  simp [Shaped, mkSections, sectionsFrom_length]

theorem newT_firstPoint [GoLibm D] {fuel : Nat} {typ : Str} {p : Vec S} {points : List (Vec S)} {len : D}
    {mc : MultiCurve S} (h : newT fuel typ (p :: points) len = .ok mc) : mc.firstPoint = p := by
  unfold newT at h
  obtain ⟨lines, h1, h⟩ := bind_ok h
  obtain ⟨fp, h2, h⟩ := bind_ok h
  cases h
  cases h2
  rfl

theorem lineIndex_range (mc : MultiCurve S) (h : 0 < mc.lines.length) (w : S) :
    0 ≤ mc.lineIndex w ∧ mc.lineIndex w < mc.lines.length := by
  unfold lineIndex minI
  simp only
  split <;> omega

end MultiCurve

theorem index_of_lt {α : Type} (l : List α) {i : Int} (h0 : 0 ≤ i) (h : i < l.length) :
    ∃ v ∈ l, index l i = .ok v := by
  unfold index
  rw [if_neg (by omega)]
  have : i.toNat < l.length := by omega
  rw [List.getElem?_eq_getElem this]
  exact ⟨_, List.getElem_mem this, rfl⟩

namespace MultiCurve

theorem pointAt_ok (mc : MultiCurve S) (h : Shaped mc) (t : S) : ∃ p, mc.pointAt t = .ok p := by
  unfold pointAt
  split
  · exact ⟨_, rfl⟩
  · rename_i hc
    have hpos : 0 < mc.lines.length := by
      rcases Nat.eq_zero_or_pos mc.lines.length with h0 | h0
      · simp [h0] at hc
      · exact h0
    simp only
    obtain ⟨h1, h2⟩ := mc.lineIndex_range hpos (mc.length *. clampF32 t (lit 0) (lit 1))
    generalize mc.lineIndex (mc.length *. clampF32 t (lit 0) (lit 1)) = i at *
    unfold Shaped at h
    obtain ⟨a, _, ha⟩ := index_of_lt mc.sections (i := i + 1) (by omega) (by omega)
    obtain ⟨b, _, hb⟩ := index_of_lt mc.sections (i := i) (by omega) (by omega)
    obtain ⟨c, _, hc⟩ := index_of_lt mc.lines (i := i) (by omega) (by omega)
    simp only [ha, hb, hc, ok_bind]
    split <;> exact ⟨_, rfl⟩

end MultiCurve

/-! ### Objects of a parsed map -/

omit [GoFloat S] [GoFloat D] in
theorem kind_unstack (o : Obj S D) [GoFloat S] [GoFloat D] : (Spec.unstack o).kind = o.kind := rfl

omit [GoConv S D] in
theorem comboOut_uncombo (c : ComboState) (o : Obj S D) : Spec.uncombo (comboOut c o) = Spec.uncombo o := rfl

theorem forall₂_mem_right {α β : Type} {R : α → β → Prop} {l : List α} {l' : List β}
    (h : List.Forall₂ R l l') {b : β} (hb : b ∈ l') : ∃ a ∈ l, R a b := by
  induction h with
  | nil => cases hb
  | cons hab _ ih =>
    rcases List.mem_cons.mp hb with rfl | hb
    · exact ⟨_, List.mem_cons_self, hab⟩
    · obtain ⟨a, ha, h⟩ := ih hb
      exact ⟨a, List.mem_cons_of_mem _ ha, h⟩

/-- Every hit object of a parsed map was created from a line, numbered, timed and stacked. -/
theorem parsed_from [GoSort] [GoLibm D] {fuel : Nat} {text : Str} {m : BeatMap S D}
    (h : parseText fuel text = .ok (some m)) {o : Obj S D} (ho : o ∈ m.hitObjects) :
    ∃ arr ∈ Spec.records "HitObjects" (scanLines bufferSize text), ∃ o0 o1 o2 : Obj S D,
      createObject fuel arr = .ok (some o0) ∧ Spec.uncombo o1 = Spec.uncombo o0 ∧
      o1.setTiming fuel m.timings = .ok o2 ∧ Spec.unstack o = Spec.unstack o2 := by
  obtain ⟨st, hl, objs, hobj, rfl⟩ := parseText_some h
  simp only at ho
  have hm : Spec.unstack o ∈ objs.map Spec.unstack := by
    rw [← Stacking.calculate_frame st.beatMap.fileVersion st.beatMap.difficulty
      st.beatMap.stackLeniency objs]
    exact List.mem_map_of_mem ho
  obtain ⟨o2, ho2, he⟩ := List.mem_map.mp hm
  obtain ⟨o1, ho1, ht⟩ := forall₂_mem_right (setTimings_forall hobj) ho2
  obtain ⟨i, hi⟩ := List.getElem?_of_mem ho1
  rw [comboLoop_getElem] at hi
  cases hr : (GoSort.stable (fun x y : Obj S D => x.base.startTime <. y.base.startTime)
      st.beatMap.hitObjects)[i]? with
  | none => rw [hr] at hi; cases hi
  | some x =>
    rw [hr] at hi
    cases hi
    obtain ⟨os, h1, h2, -⟩ := parseLines_objects hl
    have hx := (GoSort.stable_perm _ _).mem_iff.mp (List.mem_of_getElem? hr)
    rw [h2] at hx
    have hx : some x ∈ os := by simpa [List.reduceOption] using hx
    obtain ⟨arr, ha, h⟩ := mapM_mem h1 hx
    exact ⟨arr, ha, x, _, o2, h, comboOut_uncombo _ _, ht, he.symm⟩

/-- The curve of a slider has the shape that lookups rely on. -/
def ShapedObj (o : Obj S D) : Prop := ∀ s, o.kind = .slider s → s.multiCurve.Shaped

/-- The path of a slider is made from the line. -/
theorem createObject_newT [GoLibm D] {fuel : Nat} {arr : List Str} {o : Obj S D}
    (h : createObject fuel arr = .ok (some o)) (s : SliderData S D) (hs : o.kind = .slider s) :
    ∃ typ points, MultiCurve.newT fuel typ points s.pixelLength = .ok s.multiCurve ∧ s.scorePoints = [] := by
  unfold createObject at h
  obtain ⟨ty, -, h⟩ := bind_ok h
  simp only at h
  split at h
  · obtain ⟨x, hx, h⟩ := bind_ok h
    cases h
    unfold newCircle at hx
    obtain ⟨b, -, hx⟩ := bind_ok hx
    cases hx
    cases hs
  split at h
  · obtain ⟨x, hx, h⟩ := bind_ok h
    cases h
    unfold newSpinner at hx
    obtain ⟨b, -, hx⟩ := bind_ok hx
    obtain ⟨_, -, hx⟩ := bind_ok hx
    cases hx
    cases hs
  split at h
  · obtain ⟨x, hx, h⟩ := bind_ok h
    cases h
    unfold newSlider at hx
    obtain ⟨b, -, hx⟩ := bind_ok hx
    obtain ⟨_, -, hx⟩ := bind_ok hx
    obtain ⟨_, -, hx⟩ := bind_ok hx
    obtain ⟨_, -, hx⟩ := bind_ok hx
    obtain ⟨_, -, hx⟩ := bind_ok hx
    obtain ⟨_, -, hx⟩ := bind_ok hx
    obtain ⟨mc, hmc, hx⟩ := bind_ok hx
    obtain ⟨_, -, hx⟩ := bind_ok hx
    obtain ⟨_, -, hx⟩ := bind_ok hx
    obtain ⟨_, -, hx⟩ := bind_ok hx
    obtain ⟨_, -, hx⟩ := bind_ok hx
    cases hx
    cases hs
    exact ⟨_, _, hmc, rfl⟩
  · cases h

theorem createObject_shaped [GoLibm D] {fuel : Nat} {arr : List Str} {o : Obj S D}
    (h : createObject fuel arr = .ok (some o)) : ShapedObj o := by
  intro s hs
  obtain ⟨typ, points, hmc, -⟩ := createObject_newT h s hs
  exact MultiCurve.newT_shaped hmc

theorem setTiming_shaped [GoSort] {fuel : Nat} {t : Timings D} {o o' : Obj S D}
    (h : o.setTiming fuel t = .ok o') (ho : ShapedObj o) : ShapedObj o' := by
  unfold Obj.setTiming at h
  split at h
  · rename_i s hk
    unfold Slider.setTiming at h
    obtain ⟨tp, -, h⟩ := bind_ok h
    obtain ⟨pts, -, h⟩ := bind_ok h
    obtain ⟨ep, -, h⟩ := bind_ok h
    cases h
    intro s' hs'
    cases hs'
    exact ho s hk
  · cases h
    exact ho

theorem parsed_shaped [GoSort] [GoLibm D] {fuel : Nat} {text : Str} {m : BeatMap S D}
    (h : parseText fuel text = .ok (some m)) : ∀ o ∈ m.hitObjects, ShapedObj o := by
  intro o ho
  obtain ⟨arr, -, o0, o1, o2, h0, h1, h2, h3⟩ := parsed_from h ho
  have k1 : (Spec.uncombo o1).kind = (Spec.uncombo o0).kind := by rw [h1]
  have k1 : o1.kind = o0.kind := k1
  have k2 : (Spec.unstack o).kind = (Spec.unstack o2).kind := by rw [h3]
  have k2 : o.kind = o2.kind := k2
  have s1 : ShapedObj o1 := by
    intro s hs
    rw [k1] at hs
    exact createObject_shaped h0 s hs
  intro s hs
  rw [k2] at hs
  exact setTiming_shaped h2 s1 s hs

theorem sliderPositionAt_ok (b : HitObject S D) (s : SliderData S D) (h : s.multiCurve.Shaped) (t : D) :
    ∃ p, sliderPositionAt b s t = .ok p := by
  unfold sliderPositionAt
  split
  · exact ⟨_, rfl⟩
  · exact MultiCurve.pointAt_ok _ h _

theorem getStackedPositionAtMod_ok (o : Obj S D) (h : ShapedObj o) (t : D) (m : Modifier) :
    ∃ p, o.getStackedPositionAtMod t m = .ok p := by
  have : ∃ p, o.getPositionAt t = .ok p := by
    unfold Obj.getPositionAt
    split
    · rename_i s hs
      exact sliderPositionAt_ok _ _ (h s hs) _
    · exact ⟨_, rfl⟩
  obtain ⟨p, hp⟩ := this
  unfold Obj.getStackedPositionAtMod
  rw [hp]
  exact ⟨_, rfl⟩

/-! ### Lazy sliders -/

theorem lazyStep_ok (o : Obj S D) (h : ShapedObj o) (mods : Modifier) (sf : D) (p : TickPoint D)
    (last : Bool) (st : LazyState S) : ∃ st', lazyStep o mods sf p last st = .ok st' := by
  obtain ⟨p1, h1⟩ := getStackedPositionAtMod_ok o h o.base.endTime mods
  obtain ⟨p2, h2⟩ := getStackedPositionAtMod_ok o h p.time mods
  unfold lazyStep
  cases last
  · simp only [h2, ok_bind, Bool.false_eq_true, if_false]
    exact ⟨_, rfl⟩
  · simp only [h1, ok_bind, if_true]
    exact ⟨_, rfl⟩

theorem lazyLoop_ok (o : Obj S D) (h : ShapedObj o) (mods : Modifier) (sf : D)
    (ps : List (TickPoint D)) (st : LazyState S) : ∃ st', lazyLoop o mods sf ps st = .ok st' := by
  induction ps generalizing st with
  | nil => exact ⟨_, rfl⟩
  | cons p ps ih =>
    cases ps with
    | nil => exact lazyStep_ok o h mods sf p true st
    | cons q qs =>
      obtain ⟨st', h'⟩ := lazyStep_ok o h mods sf p false st
      rw [lazyLoop, h']
      exact ih st'
      simp

/-- Decorating fails exactly for sliders without score points. -/
theorem decorate_shaped [GoLibm D] (d : Difficulty D) (o : Obj S D) (h : ShapedObj o) :
    (∃ s, o.kind = .slider s ∧ s.scorePoints = [] ∧ decorate d o = .error .panic) ∨
    ((∀ s, o.kind = .slider s → s.scorePoints ≠ []) ∧ ∃ p, decorate d o = .ok p) := by
  unfold decorate
  split
  · rename_i s hs
    cases hsp : s.scorePoints with
    | nil =>
      left
      refine ⟨s, hs, hsp, ?_⟩
      unfold newLazySlider
      rw [hsp]; rfl
    | cons q qs =>
      right
      refine ⟨fun s' hs' => by rw [hs] at hs'; cases hs'; rw [hsp]; simp, ?_⟩
      unfold newLazySlider
      obtain ⟨v, -, hv⟩ := index_of_lt s.scorePoints (i := (s.scorePoints.length : Int) - 1)
        (by rw [hsp]; simp) (by omega)
      obtain ⟨p, hp⟩ := getStackedPositionAtMod_ok o h (v.time -. o.base.startTime +. o.base.startTime) d.mods
      simp only [hv, hp, ok_bind]
      obtain ⟨st, hst⟩ := lazyLoop_ok o h d.mods (lit 50 /. d.circleRadius) s.scorePoints
        { cursor := o.base.getStackedStartPositionMod d.mods, endPosition := p, travelDistance := lit 0 }
      simp only [hst, ok_bind]
      exact ⟨_, rfl⟩
  · rename_i hk
    right
    exact ⟨fun s hs => absurd hs (hk s), _, rfl⟩

theorem decorateAll_shaped [GoLibm D] (d : Difficulty D) (objs : List (Obj S D))
    (h : ∀ o ∈ objs, ShapedObj o) :
    ((∃ o ∈ objs, ∃ s, o.kind = .slider s ∧ s.scorePoints = []) ∧
      decorateAll d objs = .error .panic) ∨
    ((∀ o ∈ objs, ∀ s, o.kind = .slider s → s.scorePoints ≠ []) ∧
      ∃ ps, decorateAll d objs = .ok ps) := by
  induction objs with
  | nil => exact Or.inr ⟨by simp, _, rfl⟩
  | cons o rest ih =>
    rw [decorateAll]
    rcases decorate_shaped d o (h o List.mem_cons_self) with ⟨s, h1, h2, h3⟩ | ⟨h1, p, h2⟩
    · left
      rw [h3]
      exact ⟨⟨o, List.mem_cons_self, s, h1, h2⟩, rfl⟩
    · rw [h2]
      rcases ih (fun o ho => h o (List.mem_cons_of_mem _ ho)) with ⟨⟨x, hx, s, k1, k2⟩, k3⟩ | ⟨k1, ps, k2⟩
      · left
        rw [k3]
        exact ⟨⟨x, List.mem_cons_of_mem _ hx, s, k1, k2⟩, rfl⟩
      · right
        rw [k2]
        refine ⟨?_, _, rfl⟩
        intro x hx
        rcases List.mem_cons.mp hx with rfl | hx
        · exact h1
        · exact k1 x hx

end GosuPP
