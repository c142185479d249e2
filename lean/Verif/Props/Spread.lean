import Verif.Lemmas.Spread
import Verif.Lemmas.Stats
import Verif.Props.Steady

/-!
# C92: wider gaps and smaller circles are never easier to tap
-/

namespace GosuPP.Props
open Go Spec Exactly
attribute [local instance] exactLibm

variable {d d' : Difficulty (Option ℝ)} {c c' : ℝ} {pos pos' : ℕ → ℝ × ℝ} {objs objs' : List (Obj (Option ℝ) (Option ℝ))}

private theorem create_plain {d : Difficulty (Option ℝ)} {objs : List (Obj (Option ℝ) (Option ℝ))} (h : ∀ o ∈ objs, o.isSlider = false) :
    ∃ ds, createDifficultyObjects objs d = .ok ds := by
  have : ∃ ps, decorateAll d objs = .ok ps := by
    induction objs with
    | nil => exact ⟨[], rfl⟩
    | cons o objs ih =>
      obtain ⟨ps, hps⟩ := ih fun x hx => h x (List.mem_cons_of_mem _ hx)
      refine ⟨⟨o, none⟩ :: ps, ?_⟩
      rw [decorateAll, decorate_plain (h o (List.mem_cons_self ..)), hps]
      rfl
  obtain ⟨ps, hps⟩ := this
  unfold createDifficultyObjects
  rw [hps]
  cases ps <;> exact ⟨_, rfl⟩

private theorem sections_of (hd : Stricter d d') (h : Spread d.mods d'.mods pos pos' objs objs') :
    (objs'.tail.map fun o => ⌈(o.base.startTime /. d'.speed).getD 0 / 400⌉) =
      objs.tail.map fun o => ⌈(o.base.startTime /. d.speed).getD 0 / 400⌉ := by
  obtain ⟨r, -, e1, e2⟩ := hd.speed
  apply List.ext_getElem?
  intro i
  rw [List.getElem?_map, List.getElem?_map, List.getElem?_tail, List.getElem?_tail]
  cases ho : objs[i + 1]? with
  | none =>
    rw [List.getElem?_eq_none_iff] at ho
    rw [List.getElem?_eq_none (by rw [h.length]; exact ho)]
    rfl
  | some o =>
    have hlt := (List.getElem?_eq_some_iff.mp ho).1
    have ho' : objs'[i + 1]? = some (objs'[i + 1]'(by rw [h.length]; exact hlt)) :=
      List.getElem?_eq_getElem _
    obtain ⟨-, t, ht, ht'⟩ := h.alike _ _ _ ho ho'
    rw [ho', Option.map_some, Option.map_some, ht, ht', e1, e2]

private theorem isSome_div {d : Difficulty (Option ℝ)} {r t : ℝ} (hr : 0 < r) (hs : d.speed = some r) {o : Obj (Option ℝ) (Option ℝ)}
    (ht : o.base.startTime = some t) : (o.base.startTime /. d.speed).isSome = true := by
  rw [ht, hs, Exact.div _ hr.ne']
  rfl

/-- C92 (exact). Two maps of circles and spinners at the same times, of which the second has gaps at least as wide,
circles that are no larger and a window for a 300 that is no longer. Both get results; the speed rating of the
second is not lower, nor is any peak of speed. -/
theorem C92_spread [GoSort] {r w w' : ℝ} (h : Spread d.mods d'.mods pos pos' objs objs') (hne : objs ≠ [])
    (hr : 0 < r) (hs : d.speed = some r) (hs' : d'.speed = some r)
    (hw : 0 < w') (hww : w' ≤ w) (h3 : d.hit300 = some w) (h3' : d'.hit300 = some w')
    (hc : 0 < c') (hcc : c' ≤ c) (er : d.circleRadius = some c) (er' : d'.circleRadius = some c')
    (hrx : Modifier.active d'.mods Mod.Relax = Modifier.active d.mods Mod.Relax) :
    ∃ N, ∀ fuel ≥ N, ∃ a a' p p', calculateSingle fuel objs d = .ok a ∧ calculateSingle fuel objs' d' = .ok a' ∧
      calculateStrainPeaks fuel objs d = .ok p ∧ calculateStrainPeaks fuel objs' d' = .ok p' ∧
      NoMore a.speed a'.speed ∧ List.Forall₂ NoMore p.speed p'.speed := by
  have hd : Stricter d d' := ⟨⟨r, hr, hs, hs'⟩, ⟨w, w', hw, hww, h3, h3'⟩⟩
  obtain ⟨ds, hds⟩ := create_plain (d := d) fun o ho => h.plain o (List.mem_append_left _ ho)
  obtain ⟨ds', hds'⟩ := create_plain (d := d') fun o ho => h.plain o (List.mem_append_right _ ho)
  have hne' : objs' ≠ [] := by
    intro e
    have := h.length
    rw [e] at this
    exact hne (List.length_eq_zero_iff.mp this.symm)
  have time : ∀ o ∈ objs.tail, (o.base.startTime /. d.speed).isSome = true := by
    intro o ho
    obtain ⟨i, hi, rfl⟩ := List.getElem_of_mem (List.mem_of_mem_tail ho)
    obtain ⟨-, t, ht, -⟩ := h.alike i _ _ (List.getElem?_eq_getElem hi) (List.getElem?_eq_getElem (by rw [h.length]; exact hi))
    exact isSome_div hr hs ht
  have time' : ∀ o ∈ objs'.tail, (o.base.startTime /. d'.speed).isSome = true := by
    intro o ho
    obtain ⟨i, hi, rfl⟩ := List.getElem_of_mem (List.mem_of_mem_tail ho)
    obtain ⟨-, t, -, ht⟩ := h.alike i _ _ (List.getElem?_eq_getElem (by rw [← h.length]; exact hi)) (List.getElem?_eq_getElem hi)
    exact isSome_div hr hs' ht
  refine ⟨sectionCount (objs.tail.map fun o => ⌈(o.base.startTime /. d.speed).getD 0 / 400⌉), fun fuel hf => ?_⟩
  rcases count_grid exactGrid fuel objs hne d hds time with ⟨hlt, -⟩ | ⟨p, a, hp, ha, -⟩
  · exact absurd hf (Nat.not_le.mpr hlt)
  rcases count_grid exactGrid fuel objs' hne' d' hds' time' with ⟨hlt, -⟩ | ⟨p', a', hp', ha', -⟩
  · rw [sections_of hd h] at hlt
    exact absurd hf (Nat.not_le.mpr hlt)
  refine ⟨a, a', p, p', ha, ha', hp, hp', ?_, ?_⟩
  · unfold calculateSingle at ha ha'
    obtain ⟨x, hx, e⟩ := bind_ok ha
    obtain ⟨x', hx', e'⟩ := bind_ok ha'
    rw [← Except.ok.inj e, ← Except.ok.inj e']
    obtain ⟨k, ⟨at1, e1⟩, ⟨at2, e2⟩⟩ := spread_core h hd hc hcc er er' hx hx'
    rw [e1, e2]
    have hv := value_ahead k
    unfold SkillSet.getStars getStarsFromRawValues Difficulty.checkModActive
    dsimp only
    rw [hrx]
    split
    · exact .lit (by norm_num)
    · exact hv.sqrt.mul (.lit (by norm_num))
  · unfold calculateStrainPeaks at hp hp'
    rw [hds, ok_bind] at hp
    rw [hds', ok_bind] at hp'
    obtain ⟨s, hs1, hp⟩ := bind_ok hp
    obtain ⟨s', hs1', hp'⟩ := bind_ok hp'
    have := fold_ahead (fuel := fuel) (spread_objects h hd hc hcc er er' hds hds') (ahead_new hd)
    rw [(peakLoop_fold hs1).2, (peakLoop_fold hs1').2] at this
    have k := peaks_ahead this
    unfold getPeaks at hp hp'
    obtain ⟨t, -, hp⟩ := bind_ok hp
    obtain ⟨t', -, hp'⟩ := bind_ok hp'
    rw [← Except.ok.inj hp, ← Except.ok.inj hp']
    exact k

/-- C92 (exact). Raising CS (to at most 12) never lowers the speed rating of a map of circles and spinners. -/
theorem C92_cs [GoSort] {s x y w : ℝ} (hpl : ∀ o ∈ objs, o.isSlider = false ∧ (∃ t, o.base.startTime = some t) ∧
      ∃ u v, o.base.getStackedStartPositionMod d.mods = ⟨some u, some v⟩) (hne : objs ≠ [])
    (hs : 0 < s) (hcs : d.customSpeed = some s) (hod : d.od = some w) (hw : w ≤ 13) (hxy : x ≤ y) (hy : y ≤ 12) :
    ∃ N, ∀ fuel ≥ N, ∃ a a' p p', calculateSingle fuel objs (d.setCS (some x)) = .ok a ∧
      calculateSingle fuel objs (d.setCS (some y)) = .ok a' ∧
      calculateStrainPeaks fuel objs (d.setCS (some x)) = .ok p ∧ calculateStrainPeaks fuel objs (d.setCS (some y)) = .ok p' ∧
      NoMore a.speed a'.speed ∧ List.Forall₂ NoMore p.speed p'.speed := by
  obtain ⟨x', y', ex, ey, hle, h12⟩ := Exactly.adjust_mono d.mods (k := 1.3) (by norm_num) (show (10 : ℝ) ≤ 12 by norm_num) hxy
  obtain ⟨-, w', -, ew, -, h13⟩ := Exactly.adjust_mono d.mods (k := 1.4) (by norm_num) (show (10 : ℝ) ≤ 13 by norm_num) (le_refl w)
  obtain ⟨r, hr, er⟩ := speed_pos d.mods hs
  have hspd : ∀ z, (d.setCS z).speed = some r := fun z => by
    show lit 1 /. Difficulty.modifiedTime d.mods d.customSpeed (lit 1) = _
    rw [hcs, er]
  have hwin : ∀ z, (d.setCS z).hit300 = some (80 - 6 * w') := fun z => by
    show difficultyRate (Difficulty.adjust d.mods 1.4 d.od) _ _ _ = _
    rw [hod, ew, rate300]
  have hrx : (d.setCS (some x)).circleRadius = some (54.4 - 4.48 * x') := by
    show difficultyRate (Difficulty.adjust d.mods 1.3 (some x)) _ _ _ = _
    rw [ex, radius_exact]
  have hry : (d.setCS (some y)).circleRadius = some (54.4 - 4.48 * y') := by
    show difficultyRate (Difficulty.adjust d.mods 1.3 (some y)) _ _ _ = _
    rw [ey, radius_exact]
  let pos : ℕ → ℝ × ℝ := fun i => match objs[i]? with
    | some o => (((o.base.getStackedStartPositionMod d.mods).x).getD 0, ((o.base.getStackedStartPositionMod d.mods).y).getD 0)
    | none => (0, 0)
  have place : ∀ (i : ℕ) o, objs[i]? = some o → o.base.getStackedStartPositionMod d.mods = ⟨some (pos i).1, some (pos i).2⟩ := by
    intro i o ho
    obtain ⟨u, v, e⟩ := (hpl o (List.mem_of_getElem? ho)).2.2
    simp only [pos, ho, e, Option.getD_some]
  have hsp : Spread (d.setCS (some x)).mods (d.setCS (some y)).mods pos pos objs objs := {
    length := rfl
    plain := fun o ho => (hpl o (by simpa using ho)).1
    alike := fun i o o' ho ho' => by
      rw [ho] at ho'
      cases ho'
      obtain ⟨t, ht⟩ := (hpl o (List.mem_of_getElem? ho)).2.1
      exact ⟨rfl, t, ht, ht⟩
    place := place
    place' := place
    wider := fun _ _ => le_rfl }
  have hyb := h12 hy
  have hwb := h13 hw
  exact C92_spread hsp hne hr (hspd _) (hspd _) (by linarith) le_rfl (hwin _) (hwin _) (by linarith) (by linarith) hrx hry rfl

/-- C92 (exact). Adding HardRock to any mods never lowers the speed rating of a map of circles and spinners that are
not stacked, with CS and OD between 0 and 10. -/
theorem C92_hardrock [GoSort] {s cs od : ℝ} (m : Modifier) (hpl : ∀ o ∈ objs, Unstacked o) (hne : objs ≠ [])
    (hs : 0 < s) (hcu : d.customSpeed = some s) (hcs : d.cs = some cs) (hod : d.od = some od)
    (hcs0 : 0 ≤ cs) (hcs1 : cs ≤ 10) (hod0 : 0 ≤ od) (hod1 : od ≤ 10) :
    ∃ N, ∀ fuel ≥ N, ∃ a a' p p', calculateSingle fuel objs (d.setMods m) = .ok a ∧
      calculateSingle fuel objs (d.setMods (m ||| Mod.HardRock)) = .ok a' ∧
      calculateStrainPeaks fuel objs (d.setMods m) = .ok p ∧
      calculateStrainPeaks fuel objs (d.setMods (m ||| Mod.HardRock)) = .ok p' ∧
      NoMore a.speed a'.speed ∧ List.Forall₂ NoMore p.speed p'.speed := by
  obtain ⟨x, x', ex, ex', hx, hx10⟩ := adjust_hardrock m (k := 1.3) (by norm_num) hcs0 hcs1
  obtain ⟨y, y', ey, ey', hy, hy10⟩ := adjust_hardrock m (k := 1.4) (by norm_num) hod0 hod1
  obtain ⟨r, hr, er⟩ := speed_pos m hs
  have o1 : Modifier.active (m ||| Mod.HardRock) Mod.DoubleTime = Modifier.active m Mod.DoubleTime :=
    active_or m (i := 4) (j := 6) (by decide) (by decide)
  have o2 : Modifier.active (m ||| Mod.HardRock) Mod.HalfTime = Modifier.active m Mod.HalfTime :=
    active_or m (i := 4) (j := 8) (by decide) (by decide)
  have o3 : Modifier.active (m ||| Mod.HardRock) Mod.Relax = Modifier.active m Mod.Relax :=
    active_or m (i := 4) (j := 7) (by decide) (by decide)
  have h1 : (d.setMods m).speed = some r := by
    show lit 1 /. Difficulty.modifiedTime m d.customSpeed (lit 1) = _
    rw [hcu, er]
  have h2 : (d.setMods (m ||| Mod.HardRock)).speed = some r := by
    rw [← h1]
    show lit 1 /. Difficulty.modifiedTime (m ||| Mod.HardRock) d.customSpeed (lit 1) =
      lit 1 /. Difficulty.modifiedTime m d.customSpeed (lit 1)
    unfold Difficulty.modifiedTime
    rw [o1, o2]
  have h3 : (d.setMods m).hit300 = some (80 - 6 * y) := by
    show difficultyRate (Difficulty.adjust m 1.4 d.od) _ _ _ = _
    rw [hod, ey, rate300]
  have h4 : (d.setMods (m ||| Mod.HardRock)).hit300 = some (80 - 6 * y') := by
    show difficultyRate (Difficulty.adjust (m ||| Mod.HardRock) 1.4 d.od) _ _ _ = _
    rw [hod, ey', rate300]
  have h5 : (d.setMods m).circleRadius = some (54.4 - 4.48 * x) := by
    show difficultyRate (Difficulty.adjust m 1.3 d.cs) _ _ _ = _
    rw [hcs, ex, radius_exact]
  have h6 : (d.setMods (m ||| Mod.HardRock)).circleRadius = some (54.4 - 4.48 * x') := by
    show difficultyRate (Difficulty.adjust (m ||| Mod.HardRock) 1.3 d.cs) _ _ _ = _
    rw [hcs, ex', radius_exact]
  let raw : ℕ → ℝ × ℝ := fun i => match objs[i]? with
    | some o => ((o.base.startPosRaw.x).getD 0, (o.base.startPosRaw.y).getD 0)
    | none => (0, 0)
  let shown (m : Modifier) : ℕ → ℝ × ℝ := fun i =>
    ((raw i).1, if Modifier.active m Mod.HardRock = true then 384 - (raw i).2 else (raw i).2)
  have place : ∀ (m : Modifier) (i : ℕ) o, objs[i]? = some o →
      o.base.getStackedStartPositionMod m = ⟨some (shown m i).1, some (shown m i).2⟩ := by
    intro m i o ho
    obtain ⟨u, v, e⟩ := (hpl o (List.mem_of_getElem? ho)).place
    obtain ⟨z1, z2, z3⟩ := (hpl o (List.mem_of_getElem? ho)).offset
    unfold HitObject.getStackedStartPositionMod HitObject.modifyPosition
    simp only [shown, raw, ho, e, z1, z2, z3, Option.getD_some, Vec.add, Exact.add, Exact.lit, Exact.sub, add_zero]
    split
    · norm_num
    · split <;> rfl
  have hsp : Spread (d.setMods m).mods (d.setMods (m ||| Mod.HardRock)).mods (shown m) (shown (m ||| Mod.HardRock)) objs objs := {
    length := rfl
    plain := fun o ho => (hpl o (by simpa using ho)).plain
    alike := fun i o o' ho ho' => by
      rw [ho] at ho'
      cases ho'
      obtain ⟨t, ht⟩ := (hpl o (List.mem_of_getElem? ho)).time
      exact ⟨rfl, t, ht, ht⟩
    place := place _
    place' := place _
    wider := fun i _ => by
      have : ∀ m, apart2 (shown m i) (shown m (i + 1)) = apart2 (raw i) (raw (i + 1)) := by
        intro m
        simp only [apart2, shown]
        split <;> ring
      rw [this, this] }
  exact C92_spread hsp hne hr h1 h2 (by linarith) (by linarith) h3 h4 (by linarith) (by linarith) h5 h6 o3

/-- C92: three circles, with HardRock and DoubleTime. -/
example [GoSort] : ∃ fuel a a',
    calculateSingle fuel [exactCircle 10 20 0, exactCircle 300 20 100, exactCircle 40 200 220] (exactDiff.setMods Mod.DoubleTime) = .ok a ∧
    calculateSingle fuel [exactCircle 10 20 0, exactCircle 300 20 100, exactCircle 40 200 220]
      (exactDiff.setMods (Mod.DoubleTime ||| Mod.HardRock)) = .ok a' ∧ NoMore a.speed a'.speed := by
  have un : ∀ x y t, Unstacked (exactCircle x y t) := fun x y t => by
    have h0 : (lit 0 : Option ℝ) = some 0 := by rw [Exact.lit]; norm_num
    refine ⟨rfl, ⟨t, rfl⟩, ⟨x, y, rfl⟩, ?_, ?_, ?_⟩ <;> simp [exactCircle, Vec.zero, h0]
  have hc : exactDiff.customSpeed = some ((1 : ℚ) : ℝ) := rfl
  have h5 : exactDiff.cs = some ((5 : ℚ) : ℝ) := rfl
  have h6 : exactDiff.od = some ((5 : ℚ) : ℝ) := rfl
  obtain ⟨N, hN⟩ := C92_hardrock (d := exactDiff) (objs := [exactCircle 10 20 0, exactCircle 300 20 100, exactCircle 40 200 220])
    Mod.DoubleTime (by simp [un]) (by simp) (by norm_num) hc h5 h6 (by norm_num) (by norm_num) (by norm_num) (by norm_num)
  obtain ⟨a, a', p, p', h1, h2, -, -, h3, -⟩ := hN N le_rfl
  exact ⟨N, a, a', h1, h2, h3⟩

/-- C92: the same circles with CS 4 and CS 6.5. -/
example [GoSort] : ∃ fuel a a',
    calculateSingle fuel [exactCircle 10 20 0, exactCircle 300 20 100, exactCircle 40 200 220] (exactDiff.setCS (some 4)) = .ok a ∧
    calculateSingle fuel [exactCircle 10 20 0, exactCircle 300 20 100, exactCircle 40 200 220] (exactDiff.setCS (some 6.5)) = .ok a' ∧
    NoMore a.speed a'.speed := by
  have h0 : (lit 0 : Option ℝ) = some 0 := by rw [Exact.lit]; norm_num
  have n1 : Modifier.active exactDiff.mods Mod.HardRock = false := by decide
  have n2 : Modifier.active exactDiff.mods Mod.Easy = false := by decide
  have un : ∀ x y t, (exactCircle x y t).isSlider = false ∧ (∃ u, (exactCircle x y t).base.startTime = some u) ∧
      ∃ u v, (exactCircle x y t).base.getStackedStartPositionMod exactDiff.mods = ⟨some u, some v⟩ := fun x y t => by
    refine ⟨rfl, ⟨t, rfl⟩, x, y, ?_⟩
    unfold HitObject.getStackedStartPositionMod HitObject.modifyPosition
    rw [n1, n2]
    simp [exactCircle, Vec.zero, Vec.add, h0, Exact.add]
  have hc : exactDiff.customSpeed = some ((1 : ℚ) : ℝ) := rfl
  have h6 : exactDiff.od = some ((5 : ℚ) : ℝ) := rfl
  obtain ⟨N, hN⟩ := C92_cs (d := exactDiff) (objs := [exactCircle 10 20 0, exactCircle 300 20 100, exactCircle 40 200 220])
    (x := 4) (y := 6.5) (by simp only [List.mem_cons, List.not_mem_nil, or_false]; rintro o (rfl | rfl | rfl) <;> exact un _ _ _)
    (by simp) (by norm_num) hc h6 (by norm_num) (by norm_num) (by norm_num)
  obtain ⟨a, a', p, p', h1, h2, -, -, h3, -⟩ := hN N le_rfl
  exact ⟨N, a, a', h1, h2, h3⟩

end GosuPP.Props
