import Verif.Lemmas.Enlarged
import Verif.Lemmas.Visible
import Verif.Props.Rating
import Verif.Props.Spread

/-!
# C104: larger jumps and smaller circles never make a map of circles easier
-/

namespace GosuPP.Props
open Go Spec Exactly
attribute [local instance] exactLibm

section
variable {c c' r w w' k : ℝ} {x x' : ℕ → Note} {objs objs' : List (Obj (Option ℝ) (Option ℝ))} {d d' : Difficulty (Option ℝ)}

private theorem spread_of (hs : Shows d x objs) (hs' : Shows d' x' objs') (hlen : objs'.length = objs.length) (h : Enlarged k x x') (hk : 1 ≤ k) :
    Spread d.mods d'.mods (fun i => ((x i).head.re, (x i).head.im)) (fun i => ((x' i).head.re, (x' i).head.im)) objs objs' where
  length := hlen
  plain := by
    have aux : ∀ {d : Difficulty (Option ℝ)} {x : ℕ → Note} {objs : List (Obj (Option ℝ) (Option ℝ))}, Shows d x objs →
        (∀ i, (x i).slide = none) → ∀ o ∈ objs, o.isSlider = false := by
      intro d x objs hs hx o ho
      obtain ⟨i, hi, rfl⟩ := List.getElem_of_mem ho
      unfold Obj.isSlider
      cases hk : (objs[i]).kind with
      | slider s =>
        obtain ⟨q, e, -⟩ := hs.slider i _ s (List.getElem?_eq_getElem hi) hk
        rw [hx] at e
        cases e
      | circle => rfl
      | spinner => rfl
    intro o ho
    rcases List.mem_append.mp ho with ho | ho
    · exact aux hs h.plain o ho
    · exact aux hs' h.plain' o ho
  alike i o o' ho ho' := ⟨by rw [hs.spins i o ho, hs'.spins i o' ho', h.spinner], _, hs.time i o ho, by rw [hs'.time i o' ho', h.time]⟩
  place := hs.head
  place' := hs'.head
  wider i _ := by
    have e : ∀ z u : ℂ, apart2 (z.re, z.im) (u.re, u.im) = ‖u - z‖ ^ 2 := by
      intro z u
      rw [← Complex.normSq_eq_norm_sq, Complex.normSq_apply]
      simp only [apart2, Complex.sub_re, Complex.sub_im]
      ring
    rw [e, e, h.heads]
    exact pow_le_pow_left₀ (norm_nonneg _) (le_mul_of_one_le_left (norm_nonneg _) hk) 2

private theorem nomore {a b : ℝ} (h0 : 0 ≤ a) (h : a ≤ b) : NoMore (some a) (some b) := .inr ⟨a, b, rfl, rfl, h0, h⟩

private theorem stars_nonneg (a s f : ℝ) : 0 ≤ starsOf a s f := le_trans (by positivity) (starsOf_ge a s f)

/-- C104 (exact arithmetic). Two maps of circles and spinners at the same times, of which the second is larger, has circles
that are no larger and a window for a 300 that is no longer. Both get results; no rating of the second and no strain peak
is lower. -/
theorem C104_enlarged [GoSort] (hs : Shows d x objs) (hs' : Shows d' x' objs') (hne : objs ≠ []) (hlen : objs'.length = objs.length)
    (h : Enlarged k x x') (hk : 1 ≤ k)
    (hr : 0 < r) (er : d.speed = some r) (er' : d'.speed = some r)
    (hw : 0 < w') (hww : w' ≤ w) (ew : d.hit300 = some w) (ew' : d'.hit300 = some w')
    (hc : 0 < c') (hcc : c' ≤ c) (ec : d.circleRadius = some c) (ec' : d'.circleRadius = some c')
    (hrx : d'.checkModActive Mod.Relax = d.checkModActive Mod.Relax)
    (hfl : d'.checkModActive Mod.Flashlight = d.checkModActive Mod.Flashlight) :
    ∃ N, ∀ fuel ≥ N, ∃ a a' p p', calculateSingle fuel objs d = .ok a ∧ calculateSingle fuel objs' d' = .ok a' ∧
      calculateStrainPeaks fuel objs d = .ok p ∧ calculateStrainPeaks fuel objs' d' = .ok p' ∧
      NoEasier a a' ∧ (2 ≤ objs.length → NoLower p p') := by
  have hc0 : 0 < c := by linarith
  have hk0 : 0 < k := by linarith
  have hw0 : 0 < w := by linarith
  obtain ⟨N, hN⟩ := C92_spread (spread_of hs hs' hlen h hk) hne hr er er' hw hww ew ew' hc hcc ec ec' hrx
  refine ⟨N, fun fuel hf => ?_⟩
  obtain ⟨a, a', p, p', ha, ha', hp, hp', hsp, hpeaks⟩ := hN fuel hf
  refine ⟨a, a', p, p', ha, ha', hp, hp', ?_⟩
  have hclock : clock r x' = clock r x := by
    funext n
    unfold clock
    rw [h.time]
  have hscale : jumpLength c 1 ≤ k * jumpLength c' 1 := by
    have := (jumpLength_radius hc hcc).1
    have := jumpLength_one_pos hc
    nlinarith
  have hA0 : ∀ n, 0 ≤ 23.25 * aimHit c r x true n := fun n => mul_nonneg (by norm_num) (aimHit_nonneg hc0 hs.toPlayable _ n)
  have hA : ∀ n, 23.25 * aimHit c r x true n ≤ 23.25 * aimHit c' r x' true n :=
    fun n => mul_le_mul_of_nonneg_left (aimHit_enlarged hc0 hk0 h hscale true n) (by norm_num)
  have hF0 : ∀ n, 0 ≤ 0.15 * flashHit c r x n := fun n => mul_nonneg (by norm_num) (flashHit_nonneg n)
  have hF : ∀ n, 0.15 * flashHit c r x n ≤ 0.15 * flashHit c' r x' n :=
    fun n => mul_le_mul_of_nonneg_left (flashHit_enlarged hc hcc hk h n) (by norm_num)
  have h01 : ∀ n : ℕ, (0 : ℝ) ≤ (fun _ => 1) n := fun _ => zero_le_one
  by_cases hn : 2 ≤ objs.length
  · have hn' : 2 ≤ objs'.length := by omega
    choose isl hl using islands_exist (r := r) (x := x)
    choose isl' hl' using islands_exist (r := r) (x := x')
    obtain ⟨l1, _, l3, l4, q1, -, -, q4, q5, g1, -, g3, g4, g5⟩ := C100_ratings hs er hr ec hc0 ew hw0 hl hn ha
    obtain ⟨m1, _, m3, m4, q1', -, -, q4', q5', g1', -, g3', g4', g5'⟩ := C100_ratings hs' er' hr ec' hc ew' hw hl' hn' ha'
    rw [hclock, hlen] at q1' q4'
    have i1 : ratingOf (peakValue 10 0.9 1.06 l1) ≤ ratingOf (peakValue 10 0.9 1.06 m1) :=
      ratingOf_le (peakValue_le (peaks_le (by norm_num) hA0 hA h01 q1 q1') d)
    have i4 : ratingOf (peakValue 10 1 1.06 l4) ≤ ratingOf (peakValue 10 1 1.06 m4) := by
      cases hm : d.checkModActive Mod.Flashlight
      · rw [q5 hm, q5' (hfl.trans hm)]
      · exact ratingOf_le (peakValue_le_flash (peaks_le (by norm_num) hF0 hF h01 (q4 hm) (q4' (hfl.trans hm))) d)
    have i3 : (if d.checkModActive Mod.Relax = true then 0 else ratingOf (peakValue 5 0.9 1.04 l3)) ≤
        (if d'.checkModActive Mod.Relax = true then 0 else ratingOf (peakValue 5 0.9 1.04 m3)) := by
      rw [g3, g3'] at hsp
      rcases hsp with ⟨e, -⟩ | ⟨a, b, e1, e2, -, hab⟩
      · cases e
      · rw [Option.some.inj e1, Option.some.inj e2]; exact hab
    refine ⟨⟨?_, hsp, ?_, ?_⟩, fun _ => ⟨?_, hpeaks, ?_⟩⟩
    · rw [g1, g1']; exact nomore (ratingOf_nonneg _) i1
    · rw [g4, g4']; exact nomore (ratingOf_nonneg _) i4
    · rw [g5, g5']; exact nomore (stars_nonneg _ _ _) (starsOf_le i1 i3 (ratingOf_nonneg _) i4)
    · have t1 := C97_aim hs er hr ec hc0 hn hp
      have t2 := C97_aim hs' er' hr ec' hc hn' hp'
      rw [hclock, hlen] at t2
      exact peaks_le (by norm_num) hA0 hA h01 t1 t2
    · cases hm : d.checkModActive Mod.Flashlight
      · rw [C99_without hm hp, C99_without (hfl.trans hm) hp']
        exact .nil
      · have t1 := C99_flashlight hs hm er hr ec hc0 hn hp
        have t2 := C99_flashlight hs' (hfl.trans hm) er' hr ec' hc hn' hp'
        rw [hclock, hlen] at t2
        exact peaks_le (by norm_num) hF0 hF h01 t1 t2
  · refine ⟨?_, fun h => absurd h hn⟩
    have one : ∀ {l : List (Obj (Option ℝ) (Option ℝ))}, l.length = 1 → ∃ o, l = [o] := fun h => List.length_eq_one_iff.mp h
    have h1 : objs.length = 1 := by
      have : 0 < objs.length := List.length_pos_iff.mpr hne
      omega
    obtain ⟨o, rfl⟩ := one h1
    obtain ⟨o', rfl⟩ := one (hlen.trans h1)
    obtain ⟨a1, a2, a3, a4, -⟩ := C100_one ha
    obtain ⟨b1, b2, b3, b4, -⟩ := C100_one ha'
    refine ⟨?_, hsp, ?_, ?_⟩
    · rw [a2, b2]; exact nomore le_rfl le_rfl
    · rw [a4, b4]; exact nomore le_rfl le_rfl
    · rw [a1, b1]; exact nomore (by positivity) le_rfl

end

section
variable {d : Difficulty (Option ℝ)} {objs : List (Obj (Option ℝ) (Option ℝ))}

theorem plain_note (h : ∀ o ∈ objs, o.isSlider = false) (hne : objs ≠ []) (i : ℕ) : (notesOf d objs i).slide = none := by
  obtain ⟨o, -, mo, e⟩ := notesOf_mem d hne i
  rw [e]
  have := h o mo
  unfold Obj.isSlider at this
  cases hk : o.kind with
  | slider s => rw [hk] at this; simp at this
  | circle => simp [noteOf, hk]
  | spinner => simp [noteOf, hk]

/-- C104 (exact arithmetic). Raising CS (to at most 12) never lowers a rating of a map of circles and spinners, nor a strain
peak. -/
theorem C104_cs [GoSort] {s x y w : ℝ} (hpl : ∀ o ∈ objs, o.isSlider = false) (hv : Visible d.mods objs) (hne : objs ≠ [])
    (hs : 0 < s) (hcs : d.customSpeed = some s) (hod : d.od = some w) (hw : w ≤ 13) (hxy : x ≤ y) (hy : y ≤ 12) :
    ∃ N, ∀ fuel ≥ N, ∃ a a' p p', calculateSingle fuel objs (d.setCS (some x)) = .ok a ∧
      calculateSingle fuel objs (d.setCS (some y)) = .ok a' ∧
      calculateStrainPeaks fuel objs (d.setCS (some x)) = .ok p ∧ calculateStrainPeaks fuel objs (d.setCS (some y)) = .ok p' ∧
      NoEasier a a' ∧ (2 ≤ objs.length → NoLower p p') := by
  obtain ⟨x', y', ex, ey, hle, h12⟩ := Exactly.adjust_mono d.mods (k := 1.3) (by norm_num) (show (10 : ℝ) ≤ 12 by norm_num) hxy
  obtain ⟨-, w', -, ew, -, h13⟩ := Exactly.adjust_mono d.mods (k := 1.4) (by norm_num) (show (10 : ℝ) ≤ 13 by norm_num) (le_refl w)
  obtain ⟨r, hr, er⟩ := speed_pos d.mods hs
  have hspd : ∀ z, (d.setCS z).speed = some r := fun z => by
    show lit 1 /. Difficulty.modifiedTime d.mods d.customSpeed (lit 1) = _
    rw [hcs, er]
  have hwin : ∀ z, (d.setCS z).hit300 = some (80 - 6 * w') := fun z => by
    show difficultyRate (Difficulty.adjust d.mods 1.4 d.od) _ _ _ = _
    rw [hod, ew, rate300]
  have hrx : (d.setCS (some x)).circleRadius = some (54.4 - 4.48 * x') := by
    show difficultyRate (Difficulty.adjust d.mods 1.3 (some x)) _ _ _ = _
    rw [ex, radius_exact]
  have hry : (d.setCS (some y)).circleRadius = some (54.4 - 4.48 * y') := by
    show difficultyRate (Difficulty.adjust d.mods 1.3 (some y)) _ _ _ = _
    rw [ey, radius_exact]
  have hyb := h12 hy
  have hwb := h13 hw
  have s1 := visible_shows (d := d.setCS (some x)) hrx (by linarith) hne hv
  have s2 := visible_shows (d := d.setCS (some y)) hry (by linarith) hne hv
  have e : ∀ i, (notesOf (d.setCS (some y)) objs i).time = (notesOf (d.setCS (some x)) objs i).time ∧
      (notesOf (d.setCS (some y)) objs i).spinner = (notesOf (d.setCS (some x)) objs i).spinner ∧
      (notesOf (d.setCS (some y)) objs i).head = (notesOf (d.setCS (some x)) objs i).head ∧
      (notesOf (d.setCS (some y)) objs i).tail = (notesOf (d.setCS (some x)) objs i).tail := by
    intro i
    unfold notesOf
    split <;> exact ⟨rfl, rfl, rfl, rfl⟩
  have hl : Enlarged 1 (notesOf (d.setCS (some x)) objs) (notesOf (d.setCS (some y)) objs) := {
    time := fun i => (e i).1
    spinner := fun i => (e i).2.1
    plain := plain_note hpl hne
    plain' := plain_note hpl hne
    heads := fun i j => by rw [(e i).2.2.1, (e j).2.2.1, one_mul]
    tails := fun i j => by rw [(e i).2.2.1, (e j).2.2.2, one_mul] }
  exact C104_enlarged s1 s2 hne rfl hl le_rfl hr (hspd _) (hspd _) (by linarith) le_rfl (hwin _) (hwin _) (by linarith) (by linarith) hrx hry
    rfl rfl

private theorem mods_compare [GoSort] {s cs od x x' y y' : ℝ} {m m' : Modifier} (hpl : ∀ o ∈ objs, Unstacked o)
    (hend : ∀ o ∈ objs, Somewhere o.base.endPosRaw) (hord : InOrder objs) (hne : objs ≠ [])
    (hs : 0 < s) (hcu : d.customSpeed = some s) (hcs : d.cs = some cs) (hod : d.od = some od)
    (ex : Difficulty.adjust m 1.3 (some cs : Option ℝ) = some x) (ex' : Difficulty.adjust m' 1.3 (some cs : Option ℝ) = some x')
    (hx : x ≤ x') (hx10 : x' ≤ 10)
    (ey : Difficulty.adjust m 1.4 (some od : Option ℝ) = some y) (ey' : Difficulty.adjust m' 1.4 (some od : Option ℝ) = some y')
    (hy : y ≤ y') (hy10 : y' ≤ 10)
    (o1 : Modifier.active m' Mod.DoubleTime = Modifier.active m Mod.DoubleTime)
    (o2 : Modifier.active m' Mod.HalfTime = Modifier.active m Mod.HalfTime)
    (o3 : Modifier.active m' Mod.Relax = Modifier.active m Mod.Relax)
    (o4 : Modifier.active m' Mod.Flashlight = Modifier.active m Mod.Flashlight) :
    ∃ N, ∀ fuel ≥ N, ∃ a a' p p', calculateSingle fuel objs (d.setMods m) = .ok a ∧
      calculateSingle fuel objs (d.setMods m') = .ok a' ∧
      calculateStrainPeaks fuel objs (d.setMods m) = .ok p ∧ calculateStrainPeaks fuel objs (d.setMods m') = .ok p' ∧
      NoEasier a a' ∧ (2 ≤ objs.length → NoLower p p') := by
  obtain ⟨r, hr, er⟩ := speed_pos m hs
  have h1 : (d.setMods m).speed = some r := by
    show lit 1 /. Difficulty.modifiedTime m d.customSpeed (lit 1) = _
    rw [hcu, er]
  have h2 : (d.setMods m').speed = some r := by
    rw [← h1]
    show lit 1 /. Difficulty.modifiedTime m' d.customSpeed (lit 1) = lit 1 /. Difficulty.modifiedTime m d.customSpeed (lit 1)
    unfold Difficulty.modifiedTime
    rw [o1, o2]
  have h3 : (d.setMods m).hit300 = some (80 - 6 * y) := by
    show difficultyRate (Difficulty.adjust m 1.4 d.od) _ _ _ = _
    rw [hod, ey, rate300]
  have h4 : (d.setMods m').hit300 = some (80 - 6 * y') := by
    show difficultyRate (Difficulty.adjust m' 1.4 d.od) _ _ _ = _
    rw [hod, ey', rate300]
  have h5 : (d.setMods m).circleRadius = some (54.4 - 4.48 * x) := by
    show difficultyRate (Difficulty.adjust m 1.3 d.cs) _ _ _ = _
    rw [hcs, ex, radius_exact]
  have h6 : (d.setMods m').circleRadius = some (54.4 - 4.48 * x') := by
    show difficultyRate (Difficulty.adjust m' 1.3 d.cs) _ _ _ = _
    rw [hcs, ex', radius_exact]
  -- what is shown, with both mods
  have shown : ∀ (m : Modifier) (o : Obj (Option ℝ) (Option ℝ)), o ∈ objs → ∀ (p : Vec (Option ℝ)) (u v : ℝ), p = ⟨some u, some v⟩ →
      o.base.modifyPosition p m = ⟨some u, some (if Modifier.active m Mod.HardRock = true then 384 - v else v)⟩ := by
    rintro m o ho p u v rfl
    obtain ⟨z1, z2, z3⟩ := (hpl o ho).offset
    unfold HitObject.modifyPosition
    simp only [z1, z2, z3, Vec.add, Exact.add, Exact.lit, Exact.sub, add_zero]
    split
    · norm_num
    · split <;> rfl
  have vis : ∀ m, Visible m objs := fun m => {
    time := fun o ho => (hpl o ho).time
    sorted := hord
    head := fun o ho => by
      obtain ⟨u, v, e⟩ := (hpl o ho).place
      exact ⟨_, _, shown m o ho _ u v e⟩
    tail := fun o ho => by
      obtain ⟨u, v, e⟩ := hend o ho
      exact ⟨_, _, shown m o ho _ u v e⟩
    slider := fun o ho s hk => by
      have := (hpl o ho).plain
      unfold Obj.isSlider at this
      rw [hk] at this
      simp at this }
  have s1 := visible_shows (d := d.setMods m) h5 (by linarith) hne (vis m)
  have s2 := visible_shows (d := d.setMods (m')) h6 (by linarith) hne (vis _)
  have e : ∀ (m : Modifier) i, ∃ o ∈ objs, objs[min i (objs.length - 1)]? = some o ∧
      (notesOf (d.setMods m) objs i).time = o.base.startTime.getD 0 ∧ (notesOf (d.setMods m) objs i).spinner = o.isSpinner ∧
      (∀ u v : ℝ, o.base.startPosRaw = ⟨some u, some v⟩ → (notesOf (d.setMods m) objs i).head =
        ⟨u, if Modifier.active m Mod.HardRock = true then 384 - v else v⟩) ∧
      (∀ u v : ℝ, o.base.endPosRaw = ⟨some u, some v⟩ → (notesOf (d.setMods m) objs i).tail =
        ⟨u, if Modifier.active m Mod.HardRock = true then 384 - v else v⟩) := by
    intro m i
    obtain ⟨o, ho, mo, eo⟩ := notesOf_mem (d.setMods m) hne i
    refine ⟨o, mo, ho, by rw [eo]; rfl, by rw [eo]; rfl, fun u v h => ?_, fun u v h => ?_⟩
    · have : o.base.getStackedStartPositionMod (d.setMods m).mods = _ := shown m o mo _ u v h
      rw [eo]
      simp only [noteOf, this, Option.getD_some]
    · have : o.base.getStackedEndPositionMod (d.setMods m).mods = _ := shown m o mo _ u v h
      rw [eo]
      simp only [noteOf, this, Option.getD_some]
  have pair : ∀ i, ∃ o ∈ objs, ∀ m, (notesOf (d.setMods m) objs i).time = o.base.startTime.getD 0 ∧
      (notesOf (d.setMods m) objs i).spinner = o.isSpinner ∧
      (∀ u v : ℝ, o.base.startPosRaw = ⟨some u, some v⟩ → (notesOf (d.setMods m) objs i).head =
        ⟨u, if Modifier.active m Mod.HardRock = true then 384 - v else v⟩) ∧
      (∀ u v : ℝ, o.base.endPosRaw = ⟨some u, some v⟩ → (notesOf (d.setMods m) objs i).tail =
        ⟨u, if Modifier.active m Mod.HardRock = true then 384 - v else v⟩) := by
    intro i
    obtain ⟨o, mo, ho, -⟩ := e m i
    refine ⟨o, mo, fun n => ?_⟩
    obtain ⟨o', -, ho', h⟩ := e n i
    rw [ho] at ho'
    cases ho'
    exact h
  have flip : ∀ (b b' : Bool) (u v u' v' : ℝ),
      ‖(⟨u, if b = true then 384 - v else v⟩ : ℂ) - ⟨u', if b = true then 384 - v' else v'⟩‖ =
      1 * ‖(⟨u, if b' = true then 384 - v else v⟩ : ℂ) - ⟨u', if b' = true then 384 - v' else v'⟩‖ := by
    intro b b' u v u' v'
    rw [one_mul, Complex.norm_eq_sqrt_sq_add_sq, Complex.norm_eq_sqrt_sq_add_sq]
    congr 1
    cases b <;> cases b' <;> simp only [Complex.sub_re, Complex.sub_im, Bool.false_eq_true, if_true, if_false] <;> ring
  have hl : Enlarged 1 (notesOf (d.setMods m) objs) (notesOf (d.setMods (m')) objs) := {
    time := fun i => by
      obtain ⟨o, -, h⟩ := pair i
      rw [(h _).1, (h _).1]
    spinner := fun i => by
      obtain ⟨o, -, h⟩ := pair i
      rw [(h _).2.1, (h _).2.1]
    plain := plain_note (fun o ho => (hpl o ho).plain) hne
    plain' := plain_note (fun o ho => (hpl o ho).plain) hne
    heads := fun i j => by
      obtain ⟨o, mo, h⟩ := pair i
      obtain ⟨o', mo', h'⟩ := pair j
      obtain ⟨u, v, e1⟩ := (hpl o mo).place
      obtain ⟨u', v', e2⟩ := (hpl o' mo').place
      rw [(h _).2.2.1 u v e1, (h _).2.2.1 u v e1, (h' _).2.2.1 u' v' e2, (h' _).2.2.1 u' v' e2]
      exact flip _ _ _ _ _ _
    tails := fun i j => by
      obtain ⟨o, mo, h⟩ := pair i
      obtain ⟨o', mo', h'⟩ := pair j
      obtain ⟨u, v, e1⟩ := (hpl o mo).place
      obtain ⟨u', v', e2⟩ := hend o' mo'
      rw [(h _).2.2.1 u v e1, (h _).2.2.1 u v e1, (h' _).2.2.2 u' v' e2, (h' _).2.2.2 u' v' e2]
      exact flip _ _ _ _ _ _ }
  exact C104_enlarged s1 s2 hne rfl hl le_rfl hr h1 h2 (by linarith) (by linarith) h3 h4 (by linarith) (by linarith) h5 h6 o3 o4


private theorem others {i : ℕ} (m : Modifier) (h : i = 1 ∨ i = 4) :
    Modifier.active (m ||| Mod.bit i) Mod.DoubleTime = Modifier.active m Mod.DoubleTime ∧
    Modifier.active (m ||| Mod.bit i) Mod.HalfTime = Modifier.active m Mod.HalfTime ∧
    Modifier.active (m ||| Mod.bit i) Mod.Relax = Modifier.active m Mod.Relax ∧
    Modifier.active (m ||| Mod.bit i) Mod.Flashlight = Modifier.active m Mod.Flashlight :=
  ⟨active_or m (j := 6) (by decide) (by omega), active_or m (j := 8) (by decide) (by omega),
    active_or m (j := 7) (by decide) (by omega), active_or m (j := 10) (by decide) (by omega)⟩

/-- C104 (exact arithmetic). Adding HardRock to any mods never lowers a rating of a map of circles and spinners that are not
stacked, with CS and OD between 0 and 10, nor a strain peak. -/
theorem C104_hardrock [GoSort] {s cs od : ℝ} (m : Modifier) (hpl : ∀ o ∈ objs, Unstacked o) (hend : ∀ o ∈ objs, Somewhere o.base.endPosRaw)
    (hord : InOrder objs) (hne : objs ≠ [])
    (hs : 0 < s) (hcu : d.customSpeed = some s) (hcs : d.cs = some cs) (hod : d.od = some od)
    (hcs0 : 0 ≤ cs) (hcs1 : cs ≤ 10) (hod0 : 0 ≤ od) (hod1 : od ≤ 10) :
    ∃ N, ∀ fuel ≥ N, ∃ a a' p p', calculateSingle fuel objs (d.setMods m) = .ok a ∧
      calculateSingle fuel objs (d.setMods (m ||| Mod.HardRock)) = .ok a' ∧
      calculateStrainPeaks fuel objs (d.setMods m) = .ok p ∧
      calculateStrainPeaks fuel objs (d.setMods (m ||| Mod.HardRock)) = .ok p' ∧
      NoEasier a a' ∧ (2 ≤ objs.length → NoLower p p') := by
  obtain ⟨x, x', ex, ex', hx, hx10⟩ := adjust_hardrock m (k := 1.3) (by norm_num) hcs0 hcs1
  obtain ⟨y, y', ey, ey', hy, hy10⟩ := adjust_hardrock m (k := 1.4) (by norm_num) hod0 hod1
  obtain ⟨o1, o2, o3, o4⟩ := others (i := 4) m (.inr rfl)
  exact mods_compare hpl hend hord hne hs hcu hcs hod ex ex' hx hx10 ey ey' hy hy10 o1 o2 o3 o4

private theorem adjust_easy (m : Modifier) {k : ℚ} (hk : 1 ≤ k) {x : ℝ} (h0 : 0 ≤ x) (h10 : x ≤ 10) :
    ∃ x' y', Difficulty.adjust (m ||| Mod.Easy) k (some x : Option ℝ) = some x' ∧
    Difficulty.adjust m k (some x : Option ℝ) = some y' ∧ x' ≤ y' ∧ y' ≤ 10 := by
  have hr : Modifier.active (m ||| Mod.Easy) Mod.HardRock = Modifier.active m Mod.HardRock :=
    active_or m (i := 1) (j := 4) (by decide) (by decide)
  have ez : Modifier.active (m ||| Mod.Easy) Mod.Easy = true := active_or_self m (i := 1) (by decide)
  have half : ∀ v : ℝ, 0 ≤ v → v ≤ 10 → ∃ x' y', (some v : Option ℝ) /. lit 2 = some x' ∧
      (if Modifier.active m Mod.Easy = true then (some v : Option ℝ) /. lit 2 else some v) = some y' ∧ x' ≤ y' ∧ y' ≤ 10 := by
    intro v hv hv'
    rw [Exact.lit, Exact.div _ (by norm_num)]
    split
    · exact ⟨_, _, rfl, rfl, le_rfl, by push_cast; linarith⟩
    · exact ⟨_, _, rfl, rfl, by push_cast; linarith, hv'⟩
  have hk' : (1 : ℝ) ≤ (k : ℝ) := by exact_mod_cast hk
  unfold Difficulty.adjust
  dsimp only
  rw [hr]
  simp only [ez, if_true, Exact.lit k, Exact.lit 10, Exact.mul, Exact.fmin]
  by_cases hm : Modifier.active m Mod.HardRock = true
  · simp only [hm, if_true]
    exact half _ (le_min (by positivity) (by norm_num)) ((min_le_right _ _).trans (by norm_num))
  · simp only [hm, if_false]
    exact half _ h0 h10

/-- C104 (exact arithmetic). Adding Easy to any mods never raises a rating of a map of circles and spinners that are not
stacked, with CS and OD between 0 and 10, nor a strain peak. -/
theorem C104_easy [GoSort] {s cs od : ℝ} (m : Modifier) (hpl : ∀ o ∈ objs, Unstacked o) (hend : ∀ o ∈ objs, Somewhere o.base.endPosRaw)
    (hord : InOrder objs) (hne : objs ≠ [])
    (hs : 0 < s) (hcu : d.customSpeed = some s) (hcs : d.cs = some cs) (hod : d.od = some od)
    (hcs0 : 0 ≤ cs) (hcs1 : cs ≤ 10) (hod0 : 0 ≤ od) (hod1 : od ≤ 10) :
    ∃ N, ∀ fuel ≥ N, ∃ a a' p p', calculateSingle fuel objs (d.setMods (m ||| Mod.Easy)) = .ok a ∧
      calculateSingle fuel objs (d.setMods m) = .ok a' ∧
      calculateStrainPeaks fuel objs (d.setMods (m ||| Mod.Easy)) = .ok p ∧
      calculateStrainPeaks fuel objs (d.setMods m) = .ok p' ∧
      NoEasier a a' ∧ (2 ≤ objs.length → NoLower p p') := by
  obtain ⟨x, x', ex, ex', hx, hx10⟩ := adjust_easy m (k := 1.3) (by norm_num) hcs0 hcs1
  obtain ⟨y, y', ey, ey', hy, hy10⟩ := adjust_easy m (k := 1.4) (by norm_num) hod0 hod1
  obtain ⟨o1, o2, o3, o4⟩ := others (i := 1) m (.inl rfl)
  exact mods_compare hpl hend hord hne hs hcu hcs hod ex ex' hx hx10 ey ey' hy hy10 o1.symm o2.symm o3.symm o4.symm

/-! A concrete case for each. -/

private theorem jump_unstacked (x y t : ℝ) : Unstacked (exactCircle x y t) ∧ Somewhere (exactCircle x y t).base.endPosRaw := by
  have h0 : (lit 0 : Option ℝ) = some 0 := by rw [Exact.lit]; norm_num
  exact ⟨⟨rfl, ⟨t, rfl⟩, ⟨x, y, rfl⟩, by simp [exactCircle, Vec.zero, h0], by simp [exactCircle, Vec.zero, h0],
    by simp [exactCircle, Vec.zero, h0]⟩, x, y, rfl⟩

noncomputable def jumps (q : ℝ) : List (Obj (Option ℝ) (Option ℝ)) :=
  [exactCircle (10 * q) (20 * q) 0, exactCircle (300 * q) (20 * q) 100, exactCircle (40 * q) (200 * q) 220]

private theorem jumps_order (q : ℝ) : InOrder (jumps q) := by
  intro i j o o' s t hij ho ho' hs ht
  have at' : ∀ (i : ℕ) o (s : ℝ), (jumps q)[i]? = some o → o.base.startTime = some s →
      (i = 0 ∧ s = 0) ∨ (i = 1 ∧ s = 100) ∨ (i = 2 ∧ s = 220) := by
    intro i o s h hs
    match i, h with
    | 0, h => cases h; exact .inl ⟨rfl, (Option.some.inj hs).symm⟩
    | 1, h => cases h; exact .inr (.inl ⟨rfl, (Option.some.inj hs).symm⟩)
    | 2, h => cases h; exact .inr (.inr ⟨rfl, (Option.some.inj hs).symm⟩)
    | n + 3, h => exact absurd h (by simp [jumps])
  rcases at' i o s ho hs with ⟨rfl, rfl⟩ | ⟨rfl, rfl⟩ | ⟨rfl, rfl⟩ <;> rcases at' j o' t ho' ht with ⟨rfl, rfl⟩ | ⟨rfl, rfl⟩ | ⟨rfl, rfl⟩ <;>
    first | omega | norm_num

theorem jumps_all (q : ℝ) : ∀ o ∈ jumps q, Unstacked o ∧ Somewhere o.base.endPosRaw := by
  intro o ho
  simp only [jumps, List.mem_cons, List.not_mem_nil, or_false] at ho
  rcases ho with rfl | rfl | rfl <;> exact jump_unstacked _ _ _

/-- C104: three circles with DoubleTime and Flashlight; HardRock lowers no rating. -/
example [GoSort] : ∃ fuel a a', calculateSingle fuel (jumps 1) (exactDiff.setMods (Mod.DoubleTime ||| Mod.Flashlight)) = .ok a ∧
    calculateSingle fuel (jumps 1) (exactDiff.setMods (Mod.DoubleTime ||| Mod.Flashlight ||| Mod.HardRock)) = .ok a' ∧ NoEasier a a' := by
  have hc : exactDiff.customSpeed = some ((1 : ℚ) : ℝ) := rfl
  have h5 : exactDiff.cs = some ((5 : ℚ) : ℝ) := rfl
  have h6 : exactDiff.od = some ((5 : ℚ) : ℝ) := rfl
  obtain ⟨N, hN⟩ := C104_hardrock (d := exactDiff) (objs := jumps 1) (Mod.DoubleTime ||| Mod.Flashlight) (fun o ho => (jumps_all 1 o ho).1)
    (fun o ho => (jumps_all 1 o ho).2) (jumps_order 1) (by simp [jumps]) (by norm_num) hc h5 h6 (by norm_num) (by norm_num) (by norm_num)
    (by norm_num)
  obtain ⟨a, a', p, p', h1, h2, -, -, h3, -⟩ := hN N le_rfl
  exact ⟨N, a, a', h1, h2, h3⟩

/-- C104: Easy raises no rating of the same circles. -/
example [GoSort] : ∃ fuel a a', calculateSingle fuel (jumps 1) (exactDiff.setMods (Mod.DoubleTime ||| Mod.Easy)) = .ok a ∧
    calculateSingle fuel (jumps 1) (exactDiff.setMods Mod.DoubleTime) = .ok a' ∧ NoEasier a a' := by
  have hc : exactDiff.customSpeed = some ((1 : ℚ) : ℝ) := rfl
  have h5 : exactDiff.cs = some ((5 : ℚ) : ℝ) := rfl
  have h6 : exactDiff.od = some ((5 : ℚ) : ℝ) := rfl
  obtain ⟨N, hN⟩ := C104_easy (d := exactDiff) (objs := jumps 1) Mod.DoubleTime (fun o ho => (jumps_all 1 o ho).1)
    (fun o ho => (jumps_all 1 o ho).2) (jumps_order 1) (by simp [jumps]) (by norm_num) hc h5 h6 (by norm_num) (by norm_num) (by norm_num)
    (by norm_num)
  obtain ⟨a, a', p, p', h1, h2, -, -, h3, -⟩ := hN N le_rfl
  exact ⟨N, a, a', h1, h2, h3⟩

private theorem circle_shown (x y t : ℝ) : (exactCircle x y t).base.getStackedStartPositionMod exactDiff.mods = ⟨some x, some y⟩ ∧
    (exactCircle x y t).base.getStackedEndPositionMod exactDiff.mods = ⟨some x, some y⟩ := by
  have h0 : (lit 0 : Option ℝ) = some 0 := by rw [Exact.lit]; norm_num
  have n1 : Modifier.active exactDiff.mods Mod.HardRock = false := by decide
  have n2 : Modifier.active exactDiff.mods Mod.Easy = false := by decide
  constructor
  · unfold HitObject.getStackedStartPositionMod HitObject.modifyPosition
    rw [n1, n2]
    simp [exactCircle, Vec.zero, Vec.add, h0, Exact.add]
  · unfold HitObject.getStackedEndPositionMod HitObject.modifyPosition
    rw [n1, n2]
    simp [exactCircle, Vec.zero, Vec.add, h0, Exact.add]

private theorem jumps_shown (q : ℝ) : ∀ o ∈ jumps q, ∃ u v : ℝ, o.base.getStackedStartPositionMod exactDiff.mods = ⟨some u, some v⟩ ∧
    o.base.getStackedEndPositionMod exactDiff.mods = ⟨some u, some v⟩ := by
  intro o ho
  simp only [jumps, List.mem_cons, List.not_mem_nil, or_false] at ho
  rcases ho with rfl | rfl | rfl <;> exact ⟨_, _, circle_shown _ _ _⟩

theorem jumps_visible (q : ℝ) : Visible exactDiff.mods (jumps q) where
  time o ho := (jumps_all q o ho).1.time
  sorted := jumps_order q
  head o ho := by
    obtain ⟨u, v, h, -⟩ := jumps_shown q o ho
    exact ⟨_, _, h⟩
  tail o ho := by
    obtain ⟨u, v, -, h⟩ := jumps_shown q o ho
    exact ⟨_, _, h⟩
  slider o ho s hk := by
    have := (jumps_all q o ho).1.plain
    unfold Obj.isSlider at this
    rw [hk] at this
    simp at this

/-- C104: the same circles with CS 4 and CS 6.5. -/
example [GoSort] : ∃ fuel a a', calculateSingle fuel (jumps 1) (exactDiff.setCS (some 4)) = .ok a ∧
    calculateSingle fuel (jumps 1) (exactDiff.setCS (some 6.5)) = .ok a' ∧ NoEasier a a' := by
  have hc : exactDiff.customSpeed = some ((1 : ℚ) : ℝ) := rfl
  have h6 : exactDiff.od = some ((5 : ℚ) : ℝ) := rfl
  obtain ⟨N, hN⟩ := C104_cs (d := exactDiff) (objs := jumps 1) (x := 4) (y := 6.5) (fun o ho => (jumps_all 1 o ho).1.plain) (jumps_visible 1)
    (by simp [jumps]) (by norm_num) hc h6 (by norm_num) (by norm_num) (by norm_num)
  obtain ⟨a, a', p, p', h1, h2, -, -, h3, -⟩ := hN N le_rfl
  exact ⟨N, a, a', h1, h2, h3⟩

/-- C104: the same circles one and a half times as far apart. -/
example [GoSort] : ∃ fuel a a', calculateSingle fuel (jumps 1) exactDiff = .ok a ∧
    calculateSingle fuel (jumps 1.5) exactDiff = .ok a' ∧ NoEasier a a' := by
  have hc : exactDiff.circleRadius = some 32 := rfl
  have ne : ∀ q, jumps q ≠ [] := fun q => by simp [jumps]
  have s := fun q => visible_shows (d := exactDiff) hc (by norm_num) (ne q) (jumps_visible q)
  have note : ∀ x y t : ℝ, noteOf exactDiff (exactCircle x y t) = ⟨t, false, ⟨x, y⟩, ⟨x, y⟩, none⟩ := fun x y t => by
    unfold noteOf
    rw [(circle_shown x y t).1, (circle_shown x y t).2]
    rfl
  have at' : ∀ (i : ℕ), ∃ u v t : ℝ, ∀ q : ℝ, notesOf exactDiff (jumps q) i = ⟨t, false, ⟨u * q, v * q⟩, ⟨u * q, v * q⟩, none⟩ := by
    intro i
    match i with
    | 0 => exact ⟨10, 20, 0, fun q => by simp [notesOf, jumps, note]⟩
    | 1 => exact ⟨300, 20, 100, fun q => by simp [notesOf, jumps, note]⟩
    | n + 2 => exact ⟨40, 200, 220, fun q => by simp [notesOf, jumps, note]⟩
  have far : ∀ u v u' v' : ℝ, ‖(⟨u * 1.5, v * 1.5⟩ : ℂ) - ⟨u' * 1.5, v' * 1.5⟩‖ = 1.5 * ‖(⟨u * 1, v * 1⟩ : ℂ) - ⟨u' * 1, v' * 1⟩‖ := by
    intro u v u' v'
    have : (⟨u * 1.5, v * 1.5⟩ : ℂ) - ⟨u' * 1.5, v' * 1.5⟩ = ((1.5 : ℝ) : ℂ) * ((⟨u * 1, v * 1⟩ : ℂ) - ⟨u' * 1, v' * 1⟩) := by
      apply Complex.ext <;> simp <;> ring
    rw [this, norm_mul, Complex.norm_real, Real.norm_eq_abs, abs_of_pos (by norm_num)]
  have hl : Enlarged 1.5 (notesOf exactDiff (jumps 1)) (notesOf exactDiff (jumps 1.5)) := by
    constructor
    · intro i
      obtain ⟨u, v, t, h⟩ := at' i
      rw [h, h]
    · intro i
      obtain ⟨u, v, t, h⟩ := at' i
      rw [h, h]
    · intro i
      obtain ⟨u, v, t, h⟩ := at' i
      rw [h]
    · intro i
      obtain ⟨u, v, t, h⟩ := at' i
      rw [h]
    · intro i j
      obtain ⟨u, v, t, h⟩ := at' i
      obtain ⟨u', v', t', h'⟩ := at' j
      rw [h, h, h', h']
      exact far _ _ _ _
    · intro i j
      obtain ⟨u, v, t, h⟩ := at' i
      obtain ⟨u', v', t', h'⟩ := at' j
      rw [h, h, h', h']
      exact far _ _ _ _
  have hr : exactDiff.speed = some 0.75 := rfl
  have ew : exactDiff.hit300 = some 40 := rfl
  obtain ⟨N, hN⟩ := C104_enlarged (s 1) (s 1.5) (ne 1) (by simp [jumps]) hl (by norm_num) (by norm_num) hr hr (by norm_num) le_rfl ew ew (by norm_num) le_rfl
    hc hc rfl rfl
  obtain ⟨a, a', p, p', h1, h2, -, -, h3, -⟩ := hN N le_rfl
  exact ⟨N, a, a', h1, h2, h3⟩

end
end GosuPP.Props
