import Verif.Lemmas.Notes
import Verif.Props.Turning

/-!
# C97: the aim strain of every map
-/

namespace GosuPP.Props
open Go Spec Exactly
attribute [local instance] exactLibm

section
variable {c r : ℝ} {x : ℕ → Note} {objs : List (Obj (Option ℝ) (Option ℝ))} {d : Difficulty (Option ℝ)}

theorem aimHit_one (b : Bool) : aimHit c r x b 1 = 0 := by
  unfold aimHit
  rw [if_neg (by omega)]

theorem clock_mono (hr0 : 0 < r) (hx : Playable x) (i j : ℕ) (_ : 1 ≤ i) (h : i ≤ j) : clock r x i ≤ clock r x j :=
  div_le_div_of_nonneg_right (hx.sorted i j h) hr0.le

theorem aim_notes (b : Bool) (hs : Shows d x objs) (hr : d.speed = some r) (hr0 : 0 < r)
    (hc : d.circleRadius = some c) (hc0 : 0 < c) {fuel : ℕ}
    {ds : List (DiffObject (Option ℝ) (Option ℝ))} (hd : createDifficultyObjects objs d = .ok ds)
    {sk : Skill (Option ℝ) (Option ℝ)} (h : ds.foldlM (fun s o => s.process fuel o) (Skill.newAim d b) = .ok sk) :
    AfterHits (Shown d c r x) 0.15 23.25 (clock r x) (fun n => 23.25 * aimHit c r x b n) (fun _ => 1) (Skill.newAim d b)
      (objs.length - 1) sk := by
  have hlen := createDifficultyObjects_length hd
  have hset : Set (0.15 : ℝ) 23.25 (Skill.newAim d b : Skill (Option ℝ) (Option ℝ)) := by
    refine ⟨?_, ?_, ?_, ?_⟩
    · show (lit 0.15 : Option ℝ) = _; rw [Exact.lit]; norm_num
    · show (lit 23.25 : Option ℝ) = _; rw [Exact.lit]; norm_num
    · show (lit 400 : Option ℝ) = _; rw [Exact.lit]; norm_num
    · show 1 ≤ 2; norm_num
  have hz : (lit 0 : Option ℝ) = some 0 := by rw [Exact.lit]; norm_num
  have hP : ∀ (i : ℕ) o, ds[i]? = some o → Shown d c r x (0 + i + 1) o := fun i o ho => by
    rw [Nat.zero_add]; exact shown_objects hs hr hr0 hc hc0 hd ho
  rw [← hlen, ← Nat.zero_add ds.length]
  refine run_hits (by norm_num) (clock_mono hr0 hs.toPlayable) hset (val := aimHit c r x b) (fun n => mul_comm _ _) (fun _ _ => rfl)
    (by rw [aimHit_one]; norm_num) ?_ (k := 0) hP (fun i o ho => (hP i o ho).deltaTime) (fun i o ho => (hP i o ho).start) ?_ h
  · intro k sk o hsk hp hl ho
    refine ⟨fun s h1 h2 => ?_, fun h => ?_⟩
    · unfold Skill.strainValueOf
      rw [← h1.kind, ← hsk.kind]
      exact aimHit_exact hc0 hs.toPlayable b ho (by rw [h2]; exact hp) (by rw [h2, hl]; rfl)
    · rw [← hsk.kind] at h; cases h
  · exact ⟨⟨rfl, rfl, rfl, rfl, rfl, rfl, rfl, rfl, rfl, rfl⟩, (by intro i o ho; simp [Skill.newAim, Skill.new] at ho),
      by simp [Skill.newAim, Skill.new], fun _ => ⟨rfl, hz, hz⟩, fun h => absurd rfl h⟩

theorem peaks_aim_fold {fuel : ℕ} {p : StrainPeaks (Option ℝ)} (h : calculateStrainPeaks fuel objs d = .ok p) :
    ∃ ds a s, createDifficultyObjects objs d = .ok ds ∧
      ds.foldlM (fun s o => s.process fuel o) (Skill.newAim d true) = .ok a ∧ p.aim = a.getCurrentStrainPeaks ∧
      ds.foldlM (fun s o => s.process fuel o) (Skill.newSpeed d) = .ok s ∧ p.speed = s.getCurrentStrainPeaks := by
  unfold calculateStrainPeaks at h
  obtain ⟨ds, hd, h⟩ := bind_ok h
  obtain ⟨sk, hs, h⟩ := bind_ok h
  obtain ⟨h1, h2⟩ := peakLoop_fold hs
  unfold getPeaks at h
  simp only at h
  obtain ⟨t, -, h⟩ := bind_ok h
  cases h
  exact ⟨ds, sk.aim, sk.speed, hd, h1, rfl, h2, rfl⟩

/-- C97 (exact arithmetic). The aim strain peaks of every map with at least two objects, by the positions and times of its
notes and by how a lazy cursor follows its sliders. -/
theorem C97_aim (hs : Shows d x objs) (hr : d.speed = some r) (hr0 : 0 < r) (hc : d.circleRadius = some c) (hc0 : 0 < c)
    (hn : 2 ≤ objs.length) {fuel : ℕ} {p : StrainPeaks (Option ℝ)} (h : calculateStrainPeaks fuel objs d = .ok p) :
    PeakList 0.15 (clock r x) (fun n => 23.25 * aimHit c r x true n) (fun _ => 1) (objs.length - 1) p.aim := by
  obtain ⟨ds, a, s, hd, h1, e, -, -⟩ := peaks_aim_fold h
  rw [e]
  exact ((aim_notes true hs hr hr0 hc hc0 hd h1).curve (by omega)).list

/-- C97. The calculation returns for every map that is shown as notes. -/
theorem C97_returns [GoSort] (hs : Shows d x objs) (hr : d.speed = some r) (hr0 : 0 < r) (hne : objs ≠ []) :
    ∃ N, ∀ fuel ≥ N, ∃ p a, calculateStrainPeaks fuel objs d = .ok p ∧ calculateSingle fuel objs d = .ok a := by
  have hdec : ∀ l : List (Obj (Option ℝ) (Option ℝ)), (∀ o ∈ l, o ∈ objs) → ∃ ps, decorateAll d l = .ok ps := by
    intro l hl
    induction l with
    | nil => exact ⟨[], rfl⟩
    | cons o l ih =>
      obtain ⟨ps, hps⟩ := ih fun o ho => hl o (List.mem_cons_of_mem _ ho)
      obtain ⟨i, hi, hio⟩ := List.getElem_of_mem (hl o List.mem_cons_self)
      have ho : ∃ p, decorate d o = .ok p := by
        unfold decorate
        cases hk : o.kind with
        | slider s =>
          obtain ⟨q, -, e⟩ := hs.slider i o s (by rw [List.getElem?_eq_getElem hi, hio]) hk
          simp only [e]
          exact ⟨_, rfl⟩
        | _ => exact ⟨_, rfl⟩
      obtain ⟨p, hp⟩ := ho
      rw [decorateAll, hp, hps]
      exact ⟨_, rfl⟩
  obtain ⟨ds, hd⟩ : ∃ ds, createDifficultyObjects objs d = .ok ds := by
    obtain ⟨ps, hps⟩ := hdec objs fun _ h => h
    unfold createDifficultyObjects
    rw [hps, ok_bind]
    cases ps <;> exact ⟨_, rfl⟩
  refine ⟨sectionCount (objs.tail.map fun o => ⌈(o.base.startTime /. d.speed).getD 0 / 400⌉), fun fuel hf => ?_⟩
  rcases count_grid exactGrid fuel objs hne d hd (by
    intro o ho
    obtain ⟨i, hi, rfl⟩ := List.getElem_of_mem (List.mem_of_mem_tail ho)
    rw [hs.time i _ (List.getElem?_eq_getElem hi), hr, Exact.div _ hr0.ne']
    rfl) with ⟨h1, -⟩ | ⟨p, a, h1, h2, -⟩
  · exact absurd hf (Nat.not_le.mpr h1)
  · exact ⟨p, a, h1, h2⟩

end

/-! ### A concrete case -/

/-- A slider: 300 pixels to the right in a second. -/
noncomputable def exactSlide : SliderData (Option ℝ) (Option ℝ) where
  multiCurve := { lines := [⟨⟨some 0, some 0⟩, ⟨some 300, some 0⟩⟩], firstPoint := ⟨some 0, some 0⟩, length := some 300
                  sections := [some 0, some 300] }
  tPoint := zeroPoint
  pixelLength := some 300
  repeatCount := 1
  scorePoints := [⟨some 1000, false⟩]
  spanDuration := some 1000

@[inherit_doc exactSlide] noncomputable def exactSlider : Obj (Option ℝ) (Option ℝ) where
  base := { (exactCircle 0 0 0).base with endPosRaw := ⟨some 300, some 0⟩, endTime := some 1000 }
  kind := .slider exactSlide

/-- A spinner. -/
noncomputable def exactSpinner (t : ℝ) : Obj (Option ℝ) (Option ℝ) := { (exactCircle 256 192 t) with kind := .spinner }

/-- A slider, two circles, a spinner, a circle. -/
noncomputable def exactMixed : List (Obj (Option ℝ) (Option ℝ)) :=
  [exactSlider, exactCircle 400 100 1100, exactCircle 200 100 1250, exactSpinner 1300, exactCircle 0 100 2500]

/-- The notes of `exactMixed`: with circles of radius 32, the slider can be left at 300 - 1.8 * 32 pixels. -/
noncomputable def mixedNotes : ℕ → Note
  | 0 => { time := 0, spinner := false, head := 0, tail := 300, slide := some ⟨242.4, 378.75, 1000⟩ }
  | 1 => { time := 1100, spinner := false, head := ⟨400, 100⟩, tail := ⟨400, 100⟩, slide := none }
  | 2 => { time := 1250, spinner := false, head := ⟨200, 100⟩, tail := ⟨200, 100⟩, slide := none }
  | 3 => { time := 1300, spinner := true, head := ⟨256, 192⟩, tail := ⟨256, 192⟩, slide := none }
  | _ => { time := 2500, spinner := false, head := ⟨0, 100⟩, tail := ⟨0, 100⟩, slide := none }

section
variable {e : Difficulty (Option ℝ)} (hm1 : Modifier.active e.mods Mod.HardRock = false)
  (hm2 : Modifier.active e.mods Mod.Easy = false)
include hm1 hm2

private theorem exactMods (b : HitObject (Option ℝ) (Option ℝ)) (h : b.stackOffset = ⟨some 0, some 0⟩) (u v : ℝ) :
    b.modifyPosition ⟨some u, some v⟩ e.mods = ⟨some u, some v⟩ := by
  unfold HitObject.modifyPosition
  rw [hm1, hm2, h]
  simp [Vec.add, Exact.add]

private theorem exactSlider_end : exactSlider.getStackedPositionAtMod (some 1000) e.mods = .ok ⟨some 300, some 0⟩ := by
  have hz : (lit 0 : Option ℝ) = some 0 := by rw [Exact.lit]; norm_num
  have h1 : (lit 1 : Option ℝ) = some 1 := by rw [Exact.lit]; norm_num
  have h2 : (lit 2 : Option ℝ) = some 2 := by rw [Exact.lit]; norm_num
  have hpt : exactSlide.multiCurve.pointAt (D := Option ℝ) (some 1) = .ok ⟨some 300, some 0⟩ := by
    have hcl : clampF32 (some 1 : Option ℝ) (lit 0) (lit 1) = some 1 := by
      rw [hz, h1]
      simp [clampF32, Math32.min, Math32.max, Exact.up, Exact.down, Exact.fmax, Exact.fmin]
    have hl : exactSlide.multiCurve.lineIndex (some 300) = 0 := by
      simp [MultiCurve.lineIndex, exactSlide, minI]
    have hm : exactSlide.multiCurve.length *. clampF32 (some 1 : Option ℝ) (lit 0) (lit 1) = some 300 := by
      rw [hcl]
      show GoFloat.mul (some 300) (some 1) = some (300 : ℝ)
      rw [Exact.mul, mul_one]
    unfold MultiCurve.pointAt
    rw [if_neg (by simp [exactSlide, hz, Exact.eq])]
    simp only [hm, hl]
    show (if some 300 -. some 0 ==. lit 0 then _ else _ : Result (Vec (Option ℝ))) = _
    rw [hz, Exact.sub, Exact.eq, if_neg (by norm_num), Exact.div _ (by norm_num)]
    simp [exactSlide, Linear.pointAt, Vec.lerp, Exact.add, Exact.sub, Exact.mul]
    rfl
  have hpos : sliderPositionAt exactSlider.base exactSlide (some 1000) = .ok ⟨some 300, some 0⟩ := by
    unfold sliderPositionAt isRetarded
    have e1 : exactSlider.base.startTime = some 0 := rfl
    have e2 : exactSlider.base.endTime = some 1000 := rfl
    have e3 : exactSlide.spanDuration = some 1000 := rfl
    have ec : clampF64 (some 1000 : Option ℝ) (some 0) (some 1000) = some 1000 := by
      simp [clampF64, Exact.fmax, Exact.fmin]
    have ef : GoFloat.fmod (some 1 : Option ℝ) (some 2) = some 1 := by
      show (if (some 2 : Option ℝ) = some 0 then none else some _) = _
      rw [if_neg (by simp)]
      have : ⌊(1 : ℝ) / 2⌋ = 0 := by rw [Int.floor_eq_iff]; norm_num
      norm_num [this]
    rw [e1, e2, e3, Exact.eq, if_neg (by norm_num)]
    simp only [ec, Exact.sub, Exact.div _ (show (1000 : ℝ) ≠ 0 by norm_num), h2, sub_zero,
      div_self (show (1000 : ℝ) ≠ 0 by norm_num), ef, h1, Exact.le]
    rw [if_pos (by norm_num), show (2 : ℝ) - 1 = 1 by norm_num]
    exact hpt
  unfold Obj.getStackedPositionAtMod Obj.getPositionAt
  show (do let y ← sliderPositionAt exactSlider.base exactSlide (some 1000); pure _ : Result _) = _
  rw [hpos, ok_bind, exactMods hm1 hm2 _ rfl]
  rfl

theorem exactSlider_lazy (hr : e.circleRadius = some 32) : newLazySlider exactSlider exactSlide e = .ok ⟨⟨some 242.4, some 0⟩, some 378.75, some 1000⟩ := by
  have hz : (lit 0 : Option ℝ) = some 0 := by rw [Exact.lit]; norm_num
  have h50 : (lit 50 : Option ℝ) = some 50 := by rw [Exact.lit]; norm_num
  have h90 : (lit 90 : Option ℝ) = some 90 := by rw [Exact.lit]; norm_num
  have h0 : exactSlider.base.getStackedStartPositionMod e.mods = ⟨some 0, some 0⟩ := exactMods hm1 hm2 _ rfl 0 0
  have hlen : (⟨some 300, some 0⟩ : Vec (Option ℝ)).len = some 300 := by
    simp only [Vec.len, Math32.sqrt, Exact.mul, Exact.add, Exact.up, Exact.down]
    rw [Exact.sqrt (by norm_num), show (300 * 300 + 0 * 0 : ℝ) = 300 ^ 2 by norm_num, Real.sqrt_sq (by norm_num)]
  have hloop : lazyLoop exactSlider e.mods (some (50 / 32)) exactSlide.scorePoints
      ⟨⟨some 0, some 0⟩, ⟨some 300, some 0⟩, some 0⟩ = .ok ⟨⟨some 242.4, some 0⟩, ⟨some 242.4, some 0⟩, some 378.75⟩ := by
    show lazyStep exactSlider e.mods (some (50 / 32)) ⟨some 1000, false⟩ true _ = _
    unfold lazyStep
    rw [if_pos rfl, show exactSlider.base.endTime = some 1000 from rfl, exactSlider_end hm1 hm2, ok_bind]
    simp only [Vec.sub, Exact.sub, sub_zero, hlen, Exact.lt, lt_irrefl, decide_false, Bool.false_eq_true, if_false, if_true,
      Bool.not_true, Bool.false_and, Exact.up, Exact.mul, h90]
    rw [if_pos (by norm_num), Exact.div _ (by norm_num)]
    simp only [Vec.add, Vec.scl, Exact.down, Exact.mul, Exact.add]
    norm_num
    rfl
  have hlast : index exactSlide.scorePoints ((exactSlide.scorePoints.length : Int) - 1) = .ok ⟨some 1000, false⟩ := rfl
  have ht : (some 1000 : Option ℝ) -. exactSlider.base.startTime = some 1000 := by
    show GoFloat.sub (some 1000) (some 0) = some (1000 : ℝ)
    rw [Exact.sub, sub_zero]
  have ht' : (some 1000 : Option ℝ) +. exactSlider.base.startTime = some 1000 := by
    show GoFloat.add (some 1000) (some 0) = some (1000 : ℝ)
    rw [Exact.add, add_zero]
  unfold newLazySlider
  simp only [hlast, ok_bind, ht, ht', exactSlider_end hm1 hm2, h0, hr, h50, Exact.div _ (show (32 : ℝ) ≠ 0 by norm_num), hz, hloop]
  have hb : GoLibm.pow (lit 1 +. ofInt (exactSlide.repeatCount - 1) /. lit 2.5) (lit (1 / 2.5) : Option ℝ) = some 1 := by
    show GoLibm.pow (some ((1 : ℚ) : ℝ) +. some (((1 - 1 : ℤ) : ℝ)) /. some ((2.5 : ℚ) : ℝ)) _ = _
    rw [Exact.div _ (by norm_num), Exact.add, Exact.lit, Exact.pow]
    norm_num
  rw [hb, Exact.down, Exact.mul, mul_one]
  rfl

theorem mixed_shows_of (hr : e.circleRadius = some 32) : Shows e mixedNotes exactMixed := by
  have at' : ∀ (i : ℕ) o, exactMixed[i]? = some o → (i = 0 ∧ o = exactSlider) ∨ (i = 1 ∧ o = exactCircle 400 100 1100) ∨
      (i = 2 ∧ o = exactCircle 200 100 1250) ∨ (i = 3 ∧ o = exactSpinner 1300) ∨ (i = 4 ∧ o = exactCircle 0 100 2500) := by
    intro i o h
    match i, h with
    | 0, h => cases h; exact .inl ⟨rfl, rfl⟩
    | 1, h => cases h; exact .inr (.inl ⟨rfl, rfl⟩)
    | 2, h => cases h; exact .inr (.inr (.inl ⟨rfl, rfl⟩))
    | 3, h => cases h; exact .inr (.inr (.inr (.inl ⟨rfl, rfl⟩)))
    | 4, h => cases h; exact .inr (.inr (.inr (.inr ⟨rfl, rfl⟩)))
    | n + 5, h => exact absurd h (by simp [exactMixed])
  refine { sorted := ?_, spinner := ?_, length := ?_, time := ?_, spins := ?_, head := ?_, tail := ?_, slider := ?_, other := ?_ }
  · apply monotone_nat_of_le_succ
    intro n
    match n with
    | 0 => simp [mixedNotes]
    | 1 => simp [mixedNotes]; norm_num
    | 2 => simp [mixedNotes]; norm_num
    | 3 => simp [mixedNotes]; norm_num
    | n + 4 => exact le_rfl
  · intro i
    match i with
    | 0 => simp [mixedNotes]
    | 1 => simp [mixedNotes]
    | 2 => simp [mixedNotes]
    | 3 => simp [mixedNotes]
    | n + 4 => simp [mixedNotes]
  · intro i s
    match i with
    | 0 => rintro ⟨⟩; norm_num
    | 1 => simp [mixedNotes]
    | 2 => simp [mixedNotes]
    | 3 => simp [mixedNotes]
    | n + 4 => simp [mixedNotes]
  · intro i o h
    rcases at' i o h with ⟨rfl, rfl⟩ | ⟨rfl, rfl⟩ | ⟨rfl, rfl⟩ | ⟨rfl, rfl⟩ | ⟨rfl, rfl⟩ <;> rfl
  · intro i o h
    rcases at' i o h with ⟨rfl, rfl⟩ | ⟨rfl, rfl⟩ | ⟨rfl, rfl⟩ | ⟨rfl, rfl⟩ | ⟨rfl, rfl⟩ <;> rfl
  · intro i o h
    rcases at' i o h with ⟨rfl, rfl⟩ | ⟨rfl, rfl⟩ | ⟨rfl, rfl⟩ | ⟨rfl, rfl⟩ | ⟨rfl, rfl⟩ <;> exact exactMods hm1 hm2 _ rfl _ _
  · intro i o h
    rcases at' i o h with ⟨rfl, rfl⟩ | ⟨rfl, rfl⟩ | ⟨rfl, rfl⟩ | ⟨rfl, rfl⟩ | ⟨rfl, rfl⟩ <;> exact exactMods hm1 hm2 _ rfl _ _
  · intro i o s h hk
    rcases at' i o h with ⟨rfl, rfl⟩ | ⟨rfl, rfl⟩ | ⟨rfl, rfl⟩ | ⟨rfl, rfl⟩ | ⟨rfl, rfl⟩ <;> cases hk
    exact ⟨⟨242.4, 378.75, 1000⟩, rfl, by rw [exactSlider_lazy hm1 hm2 hr]; norm_num⟩
  · intro i o h hk
    rcases at' i o h with ⟨rfl, rfl⟩ | ⟨rfl, rfl⟩ | ⟨rfl, rfl⟩ | ⟨rfl, rfl⟩ | ⟨rfl, rfl⟩
    · exact absurd rfl (hk exactSlide)
    all_goals rfl

end

theorem mixed_shows : Shows exactDiff mixedNotes exactMixed :=
  mixed_shows_of (e := exactDiff) (by show Modifier.active Mod.HalfTime _ = _; decide) (by show Modifier.active Mod.HalfTime _ = _; decide) rfl

/-- C97: a slider, two circles, a spinner and a circle. -/
example [GoSort] : ∃ fuel p, calculateStrainPeaks fuel exactMixed exactDiff = .ok p ∧
    PeakList 0.15 (clock 0.75 mixedNotes) (fun n => 23.25 * aimHit 32 0.75 mixedNotes true n) (fun _ => 1) 4 p.aim := by
  obtain ⟨N, hN⟩ := C97_returns mixed_shows (r := 0.75) rfl (by norm_num) (by simp [exactMixed])
  obtain ⟨p, a, hp, -⟩ := hN N le_rfl
  exact ⟨N, p, hp, C97_aim mixed_shows rfl (by norm_num) rfl (by norm_num) (by simp [exactMixed]) hp⟩

end GosuPP.Props
