import Verif.Props.Motion
import Verif.Props.StarInputs

/-!
# C88: a faster speed is the same as earlier times
-/

namespace GosuPP.Props
open Go Spec

/-- What a change of the speed has to keep: the circle radius, the time in which a 300 is hit in real time, and
the mods HardRock, Easy, Relax and Flashlight. -/
structure SameButSpeed {D : Type} [GoFloat D] (d d' : Difficulty D) : Prop where
  radius : d'.circleRadius = d.circleRadius
  window : d'.hit300 /. d'.speed = d.hit300 /. d.speed
  mods : AgreeOn [Mod.HardRock, Mod.Easy, Mod.Relax, Mod.Flashlight] d'.mods d.mods

section
variable {S D : Type} [GoFloat S] [GoFloat D] [GoConv S D] [GoLibm D] [GoSort]

private theorem agree_active {l : List Modifier} {m m' : Modifier} (h : AgreeOn l m m') {i : Nat} (hi : i < 63)
    (hm : Mod.bit i ∈ l) : Modifier.active m (Mod.bit i) = Modifier.active m' (Mod.bit i) := by
  rw [active_iff_has m hi, active_iff_has m' hi, decide_eq_decide]
  exact h _ hm

theorem same_through {d d' : Difficulty D} (h : SameButSpeed d d') {objs objs' : List (Obj S D)}
    (hs : SameRatingsAs d objs { d' with mods := d.mods } objs') : SameRatingsAs d objs d' objs' := by
  have hm : SameForStars d' { d' with mods := d.mods } :=
    ⟨rfl, rfl, rfl, agree_active (i := 4) h.mods (by decide) (by decide),
      agree_active (i := 1) h.mods (by decide) (by decide),
      agree_active (i := 7) h.mods (by decide) (by decide),
      agree_active (i := 10) h.mods (by decide) (by decide)⟩
  intro fuel
  obtain ⟨h1, h2, h3, h4, h5⟩ := C68_inputs (S := S) _ _ hm fuel objs'
  obtain ⟨k1, k2, k3, k4, k5⟩ := hs fuel
  exact ⟨h1.trans k1, h2.trans k2, h3.trans k3, h4.trans k4, h5.trans k5⟩

end

/-- C88 (exact arithmetic). All difficulty calculations at speed `v'` give for the map with all times (and the
durations of slider spans) multiplied by `v' / v` what they give at speed `v` for the map itself, when both difficulties
have the same circle radius, the same window for a 300 in real time and agree on HardRock, Easy, Relax and Flashlight. -/
theorem C88_scaled [GoLibm (Option ℝ)] [GoSort] {d d' : Difficulty (Option ℝ)} {v v' : ℝ} (h0 : 0 < v) (h0' : 0 < v')
    (hv : d.speed = some v) (hv' : d'.speed = some v') (h : SameButSpeed d d')
    (objs : List (Obj (Option ℝ) (Option ℝ))) :
    SameRatingsAs d objs d' (objs.map (stretch (scaleBy (v' / v)))) := by
  refine same_through h (moved_same (g := id) rigid_id
    (steady_scale d { d' with mods := d.mods } h0.ne' h0'.ne' hv hv' rfl h.radius h.window) ?_)
  exact List.forall₂_map_right_iff.mpr (List.forall₂_same.mpr fun o _ => moved_stretch (div_pos h0' h0) _ o)

/-- C88 (IEEE). For maps of circles and spinners with times in whole milliseconds up to `2 ^ 30` the results at speed
`n` of the map with `n` times the times are those at speed 1 of the map, to the last bit, for every whole `n` from 1
to 1024. -/
theorem C88_whole [GoLibm F64] [GoSort] {d d' : Difficulty F64} {n : ℤ} (h1 : 0 < n) (h2 : n ≤ 2 ^ 10)
    (hv : d.speed = lit 1) (hv' : d'.speed = ofInt n) (h : SameButSpeed d d') (objs : List (Obj F32 F64))
    (hs : ∀ o ∈ objs, o.isSlider = false)
    (hw : ∀ o ∈ objs, ∀ t ∈ [o.base.startTime, o.base.endTime], ∃ m : ℤ, 0 ≤ m ∧ m ≤ 2 ^ 30 ∧ t = ofInt m) :
    SameRatingsAs d objs d' (objs.map (stretch (· *. ofInt n))) := by
  refine same_through h (moved_same (g := id) (R := IntTimes n) rigid_id
    (steady_times d { d' with mods := d.mods } h1 h2 hv hv' rfl h.radius h.window) ?_)
  refine List.forall₂_map_right_iff.mpr (List.forall₂_same.mpr fun o ho => ?_)
  have time : ∀ t ∈ [o.base.startTime, o.base.endTime], IntTimes n t (t *. ofInt n) := by
    intro t ht
    obtain ⟨m, h3, h4, rfl⟩ := hw o ho t ht
    have hmn : 0 ≤ m * n ∧ m * n ≤ 2 ^ 40 :=
      ⟨mul_nonneg h3 h1.le, (mul_le_mul h4 h2 h1.le (by norm_num)).trans (by norm_num)⟩
    refine ⟨m, h3, h4, Fl.ofInt64_exact (by rw [abs_le]; constructor <;> omega), ?_⟩
    rw [Fl.ofInt64_exact (by rw [abs_le]; constructor <;> omega), Fl.ofInt64_exact (by rw [abs_le]; constructor <;> omega)]
    show Fl.ofRat fmt64 ((m : ℚ) * (n : ℚ)) (Fl.signbit (Fl.fin (m : ℚ) false : F64) ^^
      Fl.signbit (Fl.fin (n : ℚ) false : F64)) = _
    rw [signbit_nonneg h3, signbit_nonneg h1.le, Bool.xor_false, show (m : ℚ) * (n : ℚ) = ((m * n : ℤ) : ℚ) by push_cast; rfl]
    exact ofRat_int (by rw [abs_le]; constructor <;> omega)
  have hnot := hs o ho
  rcases o with ⟨b, _ | _ | s⟩
  · exact ⟨trivial, time _ (by simp), time _ (by simp), rfl, rfl, fun _ _ _ => rfl⟩
  · exact ⟨trivial, time _ (by simp), time _ (by simp), rfl, rfl, fun _ _ _ => rfl⟩
  · cases hnot

/-! ### Concrete cases -/

open Exact in
private theorem rate_above {x : ℝ} (h : 5 < x) (a b c : ℚ) :
    difficultyRate (some x) (lit a) (lit b) (lit c) = some ((b : ℝ) + (c - b) * (x - 5) / 5) := by
  have h5 : ((5 : ℚ) : ℝ) ≠ 0 := by norm_num
  unfold difficultyRate
  have h : (decide (((5 : ℚ) : ℝ) < x)) = true := by simpa using h
  simp only [Exact.lit, Exact.lt, h, if_true, Exact.sub, Exact.mul, Exact.div _ h5, Exact.add]
  norm_num

/-- C88: DoubleTime with OD 16/3 against no mods with OD 8, at the same circle size. -/
example : SameButSpeed (D := Option ℝ) (Difficulty.new (some 5) (some 6) (some 8) (some 9))
      ((Difficulty.new (some 5) (some 6) (some (16 / 3)) (some 9)).setMods Mod.DoubleTime) ∧
    (Difficulty.new (some 5) (some 6) (some 8) (some 9) : Difficulty (Option ℝ)).speed = some 1 ∧
    ((Difficulty.new (some 5) (some 6) (some (16 / 3)) (some 9)).setMods Mod.DoubleTime).speed = some (3 / 2 : ℝ) := by
  have hdt : Modifier.active Mod.DoubleTime Mod.DoubleTime = true := by decide
  have hhr : Modifier.active Mod.DoubleTime Mod.HardRock = false := by decide
  have hez : Modifier.active Mod.DoubleTime Mod.Easy = false := by decide
  have h0 : ∀ m, Modifier.active 0 m = false := by
    intro m
    unfold Modifier.active
    rw [show (0 : Modifier) &&& m = 0 from BitVec.zero_and]
    decide
  have e1 : ((Difficulty.new (some 5) (some 6) (some 8) (some 9) : Difficulty (Option ℝ)).speed) = some 1 := by
    simp only [Difficulty.new, Difficulty.calculate, Difficulty.getModifiedTime, Difficulty.modifiedTime, h0,
      Bool.false_eq_true, if_false, Exact.lit]
    rw [Exact.div _ (by norm_num), Exact.div _ (by norm_num)]
    norm_num
  have e2 : ((Difficulty.new (some 5) (some 6) (some (16 / 3)) (some 9)).setMods Mod.DoubleTime).speed =
      some (3 / 2 : ℝ) := by
    simp only [Difficulty.new, Difficulty.setMods, Difficulty.calculate, Difficulty.getModifiedTime,
      Difficulty.modifiedTime, hdt, if_true, Exact.lit, Exact.mul]
    rw [Exact.div _ (by norm_num), Exact.div _ (by norm_num)]
    norm_num
  have e3 : ((Difficulty.new (some 5) (some 6) (some 8) (some 9) : Difficulty (Option ℝ)).hit300) = some 32 := by
    simp only [Difficulty.new, Difficulty.calculate, Difficulty.adjust, h0, Bool.false_eq_true, if_false]
    rw [rate_above (x := 8) (by norm_num)]
    norm_num
  have e4 : ((Difficulty.new (some 5) (some 6) (some (16 / 3)) (some 9)).setMods Mod.DoubleTime).hit300 =
      some (48 : ℝ) := by
    simp only [Difficulty.new, Difficulty.setMods, Difficulty.calculate, Difficulty.adjust, hhr, hez, Bool.false_eq_true,
      if_false]
    rw [rate_above (x := 16 / 3) (by norm_num)]
    norm_num
  refine ⟨⟨?_, ?_, by decide⟩, e1, e2⟩
  · simp only [Difficulty.new, Difficulty.setMods, Difficulty.calculate, Difficulty.adjust, hhr, hez, h0,
      Bool.false_eq_true, if_false]
  · rw [e1, e2, e3, e4, Exact.div _ (by norm_num), Exact.div _ (by norm_num)]
    norm_num

/-- C88: speed 4 with OD 0 against speed 1 with OD 10, in IEEE arithmetic. -/
example : (let d : Difficulty F64 := Difficulty.new (ofInt 5) (ofInt 4) (ofInt 10) (ofInt 9)
    let d' := (Difficulty.new (ofInt 5) (ofInt 4) (ofInt 0) (ofInt 9)).setCustomSpeed (ofInt 4)
    (d'.circleRadius, d'.hit300 /. d'.speed, d.speed, d'.speed)) =
    (let d : Difficulty F64 := Difficulty.new (ofInt 5) (ofInt 4) (ofInt 10) (ofInt 9)
    (d.circleRadius, d.hit300 /. d.speed, lit 1, ofInt 4)) := by
  decide +kernel

end GosuPP.Props
