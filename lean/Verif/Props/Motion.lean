import Verif.Lemmas.SwapIEEE
import Verif.Lemmas.ShiftIEEE
import Verif.Props.Strains
import Verif.Go.ExactLibm

/-!
# C86, C87: moving a map in the plane and in time
-/

namespace GosuPP.Props
open Go Spec

/-- All difficulty calculations give the same results for a list of objects with one difficulty and for another
list with another difficulty. -/
def SameRatingsAs {S D : Type} [GoFloat S] [GoFloat D] [GoConv S D] [GoLibm D] [GoSort] (d : Difficulty D)
    (objs : List (Obj S D)) (d' : Difficulty D) (objs' : List (Obj S D)) : Prop :=
  ∀ fuel : Nat,
    calculateSingle fuel objs' d' = calculateSingle fuel objs d ∧
    calculateSingleWithPeaks fuel objs' d' = calculateSingleWithPeaks fuel objs d ∧
    calculateStep fuel objs' d' = calculateStep fuel objs d ∧
    calculateStepWithPeaks fuel objs' d' = calculateStepWithPeaks fuel objs d ∧
    calculateStrainPeaks fuel objs' d' = calculateStrainPeaks fuel objs d

/-- All difficulty calculations give the same results for two lists of objects. -/
def SameRatings {S D : Type} [GoFloat S] [GoFloat D] [GoConv S D] [GoLibm D] [GoSort] (d : Difficulty D)
    (objs objs' : List (Obj S D)) : Prop := SameRatingsAs d objs d objs'

theorem moved_same {S D : Type} [GoFloat S] [GoFloat D] [GoConv S D] [GoLibm D] [GoSort] {g : Vec S → Vec S}
    {d d' : Difficulty D} {R RS RE : D → D → Prop} (hg : Rigid (S := S) (D := D) g) (ht : Steady d d' R RS RE)
    {objs objs' : List (Obj S D)} (ho : List.Forall₂ (Moved R g d.mods) objs objs') : SameRatingsAs d objs d' objs' :=
  fun fuel => ⟨single_moved hg ht ho fuel, singlePeaks_moved hg ht ho fuel, step_moved hg ht ho fuel,
    stepPeaks_moved hg ht ho fuel, strainPeaks_moved hg ht ho fuel⟩

section
variable [GoLibm (Option ℝ)] [GoSort]

/-- C86 (exact arithmetic). If the positions that the accessors report for the objects of two maps differ by a
map of the plane that preserves distances, all difficulty calculations give the same results for the two maps. -/
theorem C86_congruent (hl : EvenAtan (Option ℝ)) (d : Difficulty (Option ℝ)) {g : ℂ → ℂ} (hg : Isometry g)
    {objs objs' : List (Obj (Option ℝ) (Option ℝ))} (ho : List.Forall₂ (Moved Eq (onPositions g) d.mods) objs objs') :
    SameRatings d objs objs' :=
  moved_same (rigid_isometry hl hg) (steady_eq d) ho

/-- Adding a vector to a position. -/
noncomputable def addVector (dx dy : ℝ) (v : Vec (Option ℝ)) : Vec (Option ℝ) := ⟨v.x +. some dx, v.y +. some dy⟩

open Exact in
omit [GoLibm (Option ℝ)] [GoSort] in
theorem addVector_lerp (dx dy : ℝ) (u v : Vec (Option ℝ)) (t : Option ℝ) :
    (addVector dx dy u).lerp (addVector dx dy v) t = addVector dx dy (u.lerp v t) := by
  rcases u with ⟨_ | x, _ | y⟩ <;> rcases v with ⟨_ | x', _ | y'⟩ <;> rcases t with _ | t <;>
    simp only [addVector, Vec.lerp, add_left, sub_left, mul_left, add_right, sub_right, mul_right, add, sub, mul] <;>
    (congr 2 <;> ring_nf)

open Exact in
omit [GoSort] in
theorem rigid_add (dx dy : ℝ) : Rigid (S := Option ℝ) (D := Option ℝ) (addVector dx dy) := by
  have hs : ∀ u v : Vec (Option ℝ), (addVector dx dy u).sub (addVector dx dy v) = u.sub v := by
    rintro ⟨_ | x, _ | y⟩ ⟨_ | x', _ | y'⟩ <;>
      simp only [addVector, Vec.sub, add_left, sub_left, sub_right, add, sub] <;> (congr 2 <;> ring)
  have hd : ∀ u v : Vec (Option ℝ), u.dst v = (v.sub u).len := fun _ _ => rfl
  have hk : ∀ (u v : Vec (Option ℝ)) (k : Option ℝ), ((addVector dx dy v).scl k).sub ((addVector dx dy u).scl k) =
      (v.scl k).sub (u.scl k) := by
    rintro ⟨_ | x, _ | y⟩ ⟨_ | x', _ | y'⟩ (_ | k) <;>
      simp only [addVector, Vec.sub, Vec.scl, add_left, sub_left, mul_left, sub_right, mul_right, add, sub, mul] <;>
      (congr 2 <;> ring)
  constructor
  · intro u v
    rw [hd, hd, hs]
  · intro u v k
    rw [hd, hd, hk]
  · intro u v
    rw [hs]
  · intro u v k
    rw [hs]
    rcases u with ⟨_ | x, _ | y⟩ <;> rcases v with ⟨_ | x', _ | y'⟩ <;> rcases k with _ | k <;>
      simp only [addVector, Vec.add, Vec.sub, Vec.scl, add_left, sub_left, mul_left, add_right, sub_right, mul_right,
        add, sub, mul] <;>
      (congr 2 <;> ring)
  · intro a b c e
    dsimp only
    rw [hs, hs]

open Exact in
/-- C86 (exact arithmetic). Adding the same vector to the positions and to the lines of the paths of all objects
of a map changes no difficulty calculation, whatever the mods. -/
theorem C86_translated (d : Difficulty (Option ℝ)) (dx dy : ℝ) (objs : List (Obj (Option ℝ) (Option ℝ))) :
    SameRatings d objs (objs.map (place (addVector dx dy) id)) := by
  refine moved_same (g := addVector dx (if Modifier.active d.mods Mod.HardRock then -dy else dy)) (rigid_add _ _)
    (steady_eq d) ?_
  refine List.forall₂_map_right_iff.mpr (List.forall₂_same.mpr fun o _ => ?_)
  refine moved_place (addVector_lerp dx dy) ?_ o
  rintro h ⟨x, y⟩
  unfold HitObject.modifyPosition
  by_cases hr : Modifier.active d.mods Mod.HardRock = true
  · rw [if_pos hr, if_pos hr, if_pos hr]
    rcases h.stackOffsetHR with ⟨_ | p, _ | q⟩ <;> rcases x with _ | x <;> rcases y with _ | y <;>
      simp only [addVector, Vec.add, id, add_left, sub_left, add_right, sub_right, add, sub, lit] <;>
      (congr 2 <;> ring)
  · rw [if_neg hr, if_neg hr, if_neg hr]
    by_cases he : Modifier.active d.mods Mod.Easy = true
    · rw [if_pos he, if_pos he]
      rcases h.stackOffsetEZ with ⟨_ | p, _ | q⟩ <;> rcases x with _ | x <;> rcases y with _ | y <;>
        simp only [addVector, Vec.add, id, add_left, add_right, add] <;>
        (congr 2 <;> ring)
    · rw [if_neg he, if_neg he]
      rcases h.stackOffset with ⟨_ | p, _ | q⟩ <;> rcases x with _ | x <;> rcases y with _ | y <;>
        simp only [addVector, Vec.add, id, add_left, add_right, add] <;>
        (congr 2 <;> ring)

/-- C87 (exact arithmetic). Adding to all times of a map a whole number of sections of 400 ms, multiplied by the
speed, changes no difficulty calculation. -/
theorem C87_shifted (d : Difficulty (Option ℝ)) (v : ℝ) (hv : d.speed = some v) (k : ℤ)
    (objs : List (Obj (Option ℝ) (Option ℝ))) :
    SameRatings d objs (objs.map (retime (shiftBy (400 * k * v)))) := by
  refine moved_same (g := id) (R := fun t t' => t' = shiftBy (400 * k * v) t) rigid_id (steady_shift d v hv k) ?_
  exact List.forall₂_map_right_iff.mpr (List.forall₂_same.mpr fun o _ => moved_retime _ _ o)

end

/-! ### IEEE arithmetic -/

section
variable [GoLibm F64] [GoSort]

/-- C86 (IEEE). Without HardRock, exchanging the two coordinates of everything in a map changes no difficulty
calculation, not even in the last bit. -/
theorem C86_swapped (hl : EvenAtan F64) (d : Difficulty F64) (hd : Modifier.active d.mods Mod.HardRock = false)
    (objs : List (Obj F32 F64)) : SameRatings d objs (objs.map (place swap swap)) := by
  refine moved_same (SwapIEEE.rigid_swap hl) (steady_eq d) ?_
  refine List.forall₂_map_right_iff.mpr (List.forall₂_same.mpr fun o _ => ?_)
  refine moved_place (fun _ _ _ => rfl) ?_ o
  intro h u
  unfold HitObject.modifyPosition
  rw [hd]
  simp only [Bool.false_eq_true, if_false]
  by_cases he : Modifier.active d.mods Mod.Easy = true
  · rw [if_pos he, if_pos he]; rfl
  · rw [if_neg he, if_neg he]; rfl

/-- Both times of an object are whole milliseconds from 0 to `2 ^ 40`, also `400 k` later. -/
def WholeTimes (k : ℤ) (o : Obj F32 F64) : Prop :=
  ∀ t ∈ [o.base.startTime, o.base.endTime], ∃ n : ℤ, 0 ≤ n ∧ n ≤ 2 ^ 40 ∧ 0 ≤ n + 400 * k ∧ n + 400 * k ≤ 2 ^ 40 ∧
    t = ofInt n

/-- C87 (IEEE). At speed 1, a map of circles and spinners with times in whole milliseconds has the same results,
to the last bit, as the map that is a whole number of sections of 400 ms later (or earlier). -/
theorem C87_whole (d : Difficulty F64) (hd : d.speed = lit 1) (k : ℤ) (objs : List (Obj F32 F64))
    (hs : ∀ o ∈ objs, o.isSlider = false) (hw : ∀ o ∈ objs, WholeTimes k o) :
    SameRatings d objs (objs.map (retime (· +. ofInt (400 * k)))) := by
  refine moved_same (g := id) (R := IntShift (2 ^ 40) k) rigid_id (steady_ints d hd k) ?_
  refine List.forall₂_map_right_iff.mpr (List.forall₂_same.mpr fun o ho => ?_)
  have time : ∀ t ∈ [o.base.startTime, o.base.endTime], IntShift (2 ^ 40) k t (t +. ofInt (400 * k)) := by
    intro t ht
    obtain ⟨n, h1, h2, h3, h4, rfl⟩ := hw o ho t ht
    refine ⟨n, h1, h2, h3, h4, Fl.ofInt64_exact (by rw [abs_le]; constructor <;> omega), ?_⟩
    rw [Fl.ofInt64_exact (by rw [abs_le]; constructor <;> omega), Fl.ofInt64_exact (by rw [abs_le]; constructor <;> omega)]
    show Fl.ofRat fmt64 ((n : ℚ) + ((400 * k : ℤ) : ℚ)) (Fl.signbit (Fl.fin (n : ℚ) false : F64) && _) = _
    rw [signbit_nonneg h1, Bool.false_and, show (n : ℚ) + ((400 * k : ℤ) : ℚ) = ((n + 400 * k : ℤ) : ℚ) by push_cast; ring]
    exact ofRat_int (by rw [abs_le]; constructor <;> omega)
  have hnot := hs o ho
  rcases o with ⟨b, _ | _ | s⟩
  · exact ⟨trivial, time _ (by simp), time _ (by simp), rfl, rfl, fun _ _ _ => rfl⟩
  · exact ⟨trivial, time _ (by simp), time _ (by simp), rfl, rfl, fun _ _ _ => rfl⟩
  · cases hnot

end

/-! ### Concrete cases -/

/-- Circles at the ends of a section. -/
def Sample.edges : Str := "osu file format v14
[Metadata]
Title:a
[TimingPoints]
0,500,4,1,0,100,1,0
[HitObjects]
100,100,1000,1,0
200,100,1500,1,0
100,200,1600,1,0
".toList

/-- The numbers of aim peaks of a map and of the map that is 100 ms later. -/
def Sample.laterPeaks (δ : F64) : Option (Nat × Nat) :=
  (Sample.observe Sample.edges fun m =>
    match @calculateStrainPeaks F32 F64 _ Sample.libm2 _ _ 100 m.hitObjects m.difficulty,
      @calculateStrainPeaks F32 F64 _ Sample.libm2 _ _ 100 (m.hitObjects.map (retime (· +. δ))) m.difficulty with
    | .ok p, .ok q => some (p.aim.length, q.aim.length)
    | _, _ => none).join

theorem Sample.later_peaks : Sample.laterPeaks (ofInt 100) = some (1, 2) ∧ Sample.laterPeaks (ofInt 400) = some (1, 1) := by
  constructor <;> decide +kernel

/-- C87. Other shifts are not invisible: there is a map of circles with times in whole milliseconds that has one
section, and two sections when it is 100 ms later. -/
theorem C87_not_every_shift [GoSort] : ∃ (d : Difficulty F64) (objs : List (Obj F32 F64)), d.speed = lit 1 ∧
    (∀ o ∈ objs, o.isSlider = false) ∧ (∀ o ∈ objs, WholeTimes 0 o) ∧
    ¬ @SameRatings F32 F64 _ _ _ Sample.libm2 _ d objs (objs.map (retime (· +. ofInt 100))) := by
  letI := Sample.libm2
  have hpeaks := Sample.later_peaks.1
  have hprops : (Sample.observe Sample.edges fun m => decide (m.difficulty.speed = lit 1) &&
      m.hitObjects.all (fun o => !o.isSlider && [1000, 1500, 1600].any fun n : ℤ =>
        decide (o.base.startTime = ofInt n) && decide (o.base.endTime = ofInt n))) = some true := by decide +kernel
  unfold Sample.laterPeaks at hpeaks
  unfold Sample.observe at hpeaks hprops
  rcases hp : Sample.parse Sample.edges with e | _ | m
  · rw [hp] at hprops; cases hprops
  · rw [hp] at hprops; cases hprops
  · rw [hp] at hprops hpeaks
    simp only [Option.some.injEq, Bool.and_eq_true, decide_eq_true_eq, List.all_eq_true, Bool.not_eq_true',
      List.any_eq_true] at hprops
    obtain ⟨h1, h2⟩ := hprops
    refine ⟨m.difficulty, m.hitObjects, h1, fun o ho => (h2 o ho).1, fun o ho => ?_, fun hsame => ?_⟩
    · obtain ⟨-, n, hn, h3, h4⟩ := h2 o ho
      have hn : n = 1000 ∨ n = 1500 ∨ n = 1600 := by simpa using hn
      have hb : 0 ≤ n ∧ n ≤ 2 ^ 40 := by rcases hn with rfl | rfl | rfl <;> norm_num
      intro t ht
      have ht : t = ofInt n := by
        rcases List.mem_cons.mp ht with rfl | ht
        · exact h3
        · rw [List.mem_singleton.mp ht]; exact h4
      exact ⟨n, hb.1, hb.2, by simpa using hb.1, by simpa using hb.2, ht⟩
    · have := (hsame 100).2.2.2.2
      dsimp only at hpeaks
      rw [this] at hpeaks
      split at hpeaks
      · rename_i p q e1 e2
        rw [e1] at e2
        cases e2
        simp at hpeaks
        omega
      · cases hpeaks

/-- C87: the sample meets the hypotheses of the theorem on whole sections, and has results. -/
example [GoSort] : ∃ m, Sample.parse Sample.edges = .ok (some m) ∧ m.difficulty.speed = lit 1 ∧
    (∀ o ∈ m.hitObjects, o.isSlider = false) ∧ (∀ o ∈ m.hitObjects, WholeTimes 1 o) ∧
    (m.hitObjects.map (retime (· +. ofInt (400 * 1)))).map (fun o => o.base.startTime) = [ofInt 1400, ofInt 1900, ofInt 2000] ∧
    ∃ p, @calculateStrainPeaks F32 F64 _ Sample.libm2 _ _ 100 m.hitObjects m.difficulty = .ok p := by
  have hprops : (Sample.observe Sample.edges fun m => decide (m.difficulty.speed = lit 1) &&
      m.hitObjects.all (fun o => !o.isSlider && [1000, 1500, 1600].any fun n : ℤ =>
        decide (o.base.startTime = ofInt n) && decide (o.base.endTime = ofInt n)) &&
      decide ((m.hitObjects.map (retime (· +. ofInt (400 * 1)))).map (fun o => o.base.startTime) =
        [ofInt 1400, ofInt 1900, ofInt 2000]) &&
      (@calculateStrainPeaks F32 F64 _ Sample.libm2 _ _ 100 m.hitObjects m.difficulty).isOk) = some true := by
    decide +kernel
  unfold Sample.observe at hprops
  rcases hp : Sample.parse Sample.edges with e | _ | m
  · rw [hp] at hprops; cases hprops
  · rw [hp] at hprops; cases hprops
  · rw [hp] at hprops
    simp only [Option.some.injEq, Bool.and_eq_true, decide_eq_true_eq, List.all_eq_true, Bool.not_eq_true',
      List.any_eq_true] at hprops
    obtain ⟨⟨⟨h1, h2⟩, h5⟩, h6⟩ := hprops
    refine ⟨m, rfl, h1, fun o ho => (h2 o ho).1, fun o ho => ?_, h5, ?_⟩
    · obtain ⟨-, n, hn, h3, h4⟩ := h2 o ho
      have hn : n = 1000 ∨ n = 1500 ∨ n = 1600 := by simpa using hn
      have hb : 0 ≤ n ∧ n + 400 * 1 ≤ 2 ^ 40 := by rcases hn with rfl | rfl | rfl <;> norm_num
      intro t ht
      have ht : t = ofInt n := by
        rcases List.mem_cons.mp ht with rfl | ht
        · exact h3
        · rw [List.mem_singleton.mp ht]; exact h4
      exact ⟨n, hb.1, by linarith [hb.2], by linarith [hb.1], hb.2, ht⟩
    · revert h6
      cases @calculateStrainPeaks F32 F64 _ Sample.libm2 _ _ 100 m.hitObjects m.difficulty with
      | error e => intro h; cases h
      | ok p => exact fun _ => ⟨p, rfl⟩

/-- C86: the library functions of the samples meet the law. -/
example : @EvenAtan F64 _ Sample.libm2 := fun _ _ => rfl

/-- C86: the sample with exchanged coordinates is a different map with the same peaks. -/
example : (Sample.observe Sample.stacked fun m =>
    match @calculateStrainPeaks F32 F64 _ Sample.libm2 _ _ 100 m.hitObjects m.difficulty,
      @calculateStrainPeaks F32 F64 _ Sample.libm2 _ _ 100 (m.hitObjects.map (place swap swap)) m.difficulty with
    | .ok p, .ok q => some ((m.hitObjects.map (place swap swap)).map (fun o => o.base.startPosRaw) ==
        m.hitObjects.map (fun o => o.base.startPosRaw), p.aim == q.aim, p.aim.length)
    | _, _ => none).join = some (false, true, 11) := by decide +kernel

/-- C86: the real functions meet the law. -/
theorem exactLibm_even : @EvenAtan (Option ℝ) _ exactLibm := by
  rintro (_ | y) (_ | x)
  · rfl
  · rfl
  · rfl
  · show some |Complex.arg ⟨x, -y⟩| = some |Complex.arg ⟨x, y⟩|
    have h : (⟨x, -y⟩ : ℂ) = (starRingEnd ℂ) ⟨x, y⟩ := rfl
    rw [h, Complex.arg_conj]
    congr 1
    split
    · rename_i h; rw [h]
    · exact abs_neg _

/-- A circle. -/
noncomputable def exactCircle (x y t : ℝ) : Obj (Option ℝ) (Option ℝ) where
  base :=
    { startPosRaw := ⟨some x, some y⟩, endPosRaw := ⟨some x, some y⟩, startTime := some t, endTime := some t
      stackOffset := ⟨some 0, some 0⟩, stackOffsetEZ := ⟨some 0, some 0⟩, stackOffsetHR := ⟨some 0, some 0⟩
      stackIndex := 0, stackIndexEZ := 0, stackIndexHR := 0, hitObjectID := 0, sounds := [], newCombo := false
      comboNumber := 0, comboSet := 0, comboSetHax := 0, colorOffset := 0 }
  kind := .circle

/-- C86: three circles, and the same turned by a right angle. -/
example [GoSort] (d : Difficulty (Option ℝ)) (hd : d.mods = Mod.None) :
    @SameRatings (Option ℝ) (Option ℝ) _ _ _ exactLibm _ d
      [exactCircle 10 20 0, exactCircle 100 50 500, exactCircle 200 300 1000]
      [exactCircle (-20) 10 0, exactCircle (-50) 100 500, exactCircle (-300) 200 1000] := by
  letI := exactLibm
  have hg : Isometry fun z : ℂ => Complex.I * z :=
    Isometry.of_dist_eq fun z w => by rw [Complex.dist_eq, Complex.dist_eq, ← mul_sub, norm_mul, Complex.norm_I, one_mul]
  have hc : ∀ x y t, Moved Eq (onPositions fun z => Complex.I * z) d.mods (exactCircle x y t) (exactCircle (-y) x t) := by
    intro x y t
    have hm : HitObject.modifyPosition (exactCircle (-y) x t).base ⟨some (-y), some x⟩ d.mods =
        onPositions (fun z => Complex.I * z) (HitObject.modifyPosition (exactCircle x y t).base ⟨some x, some y⟩ d.mods) := by
      rw [hd]
      have h1 : Modifier.active Mod.None Mod.HardRock = false := by decide
      have h2 : Modifier.active Mod.None Mod.Easy = false := by decide
      unfold HitObject.modifyPosition
      rw [h1, h2]
      simp [exactCircle, Vec.add, Exact.add, onPositions]
    exact ⟨trivial, rfl, rfl, hm, hm, fun _ _ _ => congrArg Except.ok hm⟩
  exact C86_congruent exactLibm_even d hg (.cons (hc _ _ _) (.cons (hc _ _ _) (.cons (hc _ _ _) .nil)))

/-- C87: a difficulty with a speed that is a number. -/
example [GoSort] (d : Difficulty (Option ℝ)) (hd : d.speed = some (3 / 2)) :
    @SameRatings (Option ℝ) (Option ℝ) _ _ _ exactLibm _ d [exactCircle 10 20 0, exactCircle 100 50 500]
      [exactCircle 10 20 600, exactCircle 100 50 1100] := by
  letI := exactLibm
  have := C87_shifted d _ hd 1 [exactCircle 10 20 0, exactCircle 100 50 500]
  have e : [exactCircle 10 20 0, exactCircle 100 50 500].map (retime (shiftBy (400 * (1 : ℤ) * (3 / 2)))) =
      [exactCircle 10 20 600, exactCircle 100 50 1100] := by
    simp [retime, exactCircle, shiftBy]
    norm_num
  rwa [e] at this

end GosuPP.Props
