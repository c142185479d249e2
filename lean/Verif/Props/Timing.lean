import Verif.Lemmas.Timing
import Verif.Go.Real

/-!
# Properties of timing points: C15 - C18, and C59
-/

namespace GosuPP.Props
open Go GosuPP

/-- the points handed to `AddPoint` as they are stored -/
abbrev stored {D : Type} (ps : List (ControlPoint D)) : List (ControlPoint D) :=
  ps.map (fun p => { p with beatLengthBase := p.beatLength })

variable [GoSort]

/-- C15. For any points added to a fresh `Timings`, `GetPointAt` finds the last point of the
stable time order that is not after the query, or the first point; it panics exactly when there
is no point. The point found differs from the one added in the base beat length only (C16). -/
theorem C15_get_point_at (ps : List (ControlPoint F64)) (hn : ∀ p ∈ ps, Fl.NN p.time) (t : F64)
    (ht : Fl.NN t) :
    (ps = [] → (Spec.addAll ps).finalizePoints.getPointAt t = .error .panic) ∧
    (ps ≠ [] → ∃ p q, (Spec.addAll ps).finalizePoints.getPointAt t = .ok q ∧
      Spec.pick (Spec.byTime (stored ps)) t = some p ∧ Spec.SameButBase p q) := by
  have hn' : ∀ p ∈ (Spec.addAll ps).points, Fl.NN p.time := by
    rw [(addAll_eq ps).1]
    intro p hp
    obtain ⟨q, hq, rfl⟩ := List.mem_map.mp hp
    exact hn q hq
  obtain ⟨h1, -, h3, h4⟩ := finalize_points _ hn'
  obtain ⟨ha, hb⟩ := pointAt_pick h4 h3 ht
  have hlen : (Spec.addAll ps).finalizePoints.points.length = ps.length := by
    rw [h1, finalizeLoop_length, (addAll_eq ps).1, Spec.byTime,
      (insertionSort_perm _ _).length_eq, List.length_map]
  constructor
  · rintro rfl
    exact ha (List.length_eq_zero_iff.mp hlen)
  · intro hne
    obtain ⟨q, hq, hq'⟩ := hb (by
      rw [← List.length_pos_iff, hlen, List.length_pos_iff]; exact hne)
    have he := congrArg (Option.map eraseBase) hq
    rw [← pick_erase, h1, finalizeLoop_erase, pick_erase, (addAll_eq ps).1] at he
    cases hp : Spec.pick (Spec.byTime (stored ps)) t with
    | none =>
      have hp : Spec.pick (Spec.byTime (List.map (fun p => { p with beatLengthBase := p.beatLength }) ps)) t = none := hp
      rw [hp] at he; cases he
    | some p =>
      have hp : Spec.pick (Spec.byTime (List.map (fun p => { p with beatLengthBase := p.beatLength }) ps)) t = some p := hp
      rw [hp] at he
      exact ⟨p, q, hq', rfl, sameButBase_of_erase (by simpa using he)⟩

/-- C15, `GetOriginalPointAt`: the same search among the first point and the uninherited ones. -/
theorem C15_get_original_point_at (ps : List (ControlPoint F64)) (hn : ∀ p ∈ ps, Fl.NN p.time)
    (t : F64) (ht : Fl.NN t) :
    (ps = [] → (Spec.addAll ps).finalizePoints.getOriginalPointAt t = .error .panic) ∧
    (ps ≠ [] → ∃ p, (Spec.addAll ps).finalizePoints.getOriginalPointAt t = .ok p ∧
      Spec.pick (Spec.originals (Spec.byTime (stored ps))) t = some p) := by
  have hn' : ∀ p ∈ (Spec.addAll ps).points, Fl.NN p.time := by
    rw [(addAll_eq ps).1]
    intro p hp
    obtain ⟨q, hq, rfl⟩ := List.mem_map.mp hp
    exact hn q hq
  obtain ⟨h1, h2, h3, h4⟩ := finalize_points _ hn'
  rw [(addAll_eq ps).2, List.nil_append] at h2
  have hsub : (Spec.originals (Spec.addAll ps).finalizePoints.points).Sublist
      (Spec.addAll ps).finalizePoints.points := by
    cases (Spec.addAll ps).finalizePoints.points with
    | nil => exact List.Sublist.refl _
    | cons p l => exact List.Sublist.cons_cons _ List.filter_sublist
  have heq : Spec.originals (Spec.addAll ps).finalizePoints.points =
      Spec.originals (Spec.byTime (stored ps)) := by
    rw [h1, ← (finalizeLoop_none _).1, (finalizeLoop_none _).2, (addAll_eq ps).1]
  obtain ⟨ha, hb⟩ := pointAt_pick (l := Spec.originals (Spec.addAll ps).finalizePoints.points)
    (fun p hp => h4 p (hsub.subset hp)) (h3.sublist hsub) ht
  have hnil : Spec.originals (Spec.byTime (stored ps)) = [] ↔ ps = [] := by
    have : (Spec.byTime (stored ps)).length = ps.length := by
      rw [Spec.byTime, (insertionSort_perm _ _).length_eq, List.length_map]
    cases hB : Spec.byTime (stored ps) with
    | nil => rw [hB] at this; simp [Spec.originals]; exact List.length_eq_zero_iff.mp this.symm
    | cons a l => rw [hB] at this; simp [Spec.originals]; rintro rfl; simp at this
  unfold Timings.getOriginalPointAt
  rw [h2]
  constructor
  · intro h; exact ha (by rw [heq]; exact hnil.mpr h)
  · intro h
    obtain ⟨p, hp, hp'⟩ := hb (by rw [heq]; exact fun hc => h (hnil.mp hc))
    exact ⟨p, hp', by rw [← heq]; exact hp⟩

/-- a timing point for the examples -/
def pt (time beatLength : ℚ) (inherited : Bool) : ControlPoint F64 :=
  { time := lit time, beatLengthBase := lit 0, beatLength := lit beatLength, sampleSet := 0
    sampleIndex := 1, sampleVolume := lit 1, signature := 4, inherited, kiai := false
    omitFirstBarLine := false }

omit [GoSort] in
theorem pt_nn (a b : ℚ) (i : Bool) : Fl.NN (pt a b i).time := Fl.ofRat_nn a false

/-- Two points at the same time, added out of order: the later added one is found, and the
uninherited search skips it. -/
example : Spec.pick (Spec.byTime (stored [pt 2000 300 false, pt 0 500 false, pt 0 (-50) true])) (lit 10) =
      some { pt 0 (-50) true with beatLengthBase := lit (-50) } ∧
    Spec.pick (Spec.originals (Spec.byTime
        (stored [pt 2000 300 false, pt 0 500 false, pt 0 (-50) true]))) (lit 10) =
      some { pt 0 500 false with beatLengthBase := lit 500 } ∧
    (∀ p ∈ [pt 2000 300 false, pt 0 500 false, pt 0 (-50) true], Fl.NN p.time) := by
  refine ⟨by decide +kernel, by decide +kernel, ?_⟩
  intro p hp
  simp only [List.mem_cons, List.not_mem_nil, or_false] at hp
  rcases hp with rfl | rfl | rfl <;> exact pt_nn _ _ _

/-- C16. In any arithmetic and whatever order the sort produced, after `FinalizePoints` every
point has the beat length of the nearest point at or before it that is first or uninherited. -/
theorem C16_base_beat_length {D : Type} [GoFloat D] (ps : List (ControlPoint D)) :
    Spec.BaseOf (GoSort.stable (fun a b : ControlPoint D => a.time <. b.time) (stored ps))
      (Spec.addAll ps).finalizePoints.points := by
  have h : (Spec.addAll ps).finalizePoints.points = (Timings.finalizeLoop none
      (GoSort.stable (fun a b : ControlPoint D => a.time <. b.time) (stored ps))).1 := by
    unfold Timings.finalizePoints
    rw [(addAll_eq ps).1]
  rw [h]
  refine finalizeLoop_baseOf _ fun p hp => ?_
  have hp' := (GoSort.stable_perm _ _).mem_iff.mp hp
  obtain ⟨q, -, rfl⟩ := List.mem_map.mp hp'
  rfl

/-- C16 for times without NaN, where the order is the stable time order. -/
theorem C16_base_beat_length_ieee (ps : List (ControlPoint F64)) (hn : ∀ p ∈ ps, Fl.NN p.time) :
    Spec.BaseOf (Spec.byTime (stored ps)) (Spec.addAll ps).finalizePoints.points := by
  have hn' : ∀ p ∈ stored ps, Fl.NN p.time := by
    intro p hp
    obtain ⟨q, hq, rfl⟩ := List.mem_map.mp hp
    exact hn q hq
  have := C16_base_beat_length ps
  rwa [stable_eq_insertionSort (time_strictWeak _ hn')] at this

/-- The base beat length of an inherited point is not its own. -/
example : ((Timings.finalizeLoop none
      (Spec.byTime (stored [pt 2000 300 false, pt 0 500 false, pt 1 (-50) true, pt 2 (-25) true]))).1.map
        (fun p => p.beatLengthBase)) = [lit 500, lit 500, lit 500, lit 300] := by
  decide +kernel

omit [GoSort] in
/-- C17. In exact arithmetic the ratio is 1 for a beat length that is not negative and one
hundredth of its size, cut to between 10 and 1000, for a negative one. -/
theorem C17_ratio_value (p : ControlPoint ℝ) :
    (0 ≤ p.beatLength → p.getRatio ℝ = 1) ∧
    (-10 ≤ p.beatLength → p.beatLength < 0 → p.getRatio ℝ = 1 / 10) ∧
    (-1000 ≤ p.beatLength → p.beatLength ≤ -10 → p.getRatio ℝ = -p.beatLength / 100) ∧
    (p.beatLength ≤ -1000 → p.getRatio ℝ = 10) := by
  have hneg : p.beatLength < 0 → p.getRatio ℝ = min 1000 (max 10 (-p.beatLength)) / 100 := by
    intro h
    unfold ControlPoint.getRatio
    rw [if_neg (by
      rw [RealArith.isNaN, Bool.or_false, RealArith.lit]
      show ¬ decide ((0 : ℚ) ≤ p.beatLength) = true
      rw [decide_eq_true_iff]; push_cast; exact not_le.mpr h)]
    unfold clampF64
    rw [RealArith.fmax, RealArith.fmin, RealArith.up, RealArith.down, RealArith.lit, RealArith.lit, RealArith.lit]
    show min ((1000 : ℚ) : ℝ) (max ((10 : ℚ) : ℝ) (-p.beatLength)) / ((100 : ℚ) : ℝ) = _
    norm_num
  refine ⟨fun h => ?_, fun h0 h => ?_, fun h0 h => ?_, fun h => ?_⟩
  · unfold ControlPoint.getRatio
    rw [if_pos (by
      rw [Bool.or_eq_true]; left
      show decide (((0 : ℚ) : ℝ) ≤ p.beatLength) = true
      rw [decide_eq_true_iff]; push_cast; exact h), RealArith.lit]
    norm_num
  · rw [hneg h, max_eq_left (by linarith), min_eq_right (by norm_num)]; norm_num
  · rw [hneg (by linarith), max_eq_right (by linarith), min_eq_right (by linarith)]
  · rw [hneg (by linarith), max_eq_right (by linarith), min_eq_left (by linarith)]; norm_num

omit [GoSort] in
/-- C17. The ratio of any control point lies between `float32(10)/100` and `10`. -/
theorem C17_ratio_bounds (p : ControlPoint F64) :
    ((up ((lit 10 : F32) /. lit 100) : F64) <=. p.getRatio F32) ∧ (p.getRatio F32 <=. lit 10) := by
  unfold ControlPoint.getRatio
  split
  · constructor <;> decide +kernel
  · rename_i h
    simp only [Bool.or_eq_true, not_or, Bool.not_eq_true] at h
    have hnn : Fl.NN p.beatLength := (Fl.isNaN_false_iff _).mp h.2
    have hx : Fl.NN (fneg p.beatLength) := Fl.neg_nn.mpr hnn
    have h10 : Fl.NN (lit 10 : F64) := Fl.ofRat_nn _ _
    have h1000 : Fl.NN (lit 1000 : F64) := Fl.ofRat_nn _ _
    obtain ⟨a1, a2, a3⟩ := Fl.fmax_spec h10 hx
    have hm := Fl.fmax_nn h10 hx
    obtain ⟨b1, b2, b3⟩ := Fl.fmin_spec h1000 hm
    have hlo : ((lit 10 : F64) <=. clampF64 (fneg p.beatLength) (lit 10) (lit 1000)) = true := by
      unfold clampF64
      rcases b3 with h | h
      · rw [h]; decide +kernel
      · rw [h]; exact a1
    have hhi : (clampF64 (fneg p.beatLength) (lit 10) (lit 1000) <=. (lit 1000 : F64)) = true := b1
    have e32 : (lit 100 : F32) = .fin 100 false := by decide +kernel
    constructor
    · have h1 : ((lit 10 : F32) <=. down (clampF64 (fneg p.beatLength) (lit 10 : F64) (lit 1000))) = true := by
        have := Fl.cvt_mono (g := fmt32) hlo
        have e : Fl.cvt fmt32 (lit 10 : F64) = lit 10 := by decide +kernel
        rw [e] at this
        exact this
      have h2 := Fl.div_le_div_right h1 (v := 100) (by norm_num) false
      rw [← e32] at h2
      exact Fl.cvt_mono (g := fmt64) h2
    · have h1 : (down (clampF64 (fneg p.beatLength) (lit 10 : F64) (lit 1000)) <=. (lit 1000 : F32)) = true := by
        have := Fl.cvt_mono (g := fmt32) hhi
        have e : Fl.cvt fmt32 (lit 1000 : F64) = lit 1000 := by decide +kernel
        rw [e] at this
        exact this
      have h2 := Fl.div_le_div_right h1 (v := 100) (by norm_num) false
      rw [← e32] at h2
      have h3 := Fl.cvt_mono (g := fmt64) h2
      have e : Fl.cvt fmt64 (Fl.div (lit 1000 : F32) (lit 100)) = (lit 10 : F64) := by decide +kernel
      rw [e] at h3
      exact h3

/-- Both bounds are reached, and NaN gives 1. -/
example : (pt 0 (-5) true).getRatio F32 = up ((lit 10 : F32) /. lit 100) ∧
    ({ pt 0 0 true with beatLength := .inf true } : ControlPoint F64).getRatio F32 = lit 10 ∧
    ({ pt 0 0 true with beatLength := .nan } : ControlPoint F64).getRatio F32 = lit 1 := by
  refine ⟨by decide +kernel, by decide +kernel, by decide +kernel⟩

/-- `FinalizePoints` called `n` times -/
def finalizeTimes (n : Nat) (t : Timings F64) : Timings F64 :=
  (fun t : Timings F64 => t.finalizePoints)^[n] t

theorem finalizeTimes_eq (n : Nat) (t : Timings F64) (hn : ∀ p ∈ t.points, Fl.NN p.time)
    (h0 : t.originalPoints = []) :
    (finalizeTimes (n + 1) t).points = t.finalizePoints.points ∧
    (finalizeTimes (n + 1) t).originalPoints =
      (List.replicate (n + 1) t.finalizePoints.originalPoints).flatten := by
  induction n with
  | zero => simp [finalizeTimes]
  | succ n ih =>
    have e : finalizeTimes (n + 1 + 1) t = (finalizeTimes (n + 1) t).finalizePoints := by
      unfold finalizeTimes; rw [Function.iterate_succ_apply']
    obtain ⟨h1, h2, h3, h4⟩ := finalize_points t hn
    have hw : StrictWeak (fun a b : ControlPoint F64 => a.time <. b.time) t.finalizePoints.points :=
      time_strictWeak _ h4
    have hs : GoSort.stable (fun a b : ControlPoint F64 => a.time <. b.time)
        t.finalizePoints.points = t.finalizePoints.points := stable_of_sorted hw h3
    have hid : (Timings.finalizeLoop none t.finalizePoints.points).1 = t.finalizePoints.points := by
      rw [h1, finalizeLoop_idem]
    have h2' : (Timings.finalizeLoop none t.finalizePoints.points).2 =
        t.finalizePoints.originalPoints := by
      rw [h2, h0, List.nil_append, (finalizeLoop_none _).2]
    rw [e]
    constructor
    · show (Timings.finalizeLoop none _).1 = _
      rw [ih.1, hs, hid]
    · show (finalizeTimes (n + 1) t).originalPoints ++ (Timings.finalizeLoop none _).2 = _
      rw [ih.1, ih.2, hs, h2', List.replicate_succ' (n := n + 1), List.flatten_append]
      simp

/-- C18. Calling `FinalizePoints` again, any number of times, changes no answer of `GetPointAt`
and no answer of `GetOriginalPointAt` (for any query time, NaN included), although the list
behind the latter grows by a full copy every time. -/
theorem C18_finalize_again (ps : List (ControlPoint F64)) (hn : ∀ p ∈ ps, Fl.NN p.time) (n : Nat)
    (t : F64) :
    (finalizeTimes (n + 1) (Spec.addAll ps)).getPointAt t =
      (Spec.addAll ps).finalizePoints.getPointAt t ∧
    (finalizeTimes (n + 1) (Spec.addAll ps)).getOriginalPointAt t =
      (Spec.addAll ps).finalizePoints.getOriginalPointAt t ∧
    (finalizeTimes (n + 1) (Spec.addAll ps)).originalPoints.length =
      (n + 1) * (Spec.addAll ps).finalizePoints.originalPoints.length := by
  have hn' : ∀ p ∈ (Spec.addAll ps).points, Fl.NN p.time := by
    rw [(addAll_eq ps).1]
    intro p hp
    obtain ⟨q, hq, rfl⟩ := List.mem_map.mp hp
    exact hn q hq
  obtain ⟨h1, h2, h3, h4⟩ := finalize_points _ hn'
  obtain ⟨e1, e2⟩ := finalizeTimes_eq n _ hn' (addAll_eq ps).2
  rw [(addAll_eq ps).2, List.nil_append] at h2
  have hsub : (Spec.originals (Spec.addAll ps).finalizePoints.points).Sublist
      (Spec.addAll ps).finalizePoints.points := by
    cases (Spec.addAll ps).finalizePoints.points with
    | nil => exact List.Sublist.refl _
    | cons p l => exact List.Sublist.cons_cons _ List.filter_sublist
  refine ⟨by unfold Timings.getPointAt; rw [e1], ?_, by rw [e2]; simp⟩
  unfold Timings.getOriginalPointAt
  rw [e2]
  exact pointAt_copies (fun p hp => h4 p (by rw [h2] at hp; exact hsub.subset hp))
    (by rw [h2]; exact h3.sublist hsub) n t

/-- The list behind `GetOriginalPointAt` after three calls is not sorted any more. -/
example : (@finalizeTimes insertionGoSort 3
      (Spec.addAll [pt 10 300 false, pt 0 500 false])).originalPoints.map (fun p => p.time) = [lit 0, lit 10, lit 0, lit 10, lit 0, (lit 10 : F64)] := by
  decide +kernel

omit [GoSort] in
/-- C59. `ClampI` is a projection onto `[min, max]`. -/
theorem C59_clamp (x min max : Int) (h : min ≤ max) :
    min ≤ clampI x min max ∧ clampI x min max ≤ max ∧
      (min ≤ x → x ≤ max → clampI x min max = x) ∧
      (x < min → clampI x min max = min) ∧ (max < x → clampI x min max = max) := by
  unfold clampI minI maxI
  refine ⟨?_, ?_, ?_, ?_, ?_⟩ <;> split <;> split <;> omega

omit [GoSort] in
example : clampI 7 0 5 = 5 ∧ clampI (-7) 0 5 = 0 ∧ clampI 3 0 5 = 3 := by decide

end GosuPP.Props
