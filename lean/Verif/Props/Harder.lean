import Verif.Lemmas.Harder
import Verif.Lemmas.Stats
import Verif.Props.Steady
import Verif.Props.StarInputs

/-!
# C91: a shorter hit window makes a map harder
-/

namespace GosuPP.Props
open Go Spec Exactly
attribute [local instance] exactLibm

variable [GoSort] {objs : List (Obj (Option ℝ) (Option ℝ))} {d : Difficulty (Option ℝ)} {r w w' : ℝ}

omit [GoSort] in
private theorem stricter (hr : 0 < r) (hs : d.speed = some r) (hw : 0 < w') (hww : w' ≤ w) (h3 : d.hit300 = some w) :
    Stricter d { d with hit300 := some w' } :=
  ⟨⟨r, hr, hs, hs⟩, ⟨w, w', hw, hww, h3, rfl⟩⟩

omit [GoSort] in
private theorem both_ok {α β : Type} {P : α → β → Prop} {x : Result α} {y : Result β} (h : Both P x y) {a : α} (hx : x = .ok a) :
    ∃ b, y = .ok b ∧ P a b := by
  subst hx
  cases y with
  | error e => exact h.elim
  | ok b => exact ⟨b, rfl, h⟩

/-- C91 (exact). With a shorter window for a 300 the speed rating and the stars of a map are not lower, and all
other results are the same. -/
theorem C91_window (ht : Timed objs) (hr : 0 < r) (hs : d.speed = some r) (hw : 0 < w') (hww : w' ≤ w)
    (h3 : d.hit300 = some w) {fuel : ℕ} {a : Attributes (Option ℝ)} (ha : calculateSingle fuel objs d = .ok a) :
    ∃ a', calculateSingle fuel objs { d with hit300 := some w' } = .ok a' ∧ HarderToTap a a' := by
  refine both_ok ?_ ha
  unfold calculateSingle
  exact (singleCore_ahead ht (stricter hr hs hw hww h3) fuel).bind fun x x' hx => hx.1

/-- C91 (exact). The same after each object of the map. -/
theorem C91_steps (ht : Timed objs) (hr : 0 < r) (hs : d.speed = some r) (hw : 0 < w') (hww : w' ≤ w)
    (h3 : d.hit300 = some w) {fuel : ℕ} {l : List (Attributes (Option ℝ))} (ha : calculateStep fuel objs d = .ok l) :
    ∃ l', calculateStep fuel objs { d with hit300 := some w' } = .ok l' ∧ List.Forall₂ HarderToTap l l' := by
  refine both_ok ?_ ha
  unfold calculateStep
  exact (stepCore_ahead ht (stricter hr hs hw hww h3) fuel).bind fun x x' hx => hx.1

/-- C91 (exact). The same for each section: the peaks of speed and stars are not lower, those of aim and flashlight
are the same. -/
theorem C91_peaks (ht : Timed objs) (hr : 0 < r) (hs : d.speed = some r) (hw : 0 < w') (hww : w' ≤ w)
    (h3 : d.hit300 = some w) {fuel : ℕ} {a : Attributes (Option ℝ)} {p : StrainPeaks (Option ℝ)}
    (ha : calculateSingleWithPeaks fuel objs d = .ok (a, p)) :
    ∃ a' p', calculateSingleWithPeaks fuel objs { d with hit300 := some w' } = .ok (a', p') ∧ HarderToTap a a' ∧
      p'.aim = p.aim ∧ p'.flashlight = p.flashlight ∧ List.Forall₂ NoMore p.speed p'.speed ∧
      List.Forall₂ NoMore p.total p'.total := by
  have key : Both (fun x x' : Attributes (Option ℝ) × StrainPeaks (Option ℝ) => HarderToTap x.1 x'.1 ∧
      x'.2.aim = x.2.aim ∧ x'.2.flashlight = x.2.flashlight ∧ List.Forall₂ NoMore x.2.speed x'.2.speed ∧
      List.Forall₂ NoMore x.2.total x'.2.total) (calculateSingleWithPeaks fuel objs d)
      (calculateSingleWithPeaks fuel objs { d with hit300 := some w' }) := by
    unfold calculateSingleWithPeaks
    refine (singleCore_ahead ht (stricter hr hs hw hww h3) fuel).bind fun x x' hx => ?_
    exact (set_peaks hx.2).bind fun y y' hy => ⟨hx.1, hy⟩
  obtain ⟨⟨a', p'⟩, h1, h2⟩ := both_ok key ha
  exact ⟨a', p', h1, h2⟩

/-- C91 (exact). Raising OD (to at most 13) never lowers the speed rating or the stars of a map, with any mods, and
changes no other result. -/
theorem C91_od (ht : Timed objs) {c x y : ℝ} (hc : 0 < c) (hcs : d.customSpeed = some c) (hxy : x ≤ y) (hy : y ≤ 13)
    {fuel : ℕ} {a : Attributes (Option ℝ)} (ha : calculateSingle fuel objs (d.setOD (some x)) = .ok a) :
    ∃ a', calculateSingle fuel objs (d.setOD (some y)) = .ok a' ∧ HarderToTap a a' := by
  obtain ⟨x', y', ex, ey, hle, h13⟩ := Exactly.adjust_mono d.mods (k := 1.4) (by norm_num) (show (10 : ℝ) ≤ 13 by norm_num) hxy
  obtain ⟨r, hr, er⟩ := speed_pos d.mods hc
  have hs : (d.setOD (some x)).speed = some r := by
    show lit 1 /. Difficulty.modifiedTime d.mods d.customSpeed (lit 1) = _
    rw [hcs, er]
  have hx3 : (d.setOD (some x)).hit300 = some (80 - 6 * x') := by
    show difficultyRate (Difficulty.adjust d.mods 1.4 (some x)) _ _ _ = _
    rw [ex, rate300]
  have hy3 : (d.setOD (some y)).hit300 = some (80 - 6 * y') := by
    show difficultyRate (Difficulty.adjust d.mods 1.4 (some y)) _ _ _ = _
    rw [ey, rate300]
  obtain ⟨a', h1, h2⟩ := C91_window (w' := 80 - 6 * y') ht hr hs (by have := h13 hy; linarith) (by linarith) hx3 ha
  refine ⟨a', ?_, h2⟩
  rw [← h1]
  exact (C68_inputs (S := Option ℝ) (d.setOD (some y)) { d.setOD (some x) with hit300 := some (80 - 6 * y') }
    ⟨rfl, hy3, rfl, rfl, rfl, rfl, rfl⟩ fuel objs).1

/-- A stream at OD 5 and OD 9. -/
example : ∃ fuel a a', calculateSingle fuel (exactStream 0 20) (exactDiff.setOD (some 5)) = .ok a ∧
    calculateSingle fuel (exactStream 0 20) (exactDiff.setOD (some 9)) = .ok a' ∧ HarderToTap a a' := by
  have hs : Stream (exactDiff.setOD (some 5)).mods 0 90 200 (fun i => (if i % 2 = 0 then 100 else 300, 50)) (exactStream 0 20) :=
    exactStream_stream 0 20
  have hc : exactDiff.customSpeed = some ((1 : ℚ) : ℝ) := rfl
  obtain ⟨r, hr, er⟩ := speed_pos exactDiff.mods (c := ((1 : ℚ) : ℝ)) (by norm_num)
  have hrad : (exactDiff.setOD (some 5)).circleRadius = some 32 := by
    show difficultyRate (lit 5) (lit 54.4) (lit 32) (lit 9.6) = _
    unfold difficultyRate
    simp only [Exact.lit, Exact.lt]
    norm_num
  obtain ⟨N, hN⟩ := C90_returns hs (by rw [← List.length_pos_iff, exactStream_length]; norm_num) (by norm_num) (r := r) er hr hrad (by norm_num)
  obtain ⟨p, a, -, ha, -⟩ := hN N le_rfl
  have htm : Timed (exactStream 0 20) := by
    intro o ho
    unfold exactStream at ho
    obtain ⟨i, -, rfl⟩ := List.mem_map.mp ho
    exact ⟨_, rfl⟩
  obtain ⟨a', h1, h2⟩ := C91_od htm (by norm_num) hc (by norm_num : (5 : ℝ) ≤ 9) (by norm_num) ha
  exact ⟨N, a, a', ha, h1, h2⟩

end GosuPP.Props
