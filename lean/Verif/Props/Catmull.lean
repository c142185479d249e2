import Verif.Lemmas.Catmull

/-!
# C116: Catmull sliders are Catmull-Rom splines

In exact arithmetic. `processType` gives the lines of the path before it is trimmed to the desired length.
-/

namespace GosuPP
open Go MultiCurve

/-- The `k`-th control point, one coordinate. -/
noncomputable def abscissa (ps : List (Vec ℝ)) (k : ℕ) : ℝ := (ps.getD k ⟨0, 0⟩).x

/-- The `k`-th control point, the other coordinate. -/
noncomputable def ordinate (ps : List (Vec ℝ)) (k : ℕ) : ℝ := (ps.getD k ⟨0, 0⟩).y

theorem catmull_lines {fuel : Nat} {ps : List (Vec ℝ)} {lines : List (Linear ℝ)} (h : processType (D := ℝ) fuel ['C'] ps = .ok lines)
    {i : ℕ} (hi : i + 1 < ps.length) :
    ∃ p4 : Vec ℝ, p4 = (if i + 2 < ps.length then ⟨abscissa ps (i + 2), ordinate ps (i + 2)⟩ else
        (⟨abscissa ps (i + 1) + (abscissa ps (i + 1) - abscissa ps i), ordinate ps (i + 1) + (ordinate ps (i + 1) - ordinate ps i)⟩ : Vec ℝ)) ∧
      ∀ j : ℕ, j < 50 → lines[50 * i + j]? =
        some ⟨catmullPoint ⟨if i = 0 then abscissa ps 0 else abscissa ps (i - 1), if i = 0 then ordinate ps 0 else ordinate ps (i - 1)⟩
            ⟨abscissa ps i, ordinate ps i⟩ ⟨abscissa ps (i + 1), ordinate ps (i + 1)⟩ p4 ((j : ℝ) / 50),
          catmullPoint ⟨if i = 0 then abscissa ps 0 else abscissa ps (i - 1), if i = 0 then ordinate ps 0 else ordinate ps (i - 1)⟩
            ⟨abscissa ps i, ordinate ps i⟩ ⟨abscissa ps (i + 1), ordinate ps (i + 1)⟩ p4 (((j + 1 : ℕ) : ℝ) / 50)⟩ := by
  have h : (Except.ok (processCatmull ps) : Result _) = .ok lines := h
  cases h
  refine ⟨_, rfl, fun j hj => ?_⟩
  have hget : ∀ k, k < ps.length → ps[k]? = some ⟨abscissa ps k, ordinate ps k⟩ := by
    intro k hk
    unfold abscissa ordinate
    rw [List.getD_eq_getElem?_getD, List.getElem?_eq_getElem hk]
    rfl
  cases ps with
  | nil => simp at hi
  | cons p l =>
    have hp : (p :: p :: l)[i]? = some ⟨if i = 0 then abscissa (p :: l) 0 else abscissa (p :: l) (i - 1),
        if i = 0 then ordinate (p :: l) 0 else ordinate (p :: l) (i - 1)⟩ := by
      cases i with
      | zero => rfl
      | succ i =>
        rw [List.getElem?_cons_succ, hget i (by omega)]
        simp
    have key := processCatmullLoop_get i (p :: l) p _ _ _ j hj hp (hget i (by omega)) (hget (i + 1) hi)
    have e : (p :: l)[i + 2]?.getD (Vec.add (⟨abscissa (p :: l) (i + 1), ordinate (p :: l) (i + 1)⟩ : Vec ℝ)
        (Vec.sub ⟨abscissa (p :: l) (i + 1), ordinate (p :: l) (i + 1)⟩ ⟨abscissa (p :: l) i, ordinate (p :: l) i⟩)) =
        if i + 2 < (p :: l).length then ⟨abscissa (p :: l) (i + 2), ordinate (p :: l) (i + 2)⟩ else
        (⟨abscissa (p :: l) (i + 1) + (abscissa (p :: l) (i + 1) - abscissa (p :: l) i),
          ordinate (p :: l) (i + 1) + (ordinate (p :: l) (i + 1) - ordinate (p :: l) i)⟩ : Vec ℝ) := by
      by_cases h2 : i + 2 < (p :: l).length
      · rw [if_pos h2, hget _ h2]
        rfl
      · rw [if_neg h2, List.getElem?_eq_none (by omega)]
        rfl
    rw [e] at key
    exact key

theorem catmullPoint_eq (a b c d : Vec ℝ) (t : ℝ) :
    catmullPoint a b c d t = ⟨catmullCoord a.x b.x c.x d.x t, catmullCoord a.y b.y c.y d.y t⟩ := rfl

/-- The path of a Catmull slider has fifty lines for each pair of consecutive control points. They join the points, at fiftieths of the time, of
the cubic spline that goes through the control points with half the way between their neighbours as speed. -/
theorem C116_spline {fuel : Nat} {ps : List (Vec ℝ)} {lines : List (Linear ℝ)} (h : processType (D := ℝ) fuel ['C'] ps = .ok lines) :
    lines.length = 50 * (ps.length - 1) ∧ ∀ i : ℕ, i + 1 < ps.length →
      ∃ X Y : ℝ → ℝ, Spec.SplinePart (abscissa ps) ps.length i X ∧ Spec.SplinePart (ordinate ps) ps.length i Y ∧
        ∀ j : ℕ, j < 50 → lines[50 * i + j]? =
          some ⟨⟨X ((j : ℝ) / 50), Y ((j : ℝ) / 50)⟩, ⟨X (((j : ℝ) + 1) / 50), Y (((j : ℝ) + 1) / 50)⟩⟩ := by
  constructor
  · have h : (Except.ok (processCatmull ps) : Result _) = .ok lines := h
    cases h
    cases ps with
    | nil => rfl
    | cons p l => exact processCatmullLoop_length _ _
  · intro i hi
    refine ⟨_, _, catmull_part (abscissa ps) ps.length i hi, catmull_part (ordinate ps) ps.length i hi, fun j hj => ?_⟩
    obtain ⟨p4, h4, hl⟩ := catmull_lines h hi
    rw [hl j hj, h4]
    push_cast
    by_cases h2 : i + 2 < ps.length <;> simp only [h2, if_true, if_false, catmullPoint_eq]

/-- There is only one such spline, and at the control points its parts join with equal position and speed. -/
theorem C116_smooth {p : ℕ → ℝ} {n i : ℕ} {f g : ℝ → ℝ} (hf : Spec.SplinePart p n i f) :
    (Spec.SplinePart p n i g → f = g) ∧
      (Spec.SplinePart p n (i + 1) g → f 1 = g 0 ∧ ∃ v, HasDerivAt f v 1 ∧ HasDerivAt g v 0) :=
  ⟨hf.unique, fun hg => ⟨hf.stop.trans hg.start.symm, _, hf.arrives, hg.leaves⟩⟩

/-- The lines stay close to the spline: within 0.0003 times the width of the control points in each coordinate (0.2 px for a slider
of the size of the screen). -/
theorem C116_accuracy {fuel : Nat} {ps : List (Vec ℝ)} {lines : List (Linear ℝ)} (h : processType (D := ℝ) fuel ['C'] ps = .ok lines)
    {w : ℝ} (hx : ∀ a ∈ ps, ∀ b ∈ ps, |a.x - b.x| ≤ w) (hy : ∀ a ∈ ps, ∀ b ∈ ps, |a.y - b.y| ≤ w)
    {i : ℕ} (hi : i + 1 < ps.length) {X Y : ℝ → ℝ} (hX : Spec.SplinePart (abscissa ps) ps.length i X)
    (hY : Spec.SplinePart (ordinate ps) ps.length i Y) {t : ℝ} (ht : 0 ≤ t) (ht1 : t ≤ 1) :
    ∃ line ∈ lines, ∃ s : ℝ, 0 ≤ s ∧ s ≤ 1 ∧ |X t - (line.p1.x + (line.p2.x - line.p1.x) * s)| ≤ 3 / 10000 * w ∧
      |Y t - (line.p1.y + (line.p2.y - line.p1.y) * s)| ≤ 3 / 10000 * w := by
  obtain ⟨-, hs⟩ := C116_spline h
  obtain ⟨X', Y', hX', hY', hl⟩ := hs i hi
  obtain rfl := hX.unique hX'
  obtain rfl := hY.unique hY'
  -- the line at this time
  obtain ⟨j, hj, h0, h1⟩ : ∃ j : ℕ, j < 50 ∧ (j : ℝ) / 50 ≤ t ∧ t ≤ ((j : ℝ) + 1) / 50 := by
    by_cases h1 : t = 1
    · exact ⟨49, by norm_num, by rw [h1]; norm_num, by rw [h1]; norm_num⟩
    · have hlt : t < 1 := lt_of_le_of_ne ht1 h1
      refine ⟨⌊50 * t⌋₊, ?_, ?_, ?_⟩
      · rw [Nat.floor_lt (by linarith)]
        push_cast
        linarith
      · have := Nat.floor_le (show 0 ≤ 50 * t by linarith)
        linarith
      · have := Nat.lt_floor_add_one (50 * t)
        linarith
  have hmem := List.mem_of_getElem? (hl j hj)
  refine ⟨_, hmem, 50 * t - j, by linarith, by linarith, ?_, ?_⟩
  · refine spline_near hi (fun k hk l hl => ?_) hX hj h0 h1
    unfold abscissa
    rw [List.getD_eq_getElem _ _ hk, List.getD_eq_getElem _ _ hl]
    exact hx _ (List.getElem_mem hk) _ (List.getElem_mem hl)
  · refine spline_near hi (fun k hk l hl => ?_) hY hj h0 h1
    unfold ordinate
    rw [List.getD_eq_getElem _ _ hk, List.getD_eq_getElem _ _ hl]
    exact hy _ (List.getElem_mem hk) _ (List.getElem_mem hl)

/-! A Catmull slider along two sides of a square: the path swings out to the other side of the first one. -/

noncomputable def bentPoints : List (Vec ℝ) := [⟨0, 0⟩, ⟨100, 0⟩, ⟨100, 100⟩]

example (fuel : Nat) : ∃ lines, processType (D := ℝ) fuel ['C'] bentPoints = .ok lines ∧ lines.length = 100 ∧
    (lines[25]?).map Linear.p1 = some (⟨50, -(25 / 4)⟩ : Vec ℝ) := by
  refine ⟨_, rfl, processCatmullLoop_length _ _, ?_⟩
  have h := processCatmullLoop_get 0 bentPoints ⟨0, 0⟩ ⟨0, 0⟩ ⟨0, 0⟩ ⟨100, 0⟩ 25 (by norm_num) rfl rfl rfl
  rw [show processCatmull bentPoints = processCatmullLoop ⟨0, 0⟩ bentPoints from rfl, show 25 = 50 * 0 + 25 from rfl, h]
  show some (catmullPoint (⟨0, 0⟩ : Vec ℝ) ⟨0, 0⟩ ⟨100, 0⟩ ⟨100, 100⟩ _) = _
  simp only [catmullPoint_eq, catmullCoord_real]
  norm_num

example : (∀ a ∈ bentPoints, ∀ b ∈ bentPoints, |a.x - b.x| ≤ 100) ∧ (∀ a ∈ bentPoints, ∀ b ∈ bentPoints, |a.y - b.y| ≤ 100) ∧
    Spec.speed (abscissa bentPoints) 3 0 = 50 ∧ Spec.speed (abscissa bentPoints) 3 1 = 50 ∧ Spec.speed (ordinate bentPoints) 3 2 = 100 := by
  refine ⟨?_, ?_, ?_, ?_, ?_⟩
  · simp [bentPoints, abs_le]
  · simp [bentPoints, abs_le]
  all_goals simp [Spec.speed, abscissa, ordinate, bentPoints]; try norm_num

end GosuPP
