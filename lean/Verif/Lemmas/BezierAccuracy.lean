import Verif.Lemmas.BezierReal
import Mathlib.RingTheory.Polynomial.Bernstein

/-! Distance of the points of a flattening from the curve, in exact arithmetic. -/

namespace GosuPP
open Go Approximator

theorem bern_sum (n : ℕ) (t : ℝ) :
    ∑ k ∈ Finset.range (n + 1), (n.choose k : ℝ) * (1 - t) ^ (n - k) * t ^ k = 1 := by
  have h := congrArg (Polynomial.eval t) (bernsteinPolynomial.sum ℝ n)
  rw [Polynomial.eval_finset_sum] at h
  rw [Polynomial.eval_one] at h
  refine Eq.trans ?_ h
  apply Finset.sum_congr rfl
  intro k _
  simp [bernsteinPolynomial]
  ring

theorem bern_mean (n : ℕ) (t : ℝ) :
    ∑ k ∈ Finset.range (n + 1), (n.choose k : ℝ) * (1 - t) ^ (n - k) * t ^ k * k = n * t := by
  have h := congrArg (Polynomial.eval t) (bernsteinPolynomial.sum_smul ℝ n)
  rw [Polynomial.eval_finset_sum] at h
  have e : Polynomial.eval t (n • (Polynomial.X : Polynomial ℝ)) = n * t := by simp
  rw [e] at h
  rw [← h]
  apply Finset.sum_congr rfl
  intro k _
  simp [bernsteinPolynomial]
  ring

theorem bern_var (n : ℕ) (t : ℝ) :
    ∑ k ∈ Finset.range (n + 1), (n.choose k : ℝ) * (1 - t) ^ (n - k) * t ^ k * (k - n * t) ^ 2 =
      n * t * (1 - t) := by
  have h := congrArg (Polynomial.eval t) (bernsteinPolynomial.variance ℝ n)
  rw [Polynomial.eval_finset_sum] at h
  have e : Polynomial.eval t (n • (Polynomial.X : Polynomial ℝ) * (1 - Polynomial.X)) = n * t * (1 - t) := by simp
  rw [e] at h
  rw [← h]
  apply Finset.sum_congr rfl
  intro k _
  simp [bernsteinPolynomial]
  ring

/-- A sequence with small second differences stays near its tangent, to the right. -/
theorem tangent_right {p : ℕ → ℝ} {n m : ℕ} {M s : ℝ} (h : ∀ k, k + 2 ≤ n → |diff2 p k| ≤ M)
    (h1 : |p (m + 1) - p m - s| ≤ M / 2) (i : ℕ) (hi : m + i + 1 ≤ n) :
    |p (m + i + 1) - p (m + i) - s| ≤ M * (i + 1 / 2) ∧ |p (m + i) - p m - i * s| ≤ M * i ^ 2 / 2 := by
  induction i with
  | zero =>
    refine ⟨by simpa using (by linarith : |p (m + 1) - p m - s| ≤ M * (1 / 2)), by simp⟩
  | succ i ih =>
    obtain ⟨ha, hb⟩ := ih (by omega)
    have hd := abs_le.mp (h (m + i) (by omega))
    unfold diff2 at hd
    have ha' := abs_le.mp ha
    have hb' := abs_le.mp hb
    have e1 : m + (i + 1) + 1 = m + i + 2 := by omega
    have e2 : m + (i + 1) = m + i + 1 := by omega
    rw [e1, e2]
    push_cast
    constructor
    · rw [abs_le]; constructor <;> nlinarith
    · rw [abs_le]; constructor <;> nlinarith

theorem tangent_right' {p : ℕ → ℝ} {n m : ℕ} {M s : ℝ} (h : ∀ k, k + 2 ≤ n → |diff2 p k| ≤ M)
    (h1 : |p (m + 1) - p m - s| ≤ M / 2) (i : ℕ) (hi : m + i ≤ n) :
    |p (m + i) - p m - i * s| ≤ M * i ^ 2 / 2 := by
  cases i with
  | zero => simp
  | succ i =>
    obtain ⟨ha, hb⟩ := tangent_right h h1 i (by omega)
    have ha' := abs_le.mp ha
    have hb' := abs_le.mp hb
    have e2 : m + (i + 1) = m + i + 1 := by omega
    rw [e2]
    push_cast
    rw [abs_le]
    constructor <;> nlinarith

/-- A sequence with small second differences stays near its tangent at an inner index. -/
theorem tangent {p : ℕ → ℝ} {n m : ℕ} {M : ℝ} (h : ∀ k, k + 2 ≤ n → |diff2 p k| ≤ M)
    (hm : 1 ≤ m) (hmn : m + 1 ≤ n) (j : ℕ) (hj : j ≤ n) :
    |p j - p m - ((j : ℝ) - m) * ((p (m + 1) - p (m - 1)) / 2)| ≤ M * ((j : ℝ) - m) ^ 2 / 2 := by
  have hd := abs_le.mp (h (m - 1) (by omega))
  unfold diff2 at hd
  have e1 : m - 1 + 1 = m := by omega
  have e2 : m - 1 + 2 = m + 1 := by omega
  rw [e1, e2] at hd
  by_cases hjm : m ≤ j
  · obtain ⟨i, rfl⟩ : ∃ i, j = m + i := ⟨j - m, by omega⟩
    have := tangent_right' (s := (p (m + 1) - p (m - 1)) / 2) h (by
      rw [abs_le]; constructor <;> linarith) i hj
    have e : ((m + i : ℕ) : ℝ) - m = i := by push_cast; ring
    rw [e]
    exact this
  · obtain ⟨i, rfl⟩ : ∃ i, m = j + i := ⟨m - j, by omega⟩
    have hr : ∀ k, k + 2 ≤ n → |diff2 (fun k => p (n - k)) k| ≤ M := by
      intro k hk
      have := h (n - k - 2) (by omega)
      unfold diff2 at this ⊢
      have e1 : n - k - 2 + 1 = n - (k + 1) := by omega
      have e2 : n - k - 2 + 2 = n - k := by omega
      have e3 : n - k - 2 = n - (k + 2) := by omega
      rw [e1, e2, e3] at this
      have e4 : p (n - k) - 2 * p (n - (k + 1)) + p (n - (k + 2)) =
          p (n - (k + 2)) - 2 * p (n - (k + 1)) + p (n - k) := by ring
      rw [e4]
      exact this
    have := tangent_right' (p := fun k => p (n - k)) (m := n - (j + i))
      (s := (p (j + i - 1) - p (j + i + 1)) / 2) hr (by
        have e1 : n - (n - (j + i) + 1) = j + i - 1 := by omega
        have e2 : n - (n - (j + i)) = j + i := by omega
        simp only [e1, e2]
        rw [abs_le]; constructor <;> linarith) i (by omega)
    have e1 : n - (n - (j + i) + i) = j := by omega
    have e2 : n - (n - (j + i)) = j + i := by omega
    simp only [e1, e2] at this
    have e3 : (j : ℝ) - ((j + i : ℕ) : ℝ) = -i := by push_cast; ring
    rw [e3]
    have e4 : p j - p (j + i) - -(i : ℝ) * ((p (j + i + 1) - p (j + i - 1)) / 2) =
        p j - p (j + i) - i * ((p (j + i - 1) - p (j + i + 1)) / 2) := by ring
    rw [e4]
    simpa using this

/-- A control value is near the curve at the corresponding parameter. -/
theorem control_near {p : ℕ → ℝ} {n m : ℕ} {M : ℝ} (h : ∀ k, k + 2 ≤ n → |diff2 p k| ≤ M) (hM : 0 ≤ M)
    (hm : 1 ≤ m) (hmn : m + 1 ≤ n) :
    |p m - Spec.bernstein n p ((m : ℝ) / n)| ≤ M * n / 8 := by
  have hn : (0 : ℝ) < n := by exact_mod_cast (by omega : 0 < n)
  set t : ℝ := (m : ℝ) / n with ht
  have hnt : (n : ℝ) * t = m := by rw [ht]; field_simp
  have ht0 : 0 ≤ t := by positivity
  have ht1 : t ≤ 1 := by
    rw [ht, div_le_one hn]
    exact_mod_cast (by omega : m ≤ n)
  set s : ℝ := (p (m + 1) - p (m - 1)) / 2 with hs
  set w : ℕ → ℝ := fun k => (n.choose k : ℝ) * (1 - t) ^ (n - k) * t ^ k with hw
  have hw0 : ∀ k, 0 ≤ w k := by
    intro k
    have : 0 ≤ 1 - t := by linarith
    positivity
  have hsum : ∑ k ∈ Finset.range (n + 1), w k = 1 := bern_sum n t
  have hmean : ∑ k ∈ Finset.range (n + 1), w k * k = m := by rw [← hnt]; exact bern_mean n t
  have hvar : ∑ k ∈ Finset.range (n + 1), w k * (k - m) ^ 2 = n * t * (1 - t) := by
    rw [← bern_var n t]
    apply Finset.sum_congr rfl
    intro k _
    rw [hnt]
  have e : Spec.bernstein n p t - p m =
      ∑ k ∈ Finset.range (n + 1), w k * (p k - p m - ((k : ℝ) - m) * s) := by
    have h1 : ∑ k ∈ Finset.range (n + 1), w k * (p k - p m - ((k : ℝ) - m) * s) =
        ∑ k ∈ Finset.range (n + 1), w k * p k - p m * ∑ k ∈ Finset.range (n + 1), w k -
          s * (∑ k ∈ Finset.range (n + 1), w k * k - m * ∑ k ∈ Finset.range (n + 1), w k) := by
      simp only [Finset.mul_sum, ← Finset.sum_sub_distrib]
      apply Finset.sum_congr rfl
      intro k _
      ring
    rw [h1, hsum, hmean]
    have : Spec.bernstein n p t = ∑ k ∈ Finset.range (n + 1), w k * p k := rfl
    rw [this]
    ring
  rw [abs_sub_comm, e]
  calc |∑ k ∈ Finset.range (n + 1), w k * (p k - p m - ((k : ℝ) - m) * s)|
      ≤ ∑ k ∈ Finset.range (n + 1), |w k * (p k - p m - ((k : ℝ) - m) * s)| := Finset.abs_sum_le_sum_abs _ _
    _ ≤ ∑ k ∈ Finset.range (n + 1), w k * (M * ((k : ℝ) - m) ^ 2 / 2) := by
        apply Finset.sum_le_sum
        intro k hk
        rw [abs_mul, abs_of_nonneg (hw0 k)]
        apply mul_le_mul_of_nonneg_left _ (hw0 k)
        exact tangent h hm hmn k (by simpa [Nat.lt_succ_iff] using hk)
    _ = M / 2 * ∑ k ∈ Finset.range (n + 1), w k * ((k : ℝ) - m) ^ 2 := by
        rw [Finset.mul_sum]
        apply Finset.sum_congr rfl
        intro k _
        ring
    _ = M / 2 * (n * t * (1 - t)) := by rw [hvar]
    _ ≤ M * n / 8 := by
        have : t * (1 - t) ≤ 1 / 4 := by nlinarith [sq_nonneg (t - 1 / 2)]
        have h2 : (n : ℝ) * (t * (1 - t)) ≤ n * (1 / 4) := mul_le_mul_of_nonneg_left this hn.le
        nlinarith

theorem smallDiff_of_flat {cps : List (Vec ℝ)} (h : Spec.flat cps) : SmallDiff (1 / 2) cps := by
  intro k hk
  have h0 : k < cps.length := by omega
  have h1 : k + 1 < cps.length := by omega
  have h2 : k + 2 < cps.length := by omega
  have := h k _ _ _ (List.getElem?_eq_getElem h0) (List.getElem?_eq_getElem h1) (List.getElem?_eq_getElem h2)
  have hle := fun hh => Bool.eq_false_iff.mp this ((RealArith.lt _ _).mpr hh)
  have hle := not_lt.mp hle
  have e : (Vec.add (Vec.sub cps[k] (Vec.scl cps[k + 1] (lit 2))) cps[k + 2]).lenSq =
      (cps[k].x - 2 * cps[k + 1].x + cps[k + 2].x) * (cps[k].x - 2 * cps[k + 1].x + cps[k + 2].x) +
      (cps[k].y - 2 * cps[k + 1].y + cps[k + 2].y) * (cps[k].y - 2 * cps[k + 1].y + cps[k + 2].y) := by
    show (cps[k].x - cps[k + 1].x * (lit 2 : ℝ) + cps[k + 2].x) * (cps[k].x - cps[k + 1].x * (lit 2 : ℝ) + cps[k + 2].x) +
      (cps[k].y - cps[k + 1].y * (lit 2 : ℝ) + cps[k + 2].y) * (cps[k].y - cps[k + 1].y * (lit 2 : ℝ) + cps[k + 2].y) = _
    rw [RealArith.lit]
    push_cast
    ring
  rw [e, RealArith.lit] at hle
  have h4 : ((0.25 : ℚ) : ℝ) = 1 / 4 := by norm_num
  rw [h4] at hle
  unfold diff2
  simp only [List.getD_eq_getElem?_getD, List.getElem?_eq_getElem h0, List.getElem?_eq_getElem h1,
    List.getElem?_eq_getElem h2, Option.getD_some]
  constructor
  · apply abs_le_of_sq_le_sq _ (by norm_num)
    nlinarith [mul_self_nonneg (cps[k].y - 2 * cps[k + 1].y + cps[k + 2].y)]
  · apply abs_le_of_sq_le_sq _ (by norm_num)
    nlinarith [mul_self_nonneg (cps[k].x - 2 * cps[k + 1].x + cps[k + 2].x)]

/-- Control values of both halves in a row. -/
noncomputable def joined (n : ℕ) (p : ℕ → ℝ) (m : ℕ) : ℝ :=
  if m ≤ n then (avgE ^ m) p 0 else (avgE ^ (n - (m - n))) p (m - n)

theorem joined_near {n : ℕ} {p : ℕ → ℝ} {M : ℝ} (h : ∀ k, k + 2 ≤ n → |diff2 p k| ≤ M) (hM : 0 ≤ M) {m : ℕ}
    (hm : 1 ≤ m) (hmn : m + 1 ≤ 2 * n) :
    |joined n p m - Spec.bernstein n p ((m : ℝ) / (2 * n))| ≤ M * n / 32 := by
  have hn0 : 0 < n := by omega
  have hn : (0 : ℝ) < n := by exact_mod_cast hn0
  unfold joined
  rcases Nat.lt_trichotomy m n with hlt | heq | hgt
  · rw [if_pos hlt.le]
    have := control_near (diff2_left h) (by linarith : 0 ≤ M / 4) hm (by omega)
    rw [bernstein_left] at this
    have e : (m : ℝ) / n / 2 = m / (2 * n) := by field_simp
    rw [e] at this
    calc _ ≤ M / 4 * n / 8 := this
      _ = M * n / 32 := by ring
  · subst heq
    rw [if_pos (le_refl _)]
    have h1 := bernstein_left m p 1
    have e : (m : ℝ) / (2 * m) = 1 / 2 := by field_simp
    rw [e, ← h1]
    have h2 : Spec.bernstein m (fun k => (avgE ^ k) p 0) 1 = (avgE ^ m) p 0 := by
      rw [bernstein_eq, sub_self, zero_smul, zero_add, one_smul, shiftE_pow, zero_add]
    rw [h2]
    simp only [sub_self, abs_zero]
    positivity
  · rw [if_neg (by omega)]
    have := control_near (diff2_right h) (by linarith : 0 ≤ M / 4) (m := m - n) (by omega) (by omega)
    rw [bernstein_right] at this
    have e : (1 + ((m - n : ℕ) : ℝ) / n) / 2 = m / (2 * n) := by
      rw [Nat.cast_sub hgt.le]
      field_simp
      ring
    rw [e] at this
    calc _ ≤ M / 4 * n / 8 := this
      _ = M * n / 32 := by ring

theorem joined_diff2 {n : ℕ} {p : ℕ → ℝ} {M : ℝ} (h : ∀ k, k + 2 ≤ n → |diff2 p k| ≤ M) (hM : 0 ≤ M) {m : ℕ}
    (hmn : m + 2 ≤ 2 * n) : |diff2 (joined n p) m| ≤ M / 4 := by
  rcases Nat.lt_trichotomy (m + 1) n with hlt | heq | hgt
  · have := diff2_left h m (by omega)
    unfold diff2 at this ⊢
    unfold joined
    rw [if_pos (by omega), if_pos (by omega), if_pos (by omega)]
    exact this
  · unfold diff2 joined
    rw [if_pos (by omega), if_pos (by omega), if_neg (by omega)]
    have e1 : n - (m + 2 - n) = m := by omega
    have e2 : m + 2 - n = 0 + 1 := by omega
    rw [e1, e2, avgE_pow_succ]
    have e : (avgE ^ m) p 0 - 2 * (((avgE ^ m) p 0 + (avgE ^ m) p (0 + 1)) * (1 / 2)) + (avgE ^ m) p (0 + 1) = 0 := by
      ring
    rw [e, abs_zero]
    linarith
  · have := diff2_right h (m - n) (by omega)
    unfold diff2 at this ⊢
    unfold joined
    have e1 : m - n + 1 = m + 1 - n := by omega
    have e2 : m - n + 2 = m + 2 - n := by omega
    beta_reduce at this
    rw [e1, e2] at this
    rw [if_neg (by omega : ¬ m + 1 ≤ n), if_neg (by omega : ¬ m + 2 ≤ n)]
    by_cases hmn' : m ≤ n
    · have hmn'' : m = n := by omega
      subst hmn''
      rw [if_pos (le_refl _)]
      simpa using this
    · rw [if_neg hmn']
      exact this

theorem quarter_cast : (lit 0.25 : ℝ) = 1 / 4 := by
  rw [RealArith.lit]
  norm_num

/-- The smoothed values are near the curve. -/
theorem smoothed_near {n : ℕ} {p : ℕ → ℝ} (h : ∀ k, k + 2 ≤ n → |diff2 p k| ≤ 1 / 2) {i : ℕ}
    (hi : i + 2 ≤ n) :
    |(joined n p (2 * i + 1) + joined n p (2 * i + 2) * 2 + joined n p (2 * i + 3)) * (1 / 4) -
      Spec.bernstein n p (((i + 1 : ℕ) : ℝ) / n)| ≤ ((n : ℝ) + 2) / 64 := by
  have h1 := abs_le.mp (joined_near h (by norm_num) (m := 2 * i + 2) (by omega) (by omega))
  have h2 := abs_le.mp (joined_diff2 h (by norm_num) (m := 2 * i + 1) (by omega))
  unfold diff2 at h2
  have e : ((2 * i + 2 : ℕ) : ℝ) / (2 * n) = ((i + 1 : ℕ) : ℝ) / n := by
    have : (0 : ℝ) < n := by exact_mod_cast (by omega : 0 < n)
    push_cast
    field_simp
  rw [e] at h1
  rw [abs_le]
  constructor <;> linarith [h1.1, h1.2, h2.1, h2.2]

theorem joined_getD {cps : List (Vec ℝ)} (hne : cps ≠ []) {m : ℕ} (hm : m ≤ 2 * (cps.length - 1)) :
    ((Spec.leftHalf cps ++ (Spec.rightHalf cps).tail).getD m Vec.zero) =
      ⟨joined (cps.length - 1) (fun k => (cps.getD k Vec.zero).x) m,
       joined (cps.length - 1) (fun k => (cps.getD k Vec.zero).y) m⟩ := by
  have hpos : 0 < cps.length := List.length_pos_iff.mpr hne
  unfold joined
  by_cases h : m ≤ cps.length - 1
  · rw [if_pos h, if_pos h, List.getD_eq_getElem?_getD,
      List.getElem?_append_left (by rw [leftHalf_length]; omega), ← List.getD_eq_getElem?_getD,
      leftHalf_getD cps (by omega), ← triangle_x, ← triangle_y]
  · rw [if_neg h, if_neg h, List.getD_eq_getElem?_getD,
      List.getElem?_append_right (by rw [leftHalf_length]; omega), leftHalf_length, List.getElem?_tail,
      ← List.getD_eq_getElem?_getD]
    have e : m - cps.length + 1 = m - (cps.length - 1) := by omega
    rw [e, rightHalf_getD cps (by omega), ← triangle_x, ← triangle_y]

theorem bezier_zero {cps : List (Vec ℝ)} : Spec.bezier cps 0 = cps.getD 0 Vec.zero := by
  unfold Spec.bezier
  rw [bernstein_eq, bernstein_eq]
  simp

theorem bezier_one {cps : List (Vec ℝ)} (hne : cps ≠ []) : Spec.bezier cps 1 = cps.getLast hne := by
  have hpos : 0 < cps.length := List.length_pos_iff.mpr hne
  have h : ∀ (n : ℕ) (p : ℕ → ℝ), Spec.bernstein n p 1 = p n := by
    intro n p
    rw [bernstein_eq, sub_self, zero_smul, zero_add, one_smul, shiftE_pow, zero_add]
  unfold Spec.bezier
  rw [h, h, List.getLast_eq_getElem, List.getD_eq_getElem?_getD, List.getElem?_eq_getElem (by omega)]
  rfl

/-- Point `j` of a flat piece is near the curve at `j / n`. -/
theorem pieces_near {cps : List (Vec ℝ)} (hne : cps ≠ []) (hf : Spec.flat cps) :
    ∀ q ∈ Spec.pieces cps, ∃ t, 0 ≤ t ∧ t ≤ 1 ∧
      |q.x - (Spec.bezier cps t).x| ≤ ((cps.length : ℝ) + 1) / 64 ∧
      |q.y - (Spec.bezier cps t).y| ≤ ((cps.length : ℝ) + 1) / 64 := by
  have hpos : 0 < cps.length := List.length_pos_iff.mpr hne
  have hx := fun k hk => (smallDiff_of_flat hf k hk).1
  have hy := fun k hk => (smallDiff_of_flat hf k hk).2
  have hnn : (0 : ℝ) ≤ ((cps.length : ℝ) + 1) / 64 := by positivity
  intro q hq
  unfold Spec.pieces at hq
  simp only at hq
  rcases List.mem_append.mp hq with hq | hq
  · refine ⟨0, le_refl _, by norm_num, ?_⟩
    have : q = cps.getD 0 Vec.zero := by
      cases cps with
      | nil => exact absurd rfl hne
      | cons a t => simpa using hq
    rw [bezier_zero, ← this]
    simp only [sub_self, abs_zero]
    exact ⟨hnn, hnn⟩
  · obtain ⟨i, hi, rfl⟩ := List.mem_map.mp hq
    have hi : i < cps.length - 2 := List.mem_range.mp hi
    have hn : (0 : ℝ) < ((cps.length - 1 : ℕ) : ℝ) := by exact_mod_cast (by omega : 0 < cps.length - 1)
    refine ⟨((i + 1 : ℕ) : ℝ) / ((cps.length - 1 : ℕ) : ℝ), by positivity, ?_, ?_, ?_⟩
    · rw [div_le_one hn]
      exact_mod_cast (by omega : i + 1 ≤ cps.length - 1)
    · have := smoothed_near hx (i := i) (by omega)
      have ec : ((cps.length - 1 : ℕ) : ℝ) + 2 = cps.length + 1 := by
        rw [Nat.cast_sub (by omega)]
        push_cast
        ring
      rw [ec] at this
      rw [joined_getD hne (by omega), joined_getD hne (by omega), joined_getD hne (by omega)]
      show |(_ + _ * (lit 2 : ℝ) + _) * (lit 0.25 : ℝ) - _| ≤ _
      rw [quarter_cast, RealArith.lit]
      push_cast at *
      exact this
    · have := smoothed_near hy (i := i) (by omega)
      have ec : ((cps.length - 1 : ℕ) : ℝ) + 2 = cps.length + 1 := by
        rw [Nat.cast_sub (by omega)]
        push_cast
        ring
      rw [ec] at this
      rw [joined_getD hne (by omega), joined_getD hne (by omega), joined_getD hne (by omega)]
      show |(_ + _ * (lit 2 : ℝ) + _) * (lit 0.25 : ℝ) - _| ≤ _
      rw [quarter_cast, RealArith.lit]
      push_cast at *
      exact this

theorem tiles_range {a b : ℝ} {l : List (ℝ × ℝ)} (h : Spec.Tiles a b l) :
    a ≤ b ∧ ∀ x ∈ l, a ≤ x.1 ∧ x.1 < x.2 ∧ x.2 ≤ b := by
  induction l generalizing a with
  | nil =>
    have : a = b := h
    exact ⟨this.le, fun x hx => by cases hx⟩
  | cons y l ih =>
    obtain ⟨u, v⟩ := y
    obtain ⟨h1, h2, h3⟩ := h
    obtain ⟨h4, h5⟩ := ih h3
    subst h1
    refine ⟨by linarith, fun x hx => ?_⟩
    rcases List.mem_cons.mp hx with rfl | hx
    · exact ⟨le_refl _, h2, h4⟩
    · obtain ⟨h6, h7, h8⟩ := h5 x hx
      exact ⟨by linarith, h7, h8⟩

end GosuPP
