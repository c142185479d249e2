import Verif.Spec.Enlarged
import Verif.Lemmas.Rating
import Verif.Lemmas.Pi
import Mathlib.Analysis.Complex.Angle

/-!
# Larger jumps add no less to the strains
-/

namespace GosuPP.Exactly
open Go Spec

section
variable {c c' r k : ℝ} {x x' : ℕ → Note}

theorem goPi_lt : goPi < Real.pi := piConst_lt_pi

/-- The angle between two vectors, by lengths. -/
theorem arg_lengths {k : ℝ} (hk : 0 < k) {z w z' w' : ℂ} (hz : ‖z'‖ = k * ‖z‖) (hw : ‖w'‖ = k * ‖w‖) (hd : ‖z' - w'‖ = k * ‖z - w‖) :
    |Complex.arg (z' / w')| = |Complex.arg (z / w)| := by
  have zero : ∀ {a a' : ℂ}, ‖a'‖ = k * ‖a‖ → (a' = 0 ↔ a = 0) := by
    intro a a' h
    rw [← norm_eq_zero (a := a'), h, mul_eq_zero, norm_eq_zero]
    exact ⟨fun h => h.resolve_left hk.ne', .inr⟩
  by_cases h1 : z = 0
  · rw [h1, (zero hz).mpr h1, zero_div, zero_div]
  by_cases h2 : w = 0
  · rw [h2, (zero hw).mpr h2, div_zero, div_zero]
  rw [← Complex.angle_eq_abs_arg h1 h2, ← Complex.angle_eq_abs_arg (mt (zero hz).mp h1) (mt (zero hw).mp h2)]
  unfold InnerProductGeometry.angle
  congr 1
  have e1 := norm_sub_sq_real z w
  have e2 := norm_sub_sq_real z' w'
  rw [hz, hw, hd] at e2
  have e3 : inner ℝ z' w' = k ^ 2 * inner ℝ z w := by nlinarith
  rw [e3, hz, hw]
  have : k * ‖z‖ * (k * ‖w‖) = k ^ 2 * (‖z‖ * ‖w‖) := by ring
  rw [this, mul_div_mul_left _ _ (pow_pos hk 2).ne']

theorem enlarged_moves (h : Enlarged k x x') (n : ℕ) : Moves x' n ↔ Moves x n := by
  unfold Moves
  rw [h.spinner, h.spinner]

theorem enlarged_leave (h : Enlarged k x x') (i : ℕ) : (x i).leave = (x i).head ∧ (x' i).leave = (x' i).head := by
  unfold Note.leave
  rw [h.plain, h.plain']
  exact ⟨rfl, rfl⟩

theorem enlarged_gap (h : Enlarged k x x') (n : ℕ) : gap r x' n = gap r x n := by
  unfold gap
  rw [h.time, h.time]

theorem enlarged_angle (hk : 0 < k) (h : Enlarged k x x') (n : ℕ) : angleAt x' n = angleAt x n := by
  unfold angleAt
  rw [h.spinner]
  simp only [enlarged_moves h, enlarged_leave h]
  split
  · congr 1
    refine arg_lengths hk (h.heads _ _) (h.heads _ _) ?_
    rw [sub_sub_sub_cancel_right, h.heads, sub_sub_sub_cancel_right]
  · rfl

theorem jumpLength_one_pos (hc : 0 < c) : 0 < jumpLength c 1 := by
  unfold jumpLength
  have : 0 < (if c < 30 then 1 + min (30 - c) 5 / 50 else (1 : ℝ)) := by
    split
    · rename_i h
      have : 0 ≤ min (30 - c) 5 := le_min (by linarith) (by norm_num)
      positivity
    · norm_num
  positivity

/-- The scale of jumps by which the second map is larger. -/
theorem enlarged_jump (hc : 0 < c) (h : Enlarged k x x') (n : ℕ) :
    jump c' x' n = k * jumpLength c' 1 / jumpLength c 1 * jump c x n := by
  unfold jump
  simp only [enlarged_moves h, enlarged_leave h]
  split
  · rw [h.heads, jumpLength_mul c' (_ * _), jumpLength_mul c ‖_‖]
    have := (jumpLength_one_pos hc).ne'
    field_simp
  · rw [mul_zero]

theorem plain_slide (h : ∀ i, (x i).slide = none) (n : ℕ) : slideTo x n = none := by
  unfold slideTo
  split
  · exact h _
  · rfl

theorem plain_velocity (h : ∀ i, (x i).slide = none) (b : Bool) (n : ℕ) : velocity c r x b n = jump c x n / gap r x n := by
  unfold velocity
  rw [plain_slide h]

theorem plain_pace (h : ∀ i, (x i).slide = none) (n : ℕ) : pace c r x n = jump c x n / gap r x n := by
  unfold pace slid
  rw [plain_slide h, add_zero]

theorem sin_sq_le {s t : ℝ} (hs : 0 ≤ s) (hst : s ≤ t) (ht : t ≤ 1) : Real.sin (goPi / 2 * s) ^ 2 ≤ Real.sin (goPi / 2 * t) ^ 2 := by
  have hp := goPi_pos
  have hl := goPi_lt
  have h1 : goPi / 2 * s ≤ goPi / 2 * t := mul_le_mul_of_nonneg_left hst (by linarith)
  have h2 : goPi / 2 * t ≤ Real.pi / 2 := by nlinarith
  have h0 : 0 ≤ goPi / 2 * s := mul_nonneg (by linarith) hs
  refine pow_le_pow_left₀ (Real.sin_nonneg_of_nonneg_of_le_pi h0 (by linarith [Real.pi_pos])) ?_ 2
  exact Real.sin_le_sin_of_le_of_le_pi_div_two (by linarith [Real.pi_pos]) h2 h1

theorem sharpAfter_le {θ θ' T J J' v v' : ℝ} (hT : 0 < T) (hv : 0 ≤ v) (hvv : v ≤ v') (hJ : J ≤ J') :
    0 ≤ sharpAfter θ θ' T J v ∧ sharpAfter θ θ' T J v ≤ sharpAfter θ θ' T J' v' := by
  have w1 := wideness_range θ
  have w2 := wideness_range θ'
  unfold sharpAfter
  split
  · exact ⟨le_rfl, le_rfl⟩
  · have hq : 0 ≤ 125 / T := by positivity
    refine ⟨mul_nonneg (by linarith) (mul_nonneg (mul_nonneg (mul_nonneg (by linarith) (le_min hv hq)) (sq_nonneg _)) (sq_nonneg _)), ?_⟩
    refine mul_le_mul_of_nonneg_left ?_ (by linarith)
    refine mul_le_mul (mul_le_mul_of_nonneg_right (mul_le_mul_of_nonneg_left (min_le_min_right _ hvv) (by linarith)) (sq_nonneg _)) ?_
      (sq_nonneg _) (mul_nonneg (mul_nonneg (by linarith) (le_min (hv.trans hvv) hq)) (sq_nonneg _))
    rw [mul_div_assoc, mul_div_assoc]
    refine sin_sq_le ?_ ?_ ?_
    · have : (50 : ℝ) ≤ min 100 (max 50 J) := le_min (by norm_num) (le_max_left _ _)
      exact div_nonneg (by linarith) (by norm_num)
    · have : min 100 (max 50 J) ≤ min 100 (max 50 J') := min_le_min_left _ (max_le_max_left _ hJ)
      exact div_le_div_of_nonneg_right (by linarith) (by norm_num)
    · have : min 100 (max 50 J') ≤ 100 := min_le_left _ _
      rw [div_le_one (by norm_num)]
      linarith

theorem turns_enlarged (hc0 : 0 < c) (hk : 0 < k) (h : Enlarged k x x') {q : ℝ} (hq : 1 ≤ q)
    (hj : ∀ n, jump c' x' n = q * jump c x n) (b : Bool) (n : ℕ) :
    (turnsAt c r x b n).1 ≤ (turnsAt c' r x' b n).1 ∧ (turnsAt c r x b n).2 ≤ (turnsAt c' r x' b n).2 := by
  have hv : 0 ≤ min (velocity c r x b n) (velocity c r x b (n - 1)) :=
    le_min (velocity_nonneg hc0 _ n) (velocity_nonneg hc0 _ _)
  have e : ∀ n, velocity c r x b n ≤ velocity c' r x' b n := by
    intro n
    rw [plain_velocity h.plain, plain_velocity h.plain', hj, enlarged_gap h]
    have hg := gap_ge (r := r) (x := x) n
    refine div_le_div_of_nonneg_right ?_ (by linarith)
    exact le_mul_of_one_le_left (jump_nonneg hc0 n) hq
  have hvv : min (velocity c r x b n) (velocity c r x b (n - 1)) ≤ min (velocity c' r x' b n) (velocity c' r x' b (n - 1)) :=
    min_le_min (e _) (e _)
  have hlev : Level r x' n ↔ Level r x n := by unfold Level; rw [enlarged_gap h, enlarged_gap h]
  have hjj : jump c x n ≤ jump c' x' n := by rw [hj]; exact le_mul_of_one_le_left (jump_nonneg hc0 n) hq
  have hg := gap_ge (r := r) (x := x) n
  unfold turnsAt
  rw [enlarged_angle hk h, enlarged_angle hk h, enlarged_angle hk h, enlarged_gap h]
  generalize min (velocity c r x b n) (velocity c r x b (n - 1)) = v at hv hvv ⊢
  generalize min (velocity c' r x' b n) (velocity c' r x' b (n - 1)) = v' at hvv ⊢
  split
  · rename_i θ θ' θ'' _ _ _
    have w1 := wideness_range θ
    by_cases hl : Level r x n
    · rw [if_pos hl, if_pos (hlev.mpr hl)]
      refine ⟨?_, ?_⟩
      · dsimp only
        unfold wideAfter
        have : min (wideness θ) (wideness θ' ^ 3) ≤ 1 := (min_le_left _ _).trans w1.2
        exact mul_le_mul_of_nonneg_left (mul_le_mul_of_nonneg_right hvv (by linarith)) w1.1
      · dsimp only
        obtain ⟨s0, s1⟩ := sharpAfter_le (θ := θ) (θ' := θ') (T := gap r x n) (by linarith) hv hvv hjj
        exact sharpRepeated_le s0 s1
    · rw [if_neg hl, if_neg (mt hlev.mp hl)]
      exact ⟨le_rfl, le_rfl⟩
  · exact ⟨le_rfl, le_rfl⟩

theorem change_enlarged (hc0 : 0 < c) (h : Enlarged k x x') {q : ℝ} (hq : 1 ≤ q) (hj : ∀ n, jump c' x' n = q * jump c x n)
    (b : Bool) (n : ℕ) : changeAt c r x b n ≤ changeAt c' r x' b n := by
  have q0 : 0 < q := by linarith
  have ev : ∀ n, velocity c' r x' b n = q * velocity c r x b n := by
    intro n
    rw [plain_velocity h.plain, plain_velocity h.plain', hj, enlarged_gap h, mul_div_assoc]
  have ep : ∀ n, pace c' r x' n = q * pace c r x n := by
    intro n
    rw [plain_pace h.plain, plain_pace h.plain', hj, enlarged_gap h, mul_div_assoc]
  unfold changeAt
  simp only [ev, ep, hj, enlarged_gap h, mul_eq_zero, q0.ne', false_or]
  split
  · exact le_rfl
  · have e1 : |q * pace c r x (n - 1) - q * pace c r x n| = q * |pace c r x (n - 1) - pace c r x n| := by
      rw [← mul_sub, abs_mul, abs_of_pos q0]
    have e2 : max (q * pace c r x (n - 1)) (q * pace c r x n) = q * max (pace c r x (n - 1)) (pace c r x n) :=
      (mul_max_of_nonneg _ _ q0.le).symm
    have e3 : min (q * jump c x n) (q * jump c x (n - 1)) = q * min (jump c x n) (jump c x (n - 1)) :=
      (mul_min_of_nonneg _ _ q0.le).symm
    rw [e1, e2, e3]
    have hd := abs_nonneg (pace c r x (n - 1) - pace c r x n)
    generalize |pace c r x (n - 1) - pace c r x n| = Δ at hd ⊢
    have hm : 0 ≤ min (jump c x n) (jump c x (n - 1)) := le_min (jump_nonneg hc0 _) (jump_nonneg hc0 _)
    generalize min (jump c x n) (jump c x (n - 1)) = m at hm ⊢
    generalize max (pace c r x (n - 1)) (pace c r x n) = p
    have e4 : goPi / 2 * (q * Δ) / (q * p) = goPi / 2 * Δ / p := by
      rw [show goPi / 2 * (q * Δ) = q * (goPi / 2 * Δ) by ring, mul_div_mul_left _ _ q0.ne']
    rw [e4]
    refine mul_le_mul_of_nonneg_right (mul_le_mul_of_nonneg_right ?_ (sq_nonneg _)) (sq_nonneg _)
    have hΔ : Δ ≤ q * Δ := le_mul_of_one_le_left hd hq
    refine max_le_max (min_le_min_left _ hΔ) (mul_le_mul hΔ ?_ (sq_nonneg _) (by positivity))
    refine sin_sq_le (le_min zero_le_one (by positivity)) (min_le_min_left _ ?_) (min_le_left _ _)
    exact div_le_div_of_nonneg_right (le_mul_of_one_le_left hm hq) (by norm_num)

/-- A larger map adds no less to the aim strain. -/
theorem aimHit_enlarged (hc0 : 0 < c) (hk : 0 < k) (h : Enlarged k x x') (hq : jumpLength c 1 ≤ k * jumpLength c' 1) (b : Bool) (n : ℕ) :
    aimHit c r x b n ≤ aimHit c' r x' b n := by
  have hp := jumpLength_one_pos hc0
  have hq' : 1 ≤ k * jumpLength c' 1 / jumpLength c 1 := by rwa [one_le_div hp]
  have hj := enlarged_jump (c' := c') hc0 h
  generalize k * jumpLength c' 1 / jumpLength c 1 = q at hq' hj
  unfold aimHit
  simp only [enlarged_moves h]
  split
  · obtain ⟨t1, t2⟩ := turns_enlarged (r := r) hc0 hk h hq' hj b n
    have t3 := change_enlarged (r := r) hc0 h hq' hj b n
    have t4 : velocity c r x b n ≤ velocity c' r x' b n := by
      rw [plain_velocity h.plain, plain_velocity h.plain', hj, enlarged_gap h]
      have hg := gap_ge (r := r) (x := x) n
      exact div_le_div_of_nonneg_right (le_mul_of_one_le_left (jump_nonneg hc0 n) hq') (by linarith)
    have t5 : slideBonus r x n = 0 ∧ slideBonus r x' n = 0 := by
      unfold slideBonus
      rw [plain_slide h.plain, plain_slide h.plain']
      exact ⟨rfl, rfl⟩
    rw [t5.1, t5.2]
    have : max (2 * (turnsAt c r x b n).2) (1.5 * (turnsAt c r x b n).1 + 0.75 * changeAt c r x b n) ≤
        max (2 * (turnsAt c' r x' b n).2) (1.5 * (turnsAt c' r x' b n).1 + 0.75 * changeAt c' r x' b n) :=
      max_le_max (by linarith) (by linarith)
    linarith
  · exact le_rfl

/-- Small circles make jumps longer. -/
theorem jumpLength_radius (hc' : 0 < c') (hcc : c' ≤ c) :
    jumpLength c 1 ≤ jumpLength c' 1 ∧ jumpLength c 1 * c ≤ jumpLength c' 1 * c' := by
  unfold jumpLength
  have hc : 0 < c := by linarith
  have hb : (if c < 30 then 1 + min (30 - c) 5 / 50 else (1 : ℝ)) ≤ (if c' < 30 then 1 + min (30 - c') 5 / 50 else 1) := by
    split
    · rw [if_pos (by linarith)]
      have : min (30 - c) 5 ≤ min (30 - c') 5 := min_le_min_right _ (by linarith)
      linarith
    · split
      · have : (0 : ℝ) ≤ min (30 - c') 5 := le_min (by linarith) (by norm_num)
        linarith
      · exact le_rfl
  have hb0 : (1 : ℝ) ≤ (if c < 30 then 1 + min (30 - c) 5 / 50 else (1 : ℝ)) := by
    split
    · have : (0 : ℝ) ≤ min (30 - c) 5 := le_min (by linarith) (by norm_num)
      linarith
    · exact le_rfl
  generalize (if c < 30 then 1 + min (30 - c) 5 / 50 else (1 : ℝ)) = b at hb hb0 ⊢
  generalize (if c' < 30 then 1 + min (30 - c') 5 / 50 else (1 : ℝ)) = b' at hb ⊢
  have hd : 50 / c ≤ 50 / c' := div_le_div_of_nonneg_left (by norm_num) hc' hcc
  have h0 : 0 < 50 / c' := by positivity
  refine ⟨?_, ?_⟩
  · rw [one_mul, one_mul]
    exact mul_le_mul hd hb (by linarith) h0.le
  · have e1 : 1 * (50 / c) * b * c = 50 * b := by field_simp
    have e2 : 1 * (50 / c') * b' * c' = 50 * b' := by field_simp
    rw [e1, e2]
    linarith

/-- A larger map with smaller circles adds no less to the flashlight strain. -/
theorem flashHit_enlarged (hc' : 0 < c') (hcc : c' ≤ c) (hk : 1 ≤ k) (h : Enlarged k x x') (n : ℕ) :
    flashHit c r x n ≤ flashHit c' r x' n := by
  have hc : 0 < c := by linarith
  have hk0 : 0 < k := by linarith
  obtain ⟨j1, j2⟩ := jumpLength_radius hc' hcc
  have hp := jumpLength_one_pos hc
  have hj := enlarged_jump (c' := c') hc h
  have er : ∀ n j, rememberedFor r x' n j = rememberedFor r x n j := by
    intro n j
    unfold rememberedFor
    simp only [h.spinner, enlarged_gap h]
  unfold flashHit
  rw [h.spinner]
  split
  · exact le_rfl
  · have s0 : 0 ≤ inSight x n := by
      unfold inSight
      split
      · positivity
      · norm_num
    have s1 : inSight x n ≤ inSight x' n := by
      unfold inSight
      rw [h.spinner, h.tails]
      split
      · refine min_le_min_left _ (div_le_div_of_nonneg_right (le_mul_of_one_le_left (norm_nonneg _) hk) (by norm_num))
      · exact le_rfl
    have r0 : ∀ j, 0 ≤ recall c r x n j := fun j => by
      unfold recall
      have := jump_nonneg (x := x) hc j
      have := remembered_nonneg (r := r) (x := x) n j
      positivity
    have r1 : ∀ j, recall c r x n j ≤ recall c' r x' n j := by
      intro j
      unfold recall
      rw [er, h.tails, hj]
      have := jump_nonneg (x := x) hc j
      have hm := remembered_nonneg (r := r) (x := x) n j
      refine div_le_div_of_nonneg_right ?_ hm
      have d1 : 52 / c ≤ 52 / c' := div_le_div_of_nonneg_left (by norm_num) hc' hcc
      refine mul_le_mul (mul_le_mul (mul_le_mul_of_nonneg_left (min_le_min_left _ ?_) (by positivity)) d1 (by positivity) ?_)
        (le_mul_of_one_le_left (norm_nonneg _) hk) (norm_nonneg _) ?_
      · refine div_le_div_of_nonneg_right ?_ (by norm_num)
        rw [div_div_eq_mul_div, div_div_eq_mul_div]
        refine div_le_div_of_nonneg_right ?_ (by norm_num)
        have : jump c x j * c = jump c x j / jumpLength c 1 * (jumpLength c 1 * c) := by field_simp
        rw [this]
        have : k * jumpLength c' 1 / jumpLength c 1 * jump c x j * c' = jump c x j / jumpLength c 1 * (k * (jumpLength c' 1 * c')) := by
          field_simp
        rw [this]
        refine mul_le_mul_of_nonneg_left ?_ (by positivity)
        have : 0 ≤ jumpLength c 1 * c := by positivity
        nlinarith
      · have := jumpLength_one_pos hc'
        positivity
      · have := jumpLength_one_pos hc'
        positivity
    refine pow_le_pow_left₀ (mul_nonneg s0 (Finset.sum_nonneg fun j _ => ?_)) ?_ 2
    · split
      · exact le_rfl
      · exact r0 j
    · refine mul_le_mul s1 (Finset.sum_le_sum fun j _ => ?_) (Finset.sum_nonneg fun j _ => ?_) (s0.trans s1)
      · rw [h.spinner]
        split
        · exact le_rfl
        · exact r1 j
      · split
        · exact le_rfl
        · exact r0 j

end

/-- Higher peaks do not lower the flashlight value. -/
theorem peakValue_le_flash [GoSort] {l l' : List ℝ} (h : List.Forall₂ NoMore (l.map some) (l'.map some)) (d : Difficulty (Option ℝ)) :
    peakValue 10 1 1.06 l ≤ peakValue 10 1 1.06 l' := by
  have e1 : (lit 1 : Option ℝ) = some 1 := by rw [Exact.lit]; norm_num
  have e6 : (lit 1.06 : Option ℝ) = some 1.06 := by rw [Exact.lit]; norm_num
  have hb : (Skill.newFlashlight d : Skill (Option ℝ) (Option ℝ)).reducedStrainBaseline = lit 0.75 := rfl
  have hw : (Skill.newFlashlight d : Skill (Option ℝ) (Option ℝ)).decayWeight = some 1 := e1
  have hm : (Skill.newFlashlight d : Skill (Option ℝ) (Option ℝ)).difficultyMultiplier = some 1.06 := e6
  have := value_atMost (sk := (Skill.newFlashlight d : Skill (Option ℝ) (Option ℝ)))
    (sk' := (Skill.newFlashlight d : Skill (Option ℝ) (Option ℝ)))
    (dw := 1) (m := 1.06) (by norm_num) (by norm_num) (show 0 < 10 by norm_num) hb hw hm rfl hb hw hm h
  rw [value_exact hb hw hm, value_exact hb hw hm] at this
  rcases this with ⟨h, -⟩ | ⟨a, b, h1, h2, -, h3⟩
  · cases h
  · rw [← Option.some.inj h1, ← Option.some.inj h2] at h3
    exact h3

theorem baseValue_le {s t : ℝ} (h : s ≤ t) : baseValue s ≤ baseValue t := by
  unfold baseValue
  have h1 : max 1 (s / 0.0675) ≤ max 1 (t / 0.0675) := max_le_max_left _ (div_le_div_of_nonneg_right h (by norm_num))
  have h2 : (1 : ℝ) ≤ max 1 (s / 0.0675) := le_max_left _ _
  refine div_le_div_of_nonneg_right (pow_le_pow_left₀ (by linarith) (by linarith) 3) (by norm_num)

/-- More stars for higher ratings. -/
theorem starsOf_le {a a' s s' f f' : ℝ} (ha : a ≤ a') (hs : s ≤ s') (hf0 : 0 ≤ f) (hf : f ≤ f') : starsOf a s f ≤ starsOf a' s' f' := by
  have b0 : ∀ y, 0 ≤ baseValue y := fun y => le_trans (by norm_num) (baseValue_ge y)
  unfold starsOf
  refine mul_le_mul_of_nonneg_left ?_ (by positivity)
  have h1 : baseValue a ^ (1.1 : ℝ) ≤ baseValue a' ^ (1.1 : ℝ) := Real.rpow_le_rpow (b0 _) (baseValue_le ha) (by norm_num)
  have h2 : baseValue s ^ (1.1 : ℝ) ≤ baseValue s' ^ (1.1 : ℝ) := Real.rpow_le_rpow (b0 _) (baseValue_le hs) (by norm_num)
  have h3 : (25 * f ^ 2) ^ (1.1 : ℝ) ≤ (25 * f' ^ 2) ^ (1.1 : ℝ) := by
    refine Real.rpow_le_rpow (by positivity) ?_ (by norm_num)
    exact mul_le_mul_of_nonneg_left (pow_le_pow_left₀ hf0 hf 2) (by norm_num)
  have p1 := Real.rpow_nonneg (b0 a) 1.1
  have p2 := Real.rpow_nonneg (b0 s) 1.1
  have p3 : 0 ≤ (25 * f ^ 2) ^ (1.1 : ℝ) := by positivity
  have h4 : (baseValue a ^ (1.1 : ℝ) + baseValue s ^ (1.1 : ℝ) + (25 * f ^ 2) ^ (1.1 : ℝ)) ^ (1 / 1.1 : ℝ) ≤
      (baseValue a' ^ (1.1 : ℝ) + baseValue s' ^ (1.1 : ℝ) + (25 * f' ^ 2) ^ (1.1 : ℝ)) ^ (1 / 1.1 : ℝ) :=
    Real.rpow_le_rpow (by linarith) (by linarith) (by norm_num)
  have p4 := Real.rpow_nonneg (by linarith : 0 ≤ baseValue a ^ (1.1 : ℝ) + baseValue s ^ (1.1 : ℝ) + (25 * f ^ 2) ^ (1.1 : ℝ)) (1 / 1.1)
  have h5 := Real.rpow_le_rpow (by positivity) (mul_le_mul_of_nonneg_left h4 (by positivity : (0 : ℝ) ≤ 100000 / (2 : ℝ) ^ (1 / 1.1 : ℝ)))
    (by norm_num : (0 : ℝ) ≤ 1 / 3)
  linarith

end GosuPP.Exactly
