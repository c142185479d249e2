import Verif.Lemmas.Bezier
import Verif.Spec.BezierReal
import Mathlib.Algebra.Module.LinearMap.End
import Mathlib.Data.Nat.Choose.Sum
import Mathlib.Tactic.Module

/-! Subdivision in exact arithmetic: the halves trace the same curve, and second differences shrink. -/

namespace GosuPP
open Go Approximator

/-- Shift of a sequence. -/
def shiftE : Module.End ℝ (ℕ → ℝ) where
  toFun p j := p (j + 1)
  map_add' _ _ := rfl
  map_smul' _ _ := rfl

/-- Averages of neighbours. -/
noncomputable def avgE : Module.End ℝ (ℕ → ℝ) := (1 / 2 : ℝ) • (1 + shiftE)

theorem shiftE_pow (k : ℕ) (p : ℕ → ℝ) (j : ℕ) : (shiftE ^ k) p j = p (j + k) := by
  induction k generalizing j with
  | zero => simp
  | succ k ih =>
    rw [pow_succ']
    show (shiftE ^ k) p (j + 1) = _
    rw [ih]
    congr 1
    omega

theorem avgE_pow_succ (i : ℕ) (p : ℕ → ℝ) (j : ℕ) :
    (avgE ^ (i + 1)) p j = ((avgE ^ i) p j + (avgE ^ i) p (j + 1)) * (1 / 2) := by
  rw [pow_succ']
  show (avgE ((avgE ^ i) p)) j = _
  generalize (avgE ^ i) p = q
  show (1 / 2 : ℝ) * (q j + q (j + 1)) = _
  ring

theorem commute_shift_avg : Commute shiftE avgE := by
  unfold avgE
  exact ((Commute.one_right _).add_right (Commute.refl _)).smul_right _

/-- The binomial formula for commuting operators, at the first entry of a sequence. -/
theorem binomial_apply {X Y : Module.End ℝ (ℕ → ℝ)} (h : Commute X Y) (a b : ℝ) (n : ℕ) (p : ℕ → ℝ) :
    ((a • X + b • Y) ^ n) p 0 =
      ∑ k ∈ Finset.range (n + 1), (n.choose k : ℝ) * a ^ (n - k) * b ^ k * (X ^ (n - k) * Y ^ k) p 0 := by
  have hc : Commute (b • Y) (a • X) := (h.symm.smul_left _).smul_right _
  rw [add_comm, hc.add_pow, LinearMap.sum_apply, Finset.sum_apply]
  apply Finset.sum_congr rfl
  intro k _
  have e : (b • Y) ^ k * (a • X) ^ (n - k) * ((n.choose k : ℕ) : Module.End ℝ (ℕ → ℝ)) =
      ((n.choose k : ℝ) * a ^ (n - k) * b ^ k) • (X ^ (n - k) * Y ^ k) := by
    rw [smul_pow, smul_pow, smul_mul_smul_comm, (h.symm.pow_pow k (n - k)).eq, ← nsmul_eq_mul',
      ← Nat.cast_smul_eq_nsmul ℝ, smul_smul]
    congr 1
    ring
  rw [e]
  rfl

theorem bernstein_eq (n : ℕ) (p : ℕ → ℝ) (t : ℝ) :
    Spec.bernstein n p t = (((1 - t) • (1 : Module.End ℝ (ℕ → ℝ)) + t • shiftE) ^ n) p 0 := by
  rw [binomial_apply (Commute.one_left _)]
  unfold Spec.bernstein
  apply Finset.sum_congr rfl
  intro k _
  rw [one_pow, one_mul, shiftE_pow, zero_add]

theorem bernstein_left (n : ℕ) (p : ℕ → ℝ) (t : ℝ) :
    Spec.bernstein n (fun k => (avgE ^ k) p 0) t = Spec.bernstein n p (t / 2) := by
  have e : (1 - t / 2) • (1 : Module.End ℝ (ℕ → ℝ)) + (t / 2) • shiftE =
      (1 - t) • (1 : Module.End ℝ (ℕ → ℝ)) + t • avgE := by
    unfold avgE
    module
  rw [bernstein_eq n p, e, binomial_apply (Commute.one_left _)]
  unfold Spec.bernstein
  apply Finset.sum_congr rfl
  intro k _
  rw [one_pow, one_mul]

theorem bernstein_right (n : ℕ) (p : ℕ → ℝ) (t : ℝ) :
    Spec.bernstein n (fun k => (avgE ^ (n - k)) p k) t = Spec.bernstein n p ((1 + t) / 2) := by
  have e : (1 - (1 + t) / 2) • (1 : Module.End ℝ (ℕ → ℝ)) + ((1 + t) / 2) • shiftE =
      (1 - t) • avgE + t • shiftE := by
    unfold avgE
    module
  rw [bernstein_eq n p, e, binomial_apply commute_shift_avg.symm]
  unfold Spec.bernstein
  apply Finset.sum_congr rfl
  intro k _
  congr 1
  rw [(commute_shift_avg.symm.pow_pow (n - k) k).eq]
  show _ = (shiftE ^ k) ((avgE ^ (n - k)) p) 0
  rw [shiftE_pow, zero_add]

theorem half_cast : (lit 0.5 : ℝ) = 1 / 2 := by
  rw [RealArith.lit]
  norm_num

theorem triangle_x (cps : List (Vec ℝ)) (i j : ℕ) :
    (Spec.triangle cps i j).x = (avgE ^ i) (fun k => (cps.getD k Vec.zero).x) j := by
  induction i generalizing j with
  | zero => rfl
  | succ i ih =>
    rw [avgE_pow_succ, ← ih, ← ih]
    show ((Spec.triangle cps i j).x + (Spec.triangle cps i (j + 1)).x) * (lit 0.5 : ℝ) = _
    rw [half_cast]

theorem triangle_y (cps : List (Vec ℝ)) (i j : ℕ) :
    (Spec.triangle cps i j).y = (avgE ^ i) (fun k => (cps.getD k Vec.zero).y) j := by
  induction i generalizing j with
  | zero => rfl
  | succ i ih =>
    rw [avgE_pow_succ, ← ih, ← ih]
    show ((Spec.triangle cps i j).y + (Spec.triangle cps i (j + 1)).y) * (lit 0.5 : ℝ) = _
    rw [half_cast]

theorem bernstein_congr {n : ℕ} {p q : ℕ → ℝ} (h : ∀ k, k ≤ n → p k = q k) (t : ℝ) :
    Spec.bernstein n p t = Spec.bernstein n q t := by
  unfold Spec.bernstein
  apply Finset.sum_congr rfl
  intro k hk
  rw [h k (by simpa [Nat.lt_succ_iff] using hk)]

theorem bezier_leftHalf {cps : List (Vec ℝ)} (hne : cps ≠ []) (t : ℝ) :
    Spec.bezier (Spec.leftHalf cps) t = Spec.bezier cps (t / 2) := by
  have hpos : 0 < cps.length := List.length_pos_iff.mpr hne
  unfold Spec.bezier
  rw [leftHalf_length]
  congr 1
  · rw [← bernstein_left]
    apply bernstein_congr
    intro k hk
    rw [leftHalf_getD cps (by omega), triangle_x]
  · rw [← bernstein_left]
    apply bernstein_congr
    intro k hk
    rw [leftHalf_getD cps (by omega), triangle_y]

theorem bezier_rightHalf {cps : List (Vec ℝ)} (hne : cps ≠ []) (t : ℝ) :
    Spec.bezier (Spec.rightHalf cps) t = Spec.bezier cps ((1 + t) / 2) := by
  have hpos : 0 < cps.length := List.length_pos_iff.mpr hne
  unfold Spec.bezier
  rw [rightHalf_length]
  congr 1
  · rw [← bernstein_right]
    apply bernstein_congr
    intro k hk
    rw [rightHalf_getD cps (by omega), triangle_x]
  · rw [← bernstein_right]
    apply bernstein_congr
    intro k hk
    rw [rightHalf_getD cps (by omega), triangle_y]

/-! ### Second differences -/

/-- Second difference of a sequence. -/
def diff2 (p : ℕ → ℝ) (k : ℕ) : ℝ := p k - 2 * p (k + 1) + p (k + 2)

theorem diff2_avg {p : ℕ → ℝ} {n : ℕ} {M : ℝ} (h : ∀ k, k + 2 ≤ n → |diff2 p k| ≤ M) (i : ℕ) :
    ∀ k, k + 2 + i ≤ n → |diff2 ((avgE ^ i) p) k| ≤ M := by
  induction i with
  | zero => intro k hk; simpa using h k (by omega)
  | succ i ih =>
    intro k hk
    have e : diff2 ((avgE ^ (i + 1)) p) k =
        (diff2 ((avgE ^ i) p) k + diff2 ((avgE ^ i) p) (k + 1)) * (1 / 2) := by
      unfold diff2
      simp only [avgE_pow_succ]
      ring
    have h1 := abs_le.mp (ih k (by omega))
    have h2 := abs_le.mp (ih (k + 1) (by omega))
    rw [e, abs_le]
    constructor <;> linarith

theorem diff2_left {p : ℕ → ℝ} {n : ℕ} {M : ℝ} (h : ∀ k, k + 2 ≤ n → |diff2 p k| ≤ M) :
    ∀ k, k + 2 ≤ n → |diff2 (fun k => (avgE ^ k) p 0) k| ≤ M / 4 := by
  intro k hk
  have e : diff2 (fun k => (avgE ^ k) p 0) k = diff2 ((avgE ^ k) p) 0 / 4 := by
    unfold diff2
    simp only [avgE_pow_succ]
    ring
  have h1 := abs_le.mp (diff2_avg h k 0 (by omega))
  rw [e, abs_le]
  constructor <;> linarith

theorem diff2_right {p : ℕ → ℝ} {n : ℕ} {M : ℝ} (h : ∀ k, k + 2 ≤ n → |diff2 p k| ≤ M) :
    ∀ k, k + 2 ≤ n → |diff2 (fun k => (avgE ^ (n - k)) p k) k| ≤ M / 4 := by
  intro k hk
  obtain ⟨m, rfl⟩ : ∃ m, n = k + 2 + m := ⟨n - (k + 2), by omega⟩
  have e : diff2 (fun j => (avgE ^ (k + 2 + m - j)) p j) k = diff2 ((avgE ^ m) p) k / 4 := by
    unfold diff2
    have e1 : k + 2 + m - k = m + 1 + 1 := by omega
    have e2 : k + 2 + m - (k + 1) = m + 1 := by omega
    have e3 : k + 2 + m - (k + 2) = m := by omega
    beta_reduce
    rw [e1, e2, e3]
    simp only [avgE_pow_succ]
    ring
  have h1 := abs_le.mp (diff2_avg h m k (by omega))
  rw [e, abs_le]
  constructor <;> linarith

/-- Second differences of both coordinates are at most `M`. -/
def SmallDiff (M : ℝ) (cps : List (Vec ℝ)) : Prop :=
  ∀ k, k + 2 ≤ cps.length - 1 → |diff2 (fun k => (cps.getD k Vec.zero).x) k| ≤ M ∧
    |diff2 (fun k => (cps.getD k Vec.zero).y) k| ≤ M

theorem smallDiff_halves {M : ℝ} {cps : List (Vec ℝ)} (h : SmallDiff M cps) :
    SmallDiff (M / 4) (Spec.leftHalf cps) ∧ SmallDiff (M / 4) (Spec.rightHalf cps) := by
  have hx := fun k hk => (h k hk).1
  have hy := fun k hk => (h k hk).2
  constructor
  · intro k hk
    rw [leftHalf_length] at hk
    have e : ∀ j, j ≤ k + 2 → (Spec.leftHalf cps).getD j Vec.zero = Spec.triangle cps j 0 :=
      fun j hj => leftHalf_getD cps (by omega)
    have h1 := diff2_left hx k hk
    have h2 := diff2_left hy k hk
    unfold diff2 at h1 h2 ⊢
    simp only [← triangle_x, ← triangle_y] at h1 h2
    beta_reduce
    rw [e k (by omega), e (k + 1) (by omega), e (k + 2) (by omega)]
    exact ⟨h1, h2⟩
  · intro k hk
    rw [rightHalf_length] at hk
    have e : ∀ j, j ≤ k + 2 → (Spec.rightHalf cps).getD j Vec.zero =
        Spec.triangle cps (cps.length - 1 - j) j := fun j hj => rightHalf_getD cps (by omega)
    have h1 := diff2_right hx k hk
    have h2 := diff2_right hy k hk
    unfold diff2 at h1 h2 ⊢
    simp only [← triangle_x, ← triangle_y] at h1 h2
    beta_reduce
    rw [e k (by omega), e (k + 1) (by omega), e (k + 2) (by omega)]
    exact ⟨h1, h2⟩

theorem flat_of_smallDiff {cps : List (Vec ℝ)} (h : SmallDiff (1 / 4) cps) : Spec.flat cps := by
  intro i a b c ha hb hc
  have hi : i + 2 < cps.length := (List.getElem?_eq_some_iff.mp hc).1
  obtain ⟨hx, hy⟩ := h i (by omega)
  unfold diff2 at hx hy
  simp only [List.getD_eq_getElem?_getD, ha, hb, hc, Option.getD_some] at hx hy
  apply Bool.eq_false_iff.mpr
  intro hlt
  have hlt := (RealArith.lt _ _).mp hlt
  have e : (Vec.add (Vec.sub a (Vec.scl b (lit 2))) c).lenSq =
      (a.x - 2 * b.x + c.x) * (a.x - 2 * b.x + c.x) + (a.y - 2 * b.y + c.y) * (a.y - 2 * b.y + c.y) := by
    show (a.x - b.x * (lit 2 : ℝ) + c.x) * (a.x - b.x * (lit 2 : ℝ) + c.x) +
      (a.y - b.y * (lit 2 : ℝ) + c.y) * (a.y - b.y * (lit 2 : ℝ) + c.y) = _
    rw [RealArith.lit]
    push_cast
    ring
  rw [e, RealArith.lit] at hlt
  have h4 : ((0.25 : ℚ) : ℝ) = 1 / 4 := by norm_num
  rw [h4] at hlt
  have h1 := abs_le.mp hx
  have h2 := abs_le.mp hy
  nlinarith [h1.1, h1.2, h2.1, h2.2]

theorem flattens_of_smallDiff (n : ℕ) : ∀ cps : List (Vec ℝ), SmallDiff (4 ^ n / 4) cps →
    ∃ l, Spec.Flattens cps l := by
  induction n with
  | zero =>
    intro cps h
    exact ⟨_, .flat (flat_of_smallDiff (by simpa using h))⟩
  | succ n ih =>
    intro cps h
    by_cases hf : Spec.flat cps
    · exact ⟨_, .flat hf⟩
    · obtain ⟨h1, h2⟩ := smallDiff_halves h
      have e : (4 : ℝ) ^ (n + 1) / 4 / 4 = 4 ^ n / 4 := by rw [pow_succ]; ring
      rw [e] at h1 h2
      obtain ⟨l, hl⟩ := ih _ h1
      obtain ⟨r, hr⟩ := ih _ h2
      exact ⟨_, .split hf hl hr⟩

theorem exists_smallDiff (cps : List (Vec ℝ)) : ∃ n : ℕ, SmallDiff (4 ^ n / 4) cps := by
  obtain ⟨B, hB⟩ : ∃ B : ℝ, SmallDiff B cps := by
    refine ⟨∑ k ∈ Finset.range cps.length, (|diff2 (fun k => (cps.getD k Vec.zero).x) k| +
      |diff2 (fun k => (cps.getD k Vec.zero).y) k|), fun k hk => ?_⟩
    have := Finset.single_le_sum (f := fun k => |diff2 (fun k => (cps.getD k Vec.zero).x) k| +
      |diff2 (fun k => (cps.getD k Vec.zero).y) k|) (s := Finset.range cps.length)
      (fun i _ => add_nonneg (abs_nonneg _) (abs_nonneg _)) (Finset.mem_range.mpr (by omega : k < cps.length))
    constructor
    · exact le_trans (le_add_of_nonneg_right (abs_nonneg _)) this
    · exact le_trans (le_add_of_nonneg_left (abs_nonneg _)) this
  obtain ⟨n, hn⟩ := pow_unbounded_of_one_lt (B * 4) (by norm_num : (1 : ℝ) < 4)
  refine ⟨n, fun k hk => ?_⟩
  obtain ⟨h1, h2⟩ := hB k hk
  constructor <;> linarith

/-! ### Leaves of the subdivision -/

theorem tiles_append {a b c : ℝ} {l r : List (ℝ × ℝ)} (hl : Spec.Tiles a b l) (hr : Spec.Tiles b c r) :
    Spec.Tiles a c (l ++ r) := by
  induction l generalizing a with
  | nil =>
    have : a = b := hl
    subst this
    exact hr
  | cons x l ih =>
    obtain ⟨u, v⟩ := x
    obtain ⟨h1, h2, h3⟩ := hl
    exact ⟨h1, h2, ih h3⟩

theorem tiles_map {a b : ℝ} {l : List (ℝ × ℝ)} (h : Spec.Tiles a b l) (c : ℝ) :
    Spec.Tiles ((c + a) / 2) ((c + b) / 2) (l.map (fun x => ((c + x.1) / 2, (c + x.2) / 2))) := by
  induction l generalizing a with
  | nil =>
    have : a = b := h
    subst this
    rfl
  | cons x l ih =>
    obtain ⟨u, v⟩ := x
    obtain ⟨h1, h2, h3⟩ := h
    exact ⟨by rw [h1], by linarith, ih h3⟩

/-- The pieces of a flattening belong to consecutive intervals of the curve's parameter. -/
theorem flattens_leaves {cps l : List (Vec ℝ)} (h : Spec.Flattens cps l) (hne : cps ≠ []) :
    ∃ leaves : List (List (Vec ℝ) × ℝ × ℝ), l = (leaves.map (fun x => Spec.pieces x.1)).flatten ∧
      Spec.Tiles 0 1 (leaves.map Prod.snd) ∧
      ∀ x ∈ leaves, Spec.flat x.1 ∧ x.1.length = cps.length ∧
        ∀ s, Spec.bezier x.1 s = Spec.bezier cps (x.2.1 + (x.2.2 - x.2.1) * s) := by
  induction h with
  | flat hf =>
    rename_i c
    refine ⟨[(c, 0, 1)], by simp, ⟨rfl, by norm_num, rfl⟩, ?_⟩
    intro x hx
    simp only [List.mem_singleton] at hx
    subst hx
    refine ⟨hf, rfl, fun s => ?_⟩
    congr 1
    ring
  | split hn _ _ iha ihb =>
    rename_i c l r _ _
    have hpos : 0 < c.length := List.length_pos_iff.mpr hne
    obtain ⟨la, ha1, ha2, ha3⟩ := iha (List.length_pos_iff.mp (by rw [leftHalf_length]; exact hpos))
    obtain ⟨lb, hb1, hb2, hb3⟩ := ihb (List.length_pos_iff.mp (by rw [rightHalf_length]; exact hpos))
    refine ⟨la.map (fun x => (x.1, (0 + x.2.1) / 2, (0 + x.2.2) / 2)) ++
      lb.map (fun x => (x.1, (1 + x.2.1) / 2, (1 + x.2.2) / 2)), ?_, ?_, ?_⟩
    · rw [ha1, hb1]
      simp [Function.comp_def]
    · rw [List.map_append]
      have h1 := tiles_map ha2 0
      have h2 := tiles_map hb2 1
      rw [List.map_map, List.map_map] at *
      have e1 : ((0 : ℝ) + 0) / 2 = 0 := by norm_num
      have e2 : ((0 : ℝ) + 1) / 2 = (1 + 0) / 2 := by norm_num
      have e3 : ((1 : ℝ) + 1) / 2 = 1 := by norm_num
      rw [e1, e2] at h1
      rw [e3] at h2
      exact tiles_append h1 h2
    · intro x hx
      rcases List.mem_append.mp hx with hx | hx
      · obtain ⟨y, hy, rfl⟩ := List.mem_map.mp hx
        obtain ⟨h1, h2, h3⟩ := ha3 y hy
        refine ⟨h1, by rw [h2, leftHalf_length], fun s => ?_⟩
        simp only
        rw [h3, bezier_leftHalf hne]
        congr 1
        ring
      · obtain ⟨y, hy, rfl⟩ := List.mem_map.mp hx
        obtain ⟨h1, h2, h3⟩ := hb3 y hy
        refine ⟨h1, by rw [h2, rightHalf_length], fun s => ?_⟩
        simp only
        rw [h3, bezier_rightHalf hne]
        congr 1
        ring

end GosuPP
