import Verif.Lemmas.CurveReal
import Verif.Lemmas.Bezier
import Verif.Model.BezierCurve
import Verif.Spec.BezierCurve
import Mathlib.Data.Nat.Choose.Sum

/-! The type `Bezier` in exact arithmetic, and the binomial coefficients of the code. -/

namespace GosuPP
open Go

/-! ### Points as complex numbers -/

/-- The vector as a complex number. -/
noncomputable def cplx (v : Vec ℝ) : ℂ := ⟨v.x, v.y⟩

theorem cplx_inj {v w : Vec ℝ} (h : cplx v = cplx w) : v = w :=
  Vec.ext (congrArg Complex.re h) (congrArg Complex.im h)

theorem len_cplx (a b : Vec ℝ) : Spec.len ⟨a, b⟩ = ‖cplx b - cplx a‖ := by
  rw [Complex.norm_eq_sqrt_sq_add_sq]
  rfl

theorem cplx_along (a b : Vec ℝ) (t : ℝ) : cplx (Spec.along ⟨a, b⟩ t) = cplx a + t * (cplx b - cplx a) := by
  apply Complex.ext <;> simp [cplx, Spec.along]

/-- de Casteljau's construction on complex numbers. -/
noncomputable def castC (t : ℝ) (f : ℕ → ℂ) : ℕ → ℕ → ℂ
  | 0, j => f j
  | i + 1, j => castC t f i j + t * (castC t f i (j + 1) - castC t f i j)

theorem cplx_casteljau (t : ℝ) (f : ℕ → Vec ℝ) (i j : ℕ) :
    cplx (Spec.casteljau t f i j) = castC t (fun j => cplx (f j)) i j := by
  induction i generalizing j with
  | zero => rfl
  | succ i ih => rw [Spec.casteljau, cplx_along, ih, ih, castC]

/-- Bernstein's form. -/
theorem castC_bernstein (t : ℝ) (f : ℕ → ℂ) (n j : ℕ) :
    castC t f n j = ∑ p ∈ Finset.antidiagonal n, (n.choose p.1 : ℂ) * ((t : ℂ) ^ p.1 * (1 - t) ^ p.2 * f (j + p.1)) := by
  induction n generalizing j with
  | zero => simp [castC]
  | succ n ih =>
    rw [castC, ih, ih]
    have h := Finset.sum_antidiagonal_choose_succ_mul (fun a b => (t : ℂ) ^ a * (1 - t) ^ b * f (j + a)) n
    rw [h]
    have h1 : ∑ p ∈ Finset.antidiagonal n, (n.choose p.1 : ℂ) * ((t : ℂ) ^ p.1 * (1 - t) ^ (p.2 + 1) * f (j + p.1)) =
        (1 - t) * ∑ p ∈ Finset.antidiagonal n, (n.choose p.1 : ℂ) * ((t : ℂ) ^ p.1 * (1 - t) ^ p.2 * f (j + p.1)) := by
      rw [Finset.mul_sum]
      exact Finset.sum_congr rfl (fun p _ => by ring)
    have h2 : ∑ p ∈ Finset.antidiagonal n, (n.choose p.2 : ℂ) * ((t : ℂ) ^ (p.1 + 1) * (1 - t) ^ p.2 * f (j + (p.1 + 1))) =
        t * ∑ p ∈ Finset.antidiagonal n, (n.choose p.1 : ℂ) * ((t : ℂ) ^ p.1 * (1 - t) ^ p.2 * f (j + 1 + p.1)) := by
      rw [Finset.mul_sum]
      refine Finset.sum_congr rfl (fun p hp => ?_)
      rw [Finset.mem_antidiagonal] at hp
      rw [← Nat.choose_symm_of_eq_add (show n = p.1 + p.2 by omega)]
      rw [show j + (p.1 + 1) = j + 1 + p.1 by omega]
      ring
    rw [h1, h2]
    ring

/-! ### Cumulative weights -/

/-- The weight of the control points from number `i` on. -/
noncomputable def cum (t : ℝ) : ℕ → ℕ → ℝ
  | _, 0 => 1
  | 0, _ + 1 => 0
  | n + 1, i + 1 => (1 - t) * cum t n (i + 1) + t * cum t n i

theorem cum_zero (t : ℝ) (n : ℕ) : cum t n 0 = 1 := by cases n <;> rfl

theorem cum_succ (t : ℝ) (n i : ℕ) : cum t (n + 1) (i + 1) = (1 - t) * cum t n (i + 1) + t * cum t n i := rfl

theorem cum_past (t : ℝ) : ∀ {n i : ℕ}, n < i → cum t n i = 0
  | 0, i + 1, _ => rfl
  | n + 1, i + 1, h => by
    rw [cum_succ, cum_past t (show n < i + 1 by omega), cum_past t (show n < i by omega)]
    ring

theorem cum_nonneg {t : ℝ} (h0 : 0 ≤ t) (h1 : t ≤ 1) : ∀ n i, 0 ≤ cum t n i
  | n, 0 => by rw [cum_zero]; norm_num
  | 0, i + 1 => le_refl _
  | n + 1, i + 1 => by
    rw [cum_succ]
    have := cum_nonneg h0 h1 n (i + 1)
    have := cum_nonneg h0 h1 n i
    have : 0 ≤ 1 - t := by linarith
    positivity

theorem cum_anti {t : ℝ} (h0 : 0 ≤ t) (h1 : t ≤ 1) : ∀ n i, cum t n (i + 1) ≤ cum t n i
  | 0, 0 => by show (0 : ℝ) ≤ 1; norm_num
  | 0, i + 1 => le_refl _
  | n + 1, 0 => by
    rw [cum_succ, cum_zero, cum_zero]
    have := cum_anti h0 h1 n 0
    rw [cum_zero] at this
    nlinarith
  | n + 1, i + 1 => by
    rw [cum_succ, cum_succ]
    have h2 := cum_anti h0 h1 n (i + 1)
    have h3 := cum_anti h0 h1 n i
    nlinarith

theorem cum_mono {s t : ℝ} (h0 : 0 ≤ s) (hst : s ≤ t) (h1 : t ≤ 1) : ∀ n i, cum s n i ≤ cum t n i
  | n, 0 => by rw [cum_zero, cum_zero]
  | 0, i + 1 => le_refl _
  | n + 1, i + 1 => by
    rw [cum_succ, cum_succ]
    have h2 := cum_mono h0 hst h1 n (i + 1)
    have h3 := cum_mono h0 hst h1 n i
    have h4 := cum_anti h0 (hst.trans h1) n i
    nlinarith

theorem cum_at_zero : ∀ n i, cum 0 n (i + 1) = 0
  | 0, i => rfl
  | n + 1, i => by rw [cum_succ, cum_at_zero n i]; ring

theorem cum_at_one : ∀ {n i : ℕ}, i ≤ n → cum 1 n i = 1
  | n, 0, _ => cum_zero 1 n
  | n + 1, i + 1, h => by rw [cum_succ, cum_at_one (show i ≤ n by omega)]; ring

theorem castC_cum (t : ℝ) (f : ℕ → ℂ) (n j : ℕ) :
    castC t f n j = f j + ∑ i ∈ Finset.range n, (f (j + i + 1) - f (j + i)) * (cum t n (i + 1) : ℂ) := by
  induction n generalizing j with
  | zero => simp [castC]
  | succ n ih =>
    rw [castC, ih, ih]
    have h1 : ∑ i ∈ Finset.range (n + 1), (f (j + i + 1) - f (j + i)) * (cum t (n + 1) (i + 1) : ℂ) =
        (1 - t) * ∑ i ∈ Finset.range (n + 1), (f (j + i + 1) - f (j + i)) * (cum t n (i + 1) : ℂ) +
        t * ∑ i ∈ Finset.range (n + 1), (f (j + i + 1) - f (j + i)) * (cum t n i : ℂ) := by
      rw [Finset.mul_sum, Finset.mul_sum, ← Finset.sum_add_distrib]
      refine Finset.sum_congr rfl (fun i _ => ?_)
      rw [cum_succ]
      push_cast
      ring
    rw [h1, Finset.sum_range_succ, cum_past t (show n < n + 1 by omega), Finset.sum_range_succ' _ n, cum_zero]
    have h2 : ∑ i ∈ Finset.range n, (f (j + (i + 1) + 1) - f (j + (i + 1))) * (cum t n (i + 1) : ℂ) =
        ∑ i ∈ Finset.range n, (f (j + 1 + i + 1) - f (j + 1 + i)) * (cum t n (i + 1) : ℂ) := by
      refine Finset.sum_congr rfl (fun i _ => ?_)
      rw [show j + (i + 1) = j + 1 + i by omega]
    rw [h2]
    push_cast
    ring

/-- A chord is not longer than the weighted control polygon. -/
theorem castC_chord {s t : ℝ} (h0 : 0 ≤ s) (hst : s ≤ t) (h1 : t ≤ 1) (f : ℕ → ℂ) (n : ℕ) :
    ‖castC t f n 0 - castC s f n 0‖ ≤
      ∑ i ∈ Finset.range n, ‖f (i + 1) - f i‖ * (cum t n (i + 1) - cum s n (i + 1)) := by
  rw [castC_cum, castC_cum]
  have e : f 0 + ∑ i ∈ Finset.range n, (f (0 + i + 1) - f (0 + i)) * (cum t n (i + 1) : ℂ) -
      (f 0 + ∑ i ∈ Finset.range n, (f (0 + i + 1) - f (0 + i)) * (cum s n (i + 1) : ℂ)) =
      ∑ i ∈ Finset.range n, (f (i + 1) - f i) * ((cum t n (i + 1) - cum s n (i + 1) : ℝ) : ℂ) := by
    rw [add_sub_add_left_eq_sub, ← Finset.sum_sub_distrib]
    refine Finset.sum_congr rfl (fun i _ => ?_)
    rw [zero_add]
    push_cast
    ring
  rw [e]
  refine (norm_sum_le _ _).trans (Finset.sum_le_sum (fun i _ => ?_))
  rw [norm_mul, Complex.norm_real, Real.norm_of_nonneg (by linarith [cum_mono h0 hst h1 n (i + 1)])]

/-! ### Binomial coefficients -/

theorem binomialLoop_step (n : Int) (k : Nat) (i c : Int) :
    binomialLoop n (k + 1) i c = binomialLoop n k i c * ((n + 1 - (i + k)).tdiv (i + k)) := by
  induction k generalizing i c with
  | zero => simp [binomialLoop]
  | succ k ih =>
    rw [binomialLoop, ih, binomialLoop]
    congr 2 <;> push_cast <;> ring

/-- For `1 ≤ k ≤ n/2` the code multiplies the coefficient before by the rounded quotient. -/
theorem binomialCoefficient_half (n k : Nat) (hk : 2 * (k + 1) ≤ n) :
    binomialCoefficient n (k + 1 : Nat) = binomialCoefficient n k * (((n - k) / (k + 1) : Nat) : Int) := by
  have hb : ∀ m : Nat, 2 * m ≤ n → binomialCoefficient n m = binomialLoop n m 1 1 := by
    intro m hm
    unfold binomialCoefficient
    rw [if_neg (by omega)]
    split
    · have : m = 0 := by omega
      subst this
      rfl
    · have e : (if (m : Int) < n - m then (m : Int) else n - m) = m := by split <;> omega
      simp only [e, Int.toNat_natCast]
  rw [hb _ hk, hb k (by omega), binomialLoop_step]
  congr 1
  have e : (n : Int) + 1 - (1 + (k : Int)) = ((n - k : Nat) : Int) := by omega
  rw [e, show (1 : Int) + (k : Int) = ((k + 1 : Nat) : Int) by push_cast; ring]
  rfl

/-! ### The curve -/

namespace BezierCurve

theorem bernstein_real {n i : ℕ} (h : i ≤ n) (t : ℝ) :
    bernstein (D := ℝ) (i : Int) (n : Int) t = (binomialCoefficient n i : ℝ) * t ^ i * (1 - t) ^ (n - i) := by
  show ((binomialCoefficient n i : Int) : ℝ) * t ^ (((i : Int) : ℝ)) * ((lit 1 : ℝ) - t) ^ ((((n : Int) - (i : Int) : Int)) : ℝ) = _
  have e : ((n : Int) - (i : Int)) = ((n - i : ℕ) : Int) := by omega
  rw [lit_one_real, e, Int.cast_natCast, Int.cast_natCast, Real.rpow_natCast, Real.rpow_natCast]

theorem pointLoop_cplx {n : ℕ} (t : ℝ) (qs : List (Vec ℝ)) : ∀ (i : ℕ) (p : Vec ℝ), i + qs.length = n + 1 →
    cplx (pointLoop (D := ℝ) (n : Int) t (i : Int) qs p) = cplx p + ∑ k ∈ Finset.range qs.length,
      cplx (qs.getD k ⟨0, 0⟩) * ((binomialCoefficient n (i + k : ℕ) : ℂ) * (t : ℂ) ^ (i + k) * (1 - t) ^ (n - (i + k))) := by
  induction qs with
  | nil => intro i p _; simp [pointLoop]
  | cons q qs ih =>
    intro i p h
    rw [List.length_cons] at h
    rw [pointLoop]
    rw [bernstein_real (by omega)]
    have := ih (i + 1) ⟨p.x +. q.x *. ((binomialCoefficient n i : ℝ) * t ^ i * (1 - t) ^ (n - i)),
      p.y +. q.y *. ((binomialCoefficient n i : ℝ) * t ^ i * (1 - t) ^ (n - i))⟩ (by omega)
    rw [show ((i : Int) + 1) = ((i + 1 : ℕ) : Int) by push_cast; rfl, this, List.length_cons, Finset.sum_range_succ']
    have e1 : cplx (⟨p.x +. q.x *. ((binomialCoefficient n i : ℝ) * t ^ i * (1 - t) ^ (n - i)),
        p.y +. q.y *. ((binomialCoefficient n i : ℝ) * t ^ i * (1 - t) ^ (n - i))⟩ : Vec ℝ) =
        cplx p + cplx q * ((((binomialCoefficient n i : ℝ) * t ^ i * (1 - t) ^ (n - i) : ℝ)) : ℂ) := by
      apply Complex.ext <;> simp [cplx, RealArith.add, RealArith.mul, -Complex.ofReal_mul]
    rw [e1]
    have e2 : ∀ k ∈ Finset.range qs.length, cplx (qs.getD k ⟨0, 0⟩) *
        ((binomialCoefficient n (i + 1 + k : ℕ) : ℂ) * (t : ℂ) ^ (i + 1 + k) * (1 - t) ^ (n - (i + 1 + k))) =
        cplx ((q :: qs).getD (k + 1) ⟨0, 0⟩) *
        ((binomialCoefficient n (i + (k + 1) : ℕ) : ℂ) * (t : ℂ) ^ (i + (k + 1)) * (1 - t) ^ (n - (i + (k + 1)))) := by
      intro k _
      rw [show i + 1 + k = i + (k + 1) by omega, List.getD_cons_succ]
    rw [Finset.sum_congr rfl e2]
    simp only [List.getD_cons_zero, Nat.add_zero]
    push_cast
    ring

theorem pointAt_cplx {bz : BezierCurve ℝ} {n : ℕ} (h : bz.points.length = n + 1) (t : ℝ) :
    cplx (bz.pointAt (D := ℝ) t) = ∑ k ∈ Finset.range (n + 1), cplx (bz.points.getD k ⟨0, 0⟩) *
      ((binomialCoefficient n k : ℂ) * (t : ℂ) ^ k * (1 - t) ^ (n - k)) := by
  unfold pointAt
  have e : ((bz.points.length : Int) - 1) = (n : Int) := by omega
  have := pointLoop_cplx t bz.points 0 Vec.zero (by omega : 0 + bz.points.length = n + 1)
  rw [e]
  rw [h] at this
  simp only [Nat.zero_add] at this
  rw [show ((0 : ℕ) : Int) = 0 from rfl] at this
  rw [this]
  have e0 : cplx (Vec.zero : Vec ℝ) = 0 := by
    apply Complex.ext <;> simp [cplx, Vec.zero, RealArith.lit]
  rw [e0, zero_add]

theorem bezierAt_cplx {points : List (Vec ℝ)} {n : ℕ} (h : points.length = n + 1) (t : ℝ) :
    cplx (Spec.bezierAt points t) = ∑ k ∈ Finset.range (n + 1), cplx (points.getD k ⟨0, 0⟩) *
      ((n.choose k : ℂ) * (t : ℂ) ^ k * (1 - t) ^ (n - k)) := by
  unfold Spec.bezierAt
  rw [cplx_casteljau, castC_bernstein, h, Nat.add_sub_cancel,
    Finset.Nat.sum_antidiagonal_eq_sum_range_succ_mk]
  refine Finset.sum_congr rfl (fun k _ => ?_)
  simp only [Nat.zero_add]
  ring

theorem polygon_sum : ∀ {points : List (Vec ℝ)} {n : ℕ}, points.length = n + 1 → Spec.polygon points =
    ∑ i ∈ Finset.range n, ‖cplx (points.getD (i + 1) ⟨0, 0⟩) - cplx (points.getD i ⟨0, 0⟩)‖
  | [a], n, h => by
    have : n = 0 := by simpa using h.symm
    subst this
    simp [Spec.polygon]
  | a :: b :: rest, 0, h => by simp at h
  | a :: b :: rest, n + 1, h => by
    rw [Spec.polygon, polygon_sum (points := b :: rest) (n := n) (by simpa using h), Finset.sum_range_succ', len_cplx]
    simp only [List.getD_cons_succ, List.getD_cons_zero]
    ring

theorem controlLoop_real : ∀ (points : List (Vec ℝ)) (acc : ℝ), controlLoop (D := ℝ) acc points = acc + Spec.polygon points
  | [], acc => by simp [controlLoop, Spec.polygon]
  | [a], acc => by simp [controlLoop, Spec.polygon]
  | a :: b :: rest, acc => by
    rw [controlLoop, controlLoop_real (b :: rest), Spec.polygon]
    have : b.dst (D := ℝ) a = Spec.len ⟨a, b⟩ := by
      show Real.sqrt ((a.x - b.x) * (a.x - b.x) + (a.y - b.y) * (a.y - b.y)) = Real.sqrt ((b.x - a.x) ^ 2 + (b.y - a.y) ^ 2)
      congr 1
      ring
    rw [this, RealArith.add]
    ring

theorem polygon_nonneg : ∀ points : List (Vec ℝ), 0 ≤ Spec.polygon points
  | [] => le_refl _
  | [a] => le_refl _
  | a :: b :: rest => by
    rw [Spec.polygon]
    linarith [len_nonneg ⟨a, b⟩, polygon_nonneg (b :: rest)]

theorem lengthLoop_real (bz : BezierCurve ℝ) (N : ℝ) (k : ℕ) : ∀ (i : ℕ) (len : ℝ),
    lengthLoop (D := ℝ) bz N k ((i + 1 : ℕ) : Int) (bz.pointAt (D := ℝ) ((i : ℝ) / N)) len =
      len + ∑ m ∈ Finset.range k, ‖cplx (bz.pointAt (D := ℝ) (((i + m + 1 : ℕ) : ℝ) / N)) -
        cplx (bz.pointAt (D := ℝ) (((i + m : ℕ) : ℝ) / N))‖ := by
  induction k with
  | zero => intro i len; simp [lengthLoop]
  | succ k ih =>
    intro i len
    rw [lengthLoop]
    have e : (Go.ofInt ((i + 1 : ℕ) : Int) : ℝ) /. N = ((i + 1 : ℕ) : ℝ) / N := by
      rw [RealArith.div, RealArith.ofInt, Int.cast_natCast]
    rw [e, show (((i + 1 : ℕ) : Int) + 1) = ((i + 1 + 1 : ℕ) : Int) by push_cast; rfl, ih (i + 1), Finset.sum_range_succ']
    have hd : (bz.pointAt (D := ℝ) (((i + 1 : ℕ) : ℝ) / N)).dst (D := ℝ) (bz.pointAt (D := ℝ) ((i : ℝ) / N)) =
        ‖cplx (bz.pointAt (D := ℝ) (((i + 1 : ℕ) : ℝ) / N)) - cplx (bz.pointAt (D := ℝ) ((i : ℝ) / N))‖ := by
      rw [← len_cplx]
      generalize bz.pointAt (D := ℝ) (((i + 1 : ℕ) : ℝ) / N) = b
      generalize bz.pointAt (D := ℝ) ((i : ℝ) / N) = a
      show Real.sqrt ((a.x - b.x) * (a.x - b.x) + (a.y - b.y) * (a.y - b.y)) = Real.sqrt ((b.x - a.x) ^ 2 + (b.y - a.y) ^ 2)
      congr 1
      ring
    rw [hd, RealArith.add]
    have e2 : ∀ m ∈ Finset.range k, ‖cplx (bz.pointAt (D := ℝ) (((i + 1 + m + 1 : ℕ) : ℝ) / N)) -
        cplx (bz.pointAt (D := ℝ) (((i + 1 + m : ℕ) : ℝ) / N))‖ =
        ‖cplx (bz.pointAt (D := ℝ) (((i + (m + 1) + 1 : ℕ) : ℝ) / N)) -
        cplx (bz.pointAt (D := ℝ) (((i + (m + 1) : ℕ) : ℝ) / N))‖ := by
      intro m _
      rw [show i + 1 + m = i + (m + 1) by omega]
    rw [Finset.sum_congr rfl e2, Nat.add_zero]
    ring

end BezierCurve
end GosuPP
