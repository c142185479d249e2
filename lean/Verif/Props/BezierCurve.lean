import Verif.Lemmas.BezierCurve
import Verif.Props.Bezier
import Verif.Props.Sample

/-!
# C38 (continued) and C73: binomial coefficients and the type `Bezier`
-/

namespace GosuPP
open Go BezierCurve

/-! ## C38 -/

/-- The whole row `n` of the binomial coefficients is right exactly for `n ≤ 3` and `n = 5`. -/
theorem C38_rows (n : Nat) : (∀ k : Nat, binomialCoefficient n k = (n.choose k : Nat)) ↔ n ≤ 3 ∨ n = 5 := by
  constructor
  · intro h
    by_contra hn
    obtain ⟨k, hk⟩ : ∃ k, n / 2 = k + 1 := ⟨n / 2 - 1, by omega⟩
    have h1 := binomialCoefficient_half n k (by omega)
    rw [h, h] at h1
    have h1 : n.choose (k + 1) = n.choose k * ((n - k) / (k + 1)) := by exact_mod_cast h1
    have h2 := Nat.choose_succ_right_eq n k
    rw [h1, mul_assoc] at h2
    have h3 := Nat.eq_of_mul_eq_mul_left (Nat.choose_pos (by omega)) h2
    have h4 : k + 1 ∣ n - k := ⟨_, by rw [mul_comm]; exact h3.symm⟩
    have h5 : k + 1 ∣ n - k - (k + 1) := Nat.dvd_sub h4 (dvd_refl _)
    rcases Nat.even_or_odd' n with ⟨m, hm | hm⟩
    · have : n - k - (k + 1) = 1 := by omega
      rw [this] at h5
      have := Nat.le_of_dvd (by omega) h5
      omega
    · have : n - k - (k + 1) = 2 := by omega
      rw [this] at h5
      have := Nat.le_of_dvd (by omega) h5
      omega
  · intro h k
    by_cases hk : n < k
    · rw [C38_outside (.inr (by omega)), Nat.choose_eq_zero_of_lt hk]
      rfl
    · have hs : ∀ n ∈ [0, 1, 2, 3, 5], ∀ k ∈ List.range 6, k ≤ n → binomialCoefficient (n : Nat) (k : Nat) = (n.choose k : Nat) := by
        decide +kernel
      refine hs n ?_ k ?_ (by omega)
      · simp only [List.mem_cons, List.not_mem_nil, or_false]; omega
      · rw [List.mem_range]; omega

/-! ## C73 -/

/-- A `Bezier` of up to four or of six control points: `PointAt t` is the point of the Bezier curve (exact arithmetic). -/
theorem C73_curve {points : List (Vec ℝ)} (h0 : points ≠ []) (h : points.length ≤ 4 ∨ points.length = 6) (t : ℝ) :
    (newNA (D := ℝ) points).pointAt (D := ℝ) t = Spec.bezierAt points t := by
  have hpos := List.length_pos_iff.mpr h0
  obtain ⟨n, hn⟩ : ∃ n, points.length = n + 1 := ⟨points.length - 1, by omega⟩
  have hb := (C38_rows n).mpr (by omega)
  apply cplx_inj
  rw [pointAt_cplx (bz := newNA (D := ℝ) points) hn, bezierAt_cplx hn]
  refine Finset.sum_congr rfl (fun k _ => ?_)
  rw [hb]
  rfl

/-- For any other number of control points it is not: a curve whose control points are all the same point is drawn towards
the origin (exact arithmetic). -/
theorem C73_shrinks {n : ℕ} (hn : ¬(n ≤ 4 ∨ n = 6)) (q : Vec ℝ) {t : ℝ} (h0 : 0 < t) (h1 : t < 1) :
    ∃ w : ℝ, 0 < w ∧ w < 1 ∧
      (newNA (D := ℝ) (List.replicate n q)).pointAt (D := ℝ) t = ⟨w * q.x, w * q.y⟩ := by
  obtain ⟨m, rfl⟩ : ∃ m, n = m + 1 := ⟨n - 1, by omega⟩
  let W : ℕ → ℝ := fun k => (binomialCoefficient m k : ℝ) * (t ^ k * (1 - t) ^ (m - k))
  have ht : 0 < 1 - t := by linarith
  have hpw : ∀ k, 0 < t ^ k * (1 - t) ^ (m - k) := fun k => by positivity
  have hle : ∀ k : ℕ, (binomialCoefficient m k : ℝ) ≤ (m.choose k : ℝ) := fun k => by exact_mod_cast (C38_bound m k).2
  have hnn : ∀ k : ℕ, (0 : ℝ) ≤ (binomialCoefficient m k : ℝ) := fun k => by exact_mod_cast (C38_bound m k).1
  have htot : ∑ k ∈ Finset.range (m + 1), (m.choose k : ℝ) * (t ^ k * (1 - t) ^ (m - k)) = 1 := by
    have := add_pow t (1 - t) m
    rw [show t + (1 - t) = 1 by ring, one_pow] at this
    refine Eq.trans ?_ this.symm
    exact Finset.sum_congr rfl (fun k _ => by ring)
  refine ⟨∑ k ∈ Finset.range (m + 1), W k, ?_, ?_, ?_⟩
  · refine Finset.sum_pos' (fun k _ => mul_nonneg (hnn k) (hpw k).le) ⟨0, by simp, ?_⟩
    have : (binomialCoefficient m (0 : ℕ)) = 1 := by rw [C38_edge m 0 (.inl (by omega))]; simp
    show 0 < (binomialCoefficient m (0 : ℕ) : ℝ) * _
    rw [this]
    exact mul_pos (by norm_num) (hpw 0)
  · rw [← htot]
    refine Finset.sum_lt_sum (fun k _ => mul_le_mul_of_nonneg_right (hle k) (hpw k).le) ?_
    have hne : ¬ ∀ k : Nat, binomialCoefficient m k = (m.choose k : Nat) := fun h => by
      have := (C38_rows m).mp h
      omega
    push Not at hne
    obtain ⟨k, hk⟩ := hne
    have hkm : k ≤ m := by
      by_contra hc
      apply hk
      rw [C38_outside (.inr (by omega)), Nat.choose_eq_zero_of_lt (by omega)]
      rfl
    refine ⟨k, Finset.mem_range.mpr (by omega), mul_lt_mul_of_pos_right ?_ (hpw k)⟩
    have := lt_of_le_of_ne (C38_bound m k).2 hk
    exact_mod_cast this
  · apply cplx_inj
    rw [pointAt_cplx (bz := newNA (D := ℝ) (List.replicate (m + 1) q)) (n := m) (by simp [newNA])]
    have e : ∀ k ∈ Finset.range (m + 1), cplx ((newNA (D := ℝ) (List.replicate (m + 1) q)).points.getD k ⟨0, 0⟩) *
        ((binomialCoefficient m k : ℂ) * (t : ℂ) ^ k * (1 - t) ^ (m - k)) = (W k : ℂ) * cplx q := by
      intro k hk
      have hg : (newNA (D := ℝ) (List.replicate (m + 1) q)).points.getD k ⟨0, 0⟩ = q := by
        show (List.replicate (m + 1) q).getD k ⟨0, 0⟩ = q
        rw [List.getD_eq_getElem?_getD, List.getElem?_replicate, if_pos (Finset.mem_range.mp hk)]
        rfl
      rw [hg]
      simp only [W]
      push_cast
      ring
    rw [Finset.sum_congr rfl e, ← Finset.sum_mul, ← Complex.ofReal_sum]
    apply Complex.ext <;> simp [cplx, -Complex.ofReal_sum]

example : ¬((5 : ℕ) ≤ 4 ∨ (5 : ℕ) = 6) ∧ ¬((7 : ℕ) ≤ 4 ∨ (7 : ℕ) = 6) := by decide

/-- Any number of control points: the curve starts at the first and ends at the last one (exact arithmetic). -/
theorem C73_ends {points : List (Vec ℝ)} (h : points ≠ []) :
    (newNA (D := ℝ) points).pointAt (D := ℝ) 0 = points.head h ∧
    (newNA (D := ℝ) points).pointAt (D := ℝ) 1 = points.getLast h := by
  have hpos := List.length_pos_iff.mpr h
  obtain ⟨n, hn⟩ : ∃ n, points.length = n + 1 := ⟨points.length - 1, by omega⟩
  have hb0 : binomialCoefficient n (0 : ℕ) = 1 := by rw [C38_edge n 0 (.inl (by omega))]; simp
  have hbn : binomialCoefficient n (n : ℕ) = 1 := by rw [C38_edge n n (.inr (by omega))]; simp
  constructor
  · apply cplx_inj
    rw [pointAt_cplx (bz := newNA (D := ℝ) points) hn, Finset.sum_eq_single 0]
    · show cplx (points.getD 0 ⟨0, 0⟩) * ((binomialCoefficient n (0 : ℕ) : ℂ) * _ * _) = _
      rw [hb0]
      simp [List.head_eq_getElem]
      rw [List.getElem?_eq_getElem hpos]
      rfl
    · intro k _ hk
      simp [hk]
    · simp
  · apply cplx_inj
    rw [pointAt_cplx (bz := newNA (D := ℝ) points) hn, Finset.sum_eq_single n]
    · show cplx (points.getD n ⟨0, 0⟩) * ((binomialCoefficient n (n : ℕ) : ℂ) * _ * _) = _
      rw [hbn]
      simp [List.getLast_eq_getElem, hn]
    · intro k hk hkn
      have : n - k ≠ 0 := by
        have := Finset.mem_range.mp hk
        omega
      simp [this]
    · simp

/-- The length that `NewBezier` computes lies between the distance of the end points and the length of the control
polygon, for the numbers of points for which the curve is right (exact arithmetic). -/
theorem C73_length {points : List (Vec ℝ)} (h0 : points ≠ []) (h : points.length ≤ 4 ∨ points.length = 6) :
    ∃ bz, BezierCurve.new (D := ℝ) points = .ok bz ∧ bz.points = points ∧ bz.approxLength ≤ Spec.polygon points ∧
      Spec.len ⟨points.head h0, points.getLast h0⟩ ≤ bz.approxLength := by
  have hpos := List.length_pos_iff.mpr h0
  obtain ⟨n, hn⟩ : ∃ n, points.length = n + 1 := ⟨points.length - 1, by omega⟩
  have hidx : index points 0 = .ok (points.head h0) := by
    cases points with
    | nil => exact absurd rfl h0
    | cons a t => rfl
  have hcl : (newNA (D := ℝ) points).controlLength = Spec.polygon points := by
    show controlLoop (D := ℝ) (lit 0) points = _
    rw [controlLoop_real, lit_zero_real, zero_add]
  set P := Spec.polygon points with hP
  have hP0 : 0 ≤ P := polygon_nonneg points
  have hceil : (Math32.ceil (D := ℝ) (newNA (D := ℝ) points).controlLength : ℝ) = ((⌈P⌉ : Int) : ℝ) := by
    show ((⌈(newNA (D := ℝ) points).controlLength⌉ : Int) : ℝ) = _
    rw [hcl]
  have hN0 : 0 ≤ ⌈P⌉ := Int.ceil_nonneg hP0
  obtain ⟨N, hN⟩ : ∃ N : ℕ, ⌈P⌉ = (N : Int) := ⟨⌈P⌉.toNat, by omega⟩
  have htr : (trunc (((⌈P⌉ : Int) : ℝ)) : Int).toNat = N := by
    show (if (((⌈P⌉ : Int) : ℝ)) < 0 then ⌈(((⌈P⌉ : Int) : ℝ))⌉ else ⌊(((⌈P⌉ : Int) : ℝ))⌋).toNat = N
    rw [if_neg (not_lt.mpr (by exact_mod_cast hN0)), Int.floor_intCast, hN]
    rfl
  set f : ℕ → ℂ := fun j => cplx (points.getD j ⟨0, 0⟩) with hf
  have hpt : ∀ t, cplx ((newNA (D := ℝ) points).pointAt (D := ℝ) t) = castC t f n 0 := by
    intro t
    rw [C73_curve h0 h]
    unfold Spec.bezierAt
    rw [cplx_casteljau, hn, Nat.add_sub_cancel]
  have hends := C73_ends h0
  refine ⟨_, by
    unfold BezierCurve.new BezierCurve.calculateLength
    rw [hceil]
    simp only
    rw [htr]
    show (do let previous ← index points 0; _) = _
    rw [hidx]
    rfl, rfl, ?_⟩
  show lengthLoop (D := ℝ) (newNA (D := ℝ) points) ((⌈P⌉ : Int) : ℝ) N 1 (points.head h0) (lit 0) ≤ P ∧
    Spec.len ⟨points.head h0, points.getLast h0⟩ ≤
      lengthLoop (D := ℝ) (newNA (D := ℝ) points) ((⌈P⌉ : Int) : ℝ) N 1 (points.head h0) (lit 0)
  have hL := lengthLoop_real (newNA (D := ℝ) points) ((⌈P⌉ : Int) : ℝ) N 0 (lit 0)
  rw [Nat.cast_zero, zero_div, hends.1] at hL
  rw [show ((0 + 1 : ℕ) : Int) = 1 from rfl] at hL
  rw [hL, lit_zero_real, zero_add, hN, Int.cast_natCast]
  simp only [Nat.zero_add, hpt]
  have hpoly : P = ∑ i ∈ Finset.range n, ‖f (i + 1) - f i‖ := polygon_sum hn
  rcases Nat.eq_zero_or_pos N with rfl | hNpos
  · have hPz : P = 0 := by
      have := Int.le_ceil P
      rw [hN] at this
      simp only [Nat.cast_zero, Int.cast_zero] at this
      linarith
    refine ⟨by simpa using hP0, ?_⟩
    rw [len_cplx, ← hends.1, ← hends.2, hpt, hpt]
    refine (castC_chord (le_refl _) zero_le_one (le_refl _) f n).trans ?_
    rw [Finset.sum_range_zero]
    refine _root_.le_trans ?_ (hpoly.symm.trans hPz).le
    refine Finset.sum_le_sum (fun i _ => ?_)
    rw [cum_at_zero, sub_zero]
    have : cum 1 n (i + 1) ≤ 1 := by
      by_cases hi : i + 1 ≤ n
      · rw [cum_at_one hi]
      · rw [cum_past 1 (by omega)]; norm_num
    nlinarith [norm_nonneg (f (i + 1) - f i)]
  have hNr : (0 : ℝ) < (N : ℝ) := by exact_mod_cast hNpos
  constructor
  · have step : ∀ m ∈ Finset.range N, ‖castC (((m + 1 : ℕ) : ℝ) / N) f n 0 - castC ((m : ℝ) / N) f n 0‖ ≤
        ∑ i ∈ Finset.range n, ‖f (i + 1) - f i‖ * (cum (((m + 1 : ℕ) : ℝ) / N) n (i + 1) - cum ((m : ℝ) / N) n (i + 1)) := by
      intro m hm
      have hm : m + 1 ≤ N := Finset.mem_range.mp hm
      refine castC_chord (by positivity) ?_ ?_ f n
      · exact div_le_div_of_nonneg_right (by push_cast; linarith) hNr.le
      · rw [div_le_one hNr]
        exact_mod_cast hm
    refine (Finset.sum_le_sum step).trans ?_
    rw [Finset.sum_comm, hpoly]
    refine Finset.sum_le_sum (fun i hi => ?_)
    rw [← Finset.mul_sum, Finset.sum_range_sub (fun m : ℕ => cum ((m : ℝ) / N) n (i + 1)), div_self hNr.ne',
      Nat.cast_zero, zero_div, cum_at_zero, cum_at_one (by have := Finset.mem_range.mp hi; omega)]
    linarith
  · rw [len_cplx, ← hends.1, ← hends.2, hpt, hpt]
    have := norm_sum_le (Finset.range N) (fun m : ℕ => castC (((m + 1 : ℕ) : ℝ) / N) f n 0 - castC ((m : ℝ) / N) f n 0)
    rw [Finset.sum_range_sub (fun m : ℕ => castC ((m : ℝ) / N) f n 0), div_self hNr.ne', Nat.cast_zero, zero_div] at this
    exact this

/-- `NewBezier` without control points panics, `NewBezierNA` does not (any arithmetic). -/
theorem C73_empty {S D : Type} [GoFloat S] [GoFloat D] [GoConv S D] [GoLibm D] :
    BezierCurve.new (S := S) (D := D) [] = .error .panic ∧ (newNA (S := S) (D := D) []).approxLength = lit 0 := ⟨rfl, rfl⟩

/-- Apart from that `NewBezier` does not panic (any arithmetic). -/
theorem C73_total {S D : Type} [GoFloat S] [GoFloat D] [GoConv S D] [GoLibm D] {points : List (Vec S)} (h : points ≠ []) :
    ∃ bz, BezierCurve.new (D := D) points = .ok bz ∧ bz.points = points := by
  cases points with
  | nil => exact absurd rfl h
  | cons a t => exact ⟨_, rfl, rfl⟩

/-- Both hypotheses of `C73_curve` and `C73_length` are met by an ordinary curve. -/
example : ∃ bz, BezierCurve.new (S := ℝ) (D := ℝ) [⟨0, 0⟩, ⟨100, 0⟩, ⟨100, 100⟩] = .ok bz ∧ bz.approxLength ≤ 200 := by
  obtain ⟨bz, h1, -, h2, -⟩ := C73_length (points := [⟨0, 0⟩, ⟨100, 0⟩, ⟨100, 100⟩]) (by simp) (.inl (by simp))
  refine ⟨bz, h1, h2.trans ?_⟩
  have l1 : Spec.len ⟨⟨0, 0⟩, ⟨100, 0⟩⟩ = 100 := by
    unfold Spec.len
    rw [show ((100 : ℝ) - 0) ^ 2 + (0 - 0) ^ 2 = 100 ^ 2 by norm_num, Real.sqrt_sq (by norm_num)]
  have l2 : Spec.len ⟨⟨100, 0⟩, ⟨100, 100⟩⟩ = 100 := by
    unfold Spec.len
    rw [show ((100 : ℝ) - 100) ^ 2 + (100 - 0) ^ 2 = 100 ^ 2 by norm_num, Real.sqrt_sq (by norm_num)]
  rw [Spec.polygon, Spec.polygon, Spec.polygon, l1, l2]
  · norm_num
  · simp

end GosuPP
