import Verif.Lemmas.PathReal
import Mathlib.Analysis.Real.Pi.Bounds
import Mathlib.Analysis.SpecialFunctions.Trigonometric.Bounds

/-! Circular arcs in exact arithmetic. -/

namespace GosuPP
open Go

theorem pi32_real : (CirArc.pi32 : ℝ) = (piConst : ℝ) := rfl

theorem piConst_near : |(piConst : ℝ) - Real.pi| < 1 / 10 ^ 19 := by
  have h1 := Real.pi_gt_d20
  have h2 := Real.pi_lt_d20
  have e : (piConst : ℝ) = 3.14159265358979323846264338327950288419716939937510582097494459 := by
    unfold piConst
    norm_num
  rw [e, abs_lt]
  constructor
  · norm_num at *; linarith
  · norm_num at *; linarith

theorem unwind_real {start : ℝ} (fuel : ℕ) (e : ℝ) (h1 : -Real.pi < e) (h2 : e ≤ Real.pi) (h3 : -Real.pi < start)
    (h4 : start ≤ Real.pi) :
    ∃ e', CirArc.unwind start (fuel + 3) e = .ok e' ∧ 0 ≤ e' - start ∧ e' - start < 2 * Real.pi + 1 / 10 ^ 18 ∧
      ∃ k : ℕ, k ≤ 2 ∧ e' = e + k * (2 * (piConst : ℝ)) := by
  have hp := abs_lt.mp piConst_near
  have hpi := Real.pi_gt_three
  have step : ∀ (f : ℕ) (x : ℝ), CirArc.unwind start (f + 1) x =
      if x < start then CirArc.unwind start f (x + 2 * (piConst : ℝ)) else .ok x := by
    intro f x
    rw [CirArc.unwind]
    have e1 : (x <. start) = true ↔ x < start := RealArith.lt _ _
    simp only [e1]
    rw [RealArith.add, RealArith.mul, lit_two_real, pi32_real]
  rw [step]
  by_cases ha : e < start
  · rw [if_pos ha, step]
    by_cases hb : e + 2 * (piConst : ℝ) < start
    · rw [if_pos hb, step, if_neg (by norm_num at hp; linarith)]
      refine ⟨_, rfl, by norm_num at hp; linarith, by norm_num at hp ⊢; linarith, 2, le_refl _, by push_cast; ring⟩
    · rw [if_neg hb]
      refine ⟨_, rfl, by linarith, by norm_num at hp ⊢; linarith, 1, by norm_num, by push_cast; ring⟩
  · rw [if_neg ha]
    refine ⟨_, rfl, by linarith, ?_, 0, by norm_num, by push_cast; ring⟩
    have : (0 : ℝ) < 1 / 10 ^ 18 := by positivity
    linarith

theorem angleRV_real (a c : Vec ℝ) : -Real.pi < a.angleRV (D := ℝ) c ∧ a.angleRV (D := ℝ) c ≤ Real.pi :=
  ⟨Complex.neg_pi_lt_arg _, Complex.arg_le_pi _⟩

theorem isStraightLine_real (a b c : Vec ℝ) :
    Vec.isStraightLine (D := ℝ) a b c = true ↔ |Spec.area2 a b c| < 0.001 := by
  unfold Vec.isStraightLine Math32.abs
  rw [RealArith.lt, RealArith.down, RealArith.up, RealArith.abs, RealArith.lit]
  show |(b.y - a.y) * (c.x - a.x) - (b.x - a.x) * (c.y - a.y)| < _ ↔ _
  unfold Spec.area2
  rw [abs_sub_comm]
  norm_num

/-- The centre the code computes. -/
noncomputable def arcCentre (a b c : Vec ℝ) : Vec ℝ :=
  Vec.scl ⟨a.lenSq *. (b.y -. c.y) +. b.lenSq *. (c.y -. a.y) +. c.lenSq *. (a.y -. b.y),
     a.lenSq *. (c.x -. b.x) +. b.lenSq *. (a.x -. c.x) +. c.lenSq *. (b.x -. a.x)⟩
    (lit 1 /. (lit 2 *. (a.x *. (b.y -. c.y) +. b.x *. (c.y -. a.y) +. c.x *. (a.y -. b.y))))

/-- Square of the distance. -/
def distSq (a b : Vec ℝ) : ℝ := (b.x - a.x) ^ 2 + (b.y - a.y) ^ 2

theorem dst_real (a b : Vec ℝ) : a.dst (D := ℝ) b = Real.sqrt (distSq a b) := by
  show Real.sqrt ((b.x - a.x) * (b.x - a.x) + (b.y - a.y) * (b.y - a.y)) = _
  unfold distSq
  rw [sq, sq]

theorem arcCentre_eq {a b c m : Vec ℝ} (h : Spec.area2 a b c ≠ 0) (h1 : distSq a m = distSq b m)
    (h2 : distSq a m = distSq c m) : arcCentre a b c = m := by
  unfold distSq at h1 h2
  have hd : (lit 2 : ℝ) * (a.x * (b.y - c.y) + b.x * (c.y - a.y) + c.x * (a.y - b.y)) = 2 * Spec.area2 a b c := by
    rw [lit_two_real]; unfold Spec.area2; ring
  have h0 := mul_ne_zero (two_ne_zero (α := ℝ)) h
  apply Vec.ext
  · show (((a.x * a.x + a.y * a.y) * (b.y - c.y) + (b.x * b.x + b.y * b.y) * (c.y - a.y) + (c.x * c.x + c.y * c.y) * (a.y - b.y)) *
      ((lit 1 : ℝ) / ((lit 2 : ℝ) * (a.x * (b.y - c.y) + b.x * (c.y - a.y) + c.x * (a.y - b.y))))) = m.x
    rw [hd, lit_one_real, mul_one_div, div_eq_iff h0]
    unfold Spec.area2
    linear_combination -(c.y - a.y) * h1 - (a.y - b.y) * h2
  · show (((a.x * a.x + a.y * a.y) * (c.x - b.x) + (b.x * b.x + b.y * b.y) * (a.x - c.x) + (c.x * c.x + c.y * c.y) * (b.x - a.x)) *
      ((lit 1 : ℝ) / ((lit 2 : ℝ) * (a.x * (b.y - c.y) + b.x * (c.y - a.y) + c.x * (a.y - b.y))))) = m.y
    rw [hd, lit_one_real, mul_one_div, div_eq_iff h0]
    unfold Spec.area2
    linear_combination -(a.x - c.x) * h1 - (b.x - a.x) * h2

theorem arcCentre_equidistant {a b c : Vec ℝ} (h : Spec.area2 a b c ≠ 0) :
    distSq a (arcCentre a b c) = distSq b (arcCentre a b c) ∧ distSq a (arcCentre a b c) = distSq c (arcCentre a b c) := by
  have hd : (lit 2 : ℝ) * (a.x * (b.y - c.y) + b.x * (c.y - a.y) + c.x * (a.y - b.y)) = 2 * Spec.area2 a b c := by
    rw [lit_two_real]; unfold Spec.area2; ring
  have hx : (arcCentre a b c).x * (2 * Spec.area2 a b c) =
      (a.x * a.x + a.y * a.y) * (b.y - c.y) + (b.x * b.x + b.y * b.y) * (c.y - a.y) + (c.x * c.x + c.y * c.y) * (a.y - b.y) := by
    show (((a.x * a.x + a.y * a.y) * (b.y - c.y) + (b.x * b.x + b.y * b.y) * (c.y - a.y) + (c.x * c.x + c.y * c.y) * (a.y - b.y)) *
      ((lit 1 : ℝ) / ((lit 2 : ℝ) * (a.x * (b.y - c.y) + b.x * (c.y - a.y) + c.x * (a.y - b.y))))) * _ = _
    rw [hd, lit_one_real, mul_one_div, div_mul_cancel₀ _ (mul_ne_zero two_ne_zero h)]
  have hy : (arcCentre a b c).y * (2 * Spec.area2 a b c) =
      (a.x * a.x + a.y * a.y) * (c.x - b.x) + (b.x * b.x + b.y * b.y) * (a.x - c.x) + (c.x * c.x + c.y * c.y) * (b.x - a.x) := by
    show (((a.x * a.x + a.y * a.y) * (c.x - b.x) + (b.x * b.x + b.y * b.y) * (a.x - c.x) + (c.x * c.x + c.y * c.y) * (b.x - a.x)) *
      ((lit 1 : ℝ) / ((lit 2 : ℝ) * (a.x * (b.y - c.y) + b.x * (c.y - a.y) + c.x * (a.y - b.y))))) * _ = _
    rw [hd, lit_one_real, mul_one_div, div_mul_cancel₀ _ (mul_ne_zero two_ne_zero h)]
  unfold distSq
  generalize (arcCentre a b c).x = X at *
  generalize (arcCentre a b c).y = Y at *
  unfold Spec.area2 at h hx hy
  constructor
  · apply mul_left_cancel₀ h
    linear_combination (b.x - a.x) * hx + (b.y - a.y) * hy
  · apply mul_left_cancel₀ h
    linear_combination (c.x - a.x) * hx + (c.y - a.y) * hy

theorem area2_arc {m : Vec ℝ} {r α γ β : ℝ} {a b c : Vec ℝ} (h : Spec.Arc m r α γ β a b c) :
    Spec.area2 a b c = 4 * r ^ 2 * (Real.sin (γ / 2) * Real.sin ((β - γ) / 2) * Real.sin (β / 2)) := by
  have e1 : Spec.area2 a b c = r ^ 2 * (Real.sin (β - γ) - Real.sin β + Real.sin γ) := by
    rw [h.start, h.middle, h.stop]
    unfold Spec.area2 Spec.circle
    simp only
    rw [Real.sin_sub, Real.cos_add, Real.sin_add, Real.cos_add, Real.sin_add]
    have := Real.sin_sq_add_cos_sq α
    linear_combination (r ^ 2 * (Real.cos γ * Real.sin β - Real.sin γ * Real.cos β - Real.sin β + Real.sin γ)) * this
  obtain ⟨x, hx⟩ : ∃ x, x = γ / 2 := ⟨_, rfl⟩
  obtain ⟨y, hy⟩ : ∃ y, y = (β - γ) / 2 := ⟨_, rfl⟩
  have eγ : γ = 2 * x := by rw [hx]; ring
  have eβ : β = 2 * x + 2 * y := by rw [hx, hy]; ring
  have eb : β / 2 = x + y := by rw [hx, hy]; ring
  have ed : β - γ = 2 * y := by rw [hy]; ring
  rw [e1, ← hx, ← hy, eb, ed, eβ, eγ, Real.sin_add (2 * x) (2 * y), Real.sin_two_mul, Real.sin_two_mul, Real.cos_two_mul,
    Real.cos_two_mul, Real.sin_add]
  have h1 := Real.sin_sq_add_cos_sq x
  have h2 := Real.sin_sq_add_cos_sq y
  linear_combination r ^ 2 * (-4 * Real.sin y * Real.cos y * h1 - 4 * Real.sin x * Real.cos x * h2)

/-- The sign of the area is the direction of the turn. -/
theorem area2_sign {m : Vec ℝ} {r α γ β : ℝ} {a b c : Vec ℝ} (h : Spec.Arc m r α γ β a b c) :
    (0 < β → 0 < Spec.area2 a b c) ∧ (β < 0 → Spec.area2 a b c < 0) := by
  rw [area2_arc h]
  have hr : 0 < 4 * r ^ 2 := by have := h.radius; positivity
  have hpi := Real.pi_pos
  constructor
  · intro hb
    have ht : 0 < γ ∧ γ < β ∧ β < 2 * Real.pi := by
      rcases h.turn with h | h
      · exact h
      · linarith [h.1, h.2.1, h.2.2]
    have h1 := Real.sin_pos_of_pos_of_lt_pi (x := γ / 2) (by linarith) (by linarith)
    have h2 := Real.sin_pos_of_pos_of_lt_pi (x := (β - γ) / 2) (by linarith) (by linarith)
    have h3 := Real.sin_pos_of_pos_of_lt_pi (x := β / 2) (by linarith) (by linarith)
    positivity
  · intro hb
    have ht : -(2 * Real.pi) < β ∧ β < γ ∧ γ < 0 := by
      rcases h.turn with h | h
      · linarith [h.1, h.2.1, h.2.2]
      · exact h
    have h1 := Real.sin_neg_of_neg_of_neg_pi_lt (x := γ / 2) (by linarith) (by linarith)
    have h2 := Real.sin_neg_of_neg_of_neg_pi_lt (x := (β - γ) / 2) (by linarith) (by linarith)
    have h3 := Real.sin_neg_of_neg_of_neg_pi_lt (x := β / 2) (by linarith) (by linarith)
    have h12 := mul_pos_of_neg_of_neg h1 h2
    have := mul_neg_of_pos_of_neg h12 h3
    exact mul_neg_of_pos_of_neg hr this

theorem arg_circle (m : Vec ℝ) {r : ℝ} (hr : 0 < r) (θ : ℝ) :
    ∃ n : ℤ, (Spec.circle m r θ).angleRV (D := ℝ) m = θ + 2 * Real.pi * n := by
  have h := Complex.arg_mul_cos_add_sin_mul_I_sub hr θ
  refine ⟨⌊(Real.pi - θ) / (2 * Real.pi)⌋, ?_⟩
  have e : (Spec.circle m r θ).angleRV (D := ℝ) m = Complex.arg (r * (Complex.cos θ + Complex.sin θ * Complex.I)) := by
    show Complex.arg ⟨m.x + r * Real.cos θ - m.x, m.y + r * Real.sin θ - m.y⟩ = _
    congr 1
    apply Complex.ext
    · simp [← Complex.ofReal_cos, ← Complex.ofReal_sin]
    · simp [← Complex.ofReal_cos, ← Complex.ofReal_sin]
  rw [e]
  linarith

theorem distSq_circle (m : Vec ℝ) (r θ : ℝ) : distSq (Spec.circle m r θ) m = r ^ 2 := by
  unfold distSq Spec.circle
  simp only
  have := Real.sin_sq_add_cos_sq θ
  linear_combination r ^ 2 * this

/-- What `NewCirArc` computes for three points of an arc. -/
theorem arc_exact {m : Vec ℝ} {r α γ β : ℝ} {a b c : Vec ℝ} (h : Spec.Arc m r α γ β a b c)
    (h1 : 1 / 10 ^ 17 ≤ |β|) (h2 : |β| ≤ 2 * Real.pi - 1 / 10 ^ 17) (fuel : ℕ) :
    ∃ arc, CirArc.new (D := ℝ) (fuel + 3) a b c = .ok arc ∧ arc.centre = m ∧ arc.r = r ∧
      arc.dir * |β| = β ∧ abs (arc.totalAngle - |β|) ≤ 1 / 10 ^ 18 ∧ (∃ n : ℤ, arc.startAngle = α + 2 * Real.pi * n) ∧
      arc.unstable = Vec.isStraightLine (D := ℝ) a b c := by
  have hpi := Real.pi_gt_three
  have hp := abs_lt.mp piConst_near
  have hb0 : β ≠ 0 := by
    rintro rfl
    rw [abs_zero] at h1
    norm_num at h1
  have hA : Spec.area2 a b c ≠ 0 := by
    rcases lt_or_gt_of_ne hb0 with hb | hb
    · exact ((area2_sign h).2 hb).ne
    · exact ((area2_sign h).1 hb).ne'
  have hcentre : arcCentre a b c = m := by
    apply arcCentre_eq hA
    · rw [h.start, h.middle, distSq_circle, distSq_circle]
    · rw [h.start, h.stop, distSq_circle, distSq_circle]
  have hr : a.dst (D := ℝ) m = r := by
    rw [dst_real, h.start, distSq_circle, Real.sqrt_sq h.radius.le]
  obtain ⟨n, hn⟩ := arg_circle m h.radius α
  obtain ⟨k, hk⟩ := arg_circle m h.radius (α + β)
  rw [← h.start] at hn
  rw [← h.stop] at hk
  have hs := angleRV_real a m
  have he := angleRV_real c m
  obtain ⟨e', hu, hge, hlt, j, hj, hej⟩ := unwind_real (start := a.angleRV (D := ℝ) m) fuel (c.angleRV (D := ℝ) m)
    he.1 he.2 hs.1 hs.2
  -- the turn, up to whole turns
  have key : ∀ β' : ℝ, 1 / 10 ^ 17 ≤ β' → β' ≤ 2 * Real.pi - 1 / 10 ^ 17 → ∀ q : ℤ,
      c.angleRV (D := ℝ) m - a.angleRV (D := ℝ) m = β' + 2 * Real.pi * q →
      abs (e' - a.angleRV (D := ℝ) m - β') ≤ 4 / 10 ^ 19 := by
    intro β' hl hu' q hq
    have hj0 : (0 : ℝ) ≤ j := Nat.cast_nonneg j
    have hj2 : (j : ℝ) ≤ 2 := by exact_mod_cast hj
    have hd1 : (j : ℝ) * (2 * ((piConst : ℝ) - Real.pi)) ≤ 4 / 10 ^ 19 := by nlinarith
    have hd2 : -(4 / 10 ^ 19) ≤ (j : ℝ) * (2 * ((piConst : ℝ) - Real.pi)) := by nlinarith
    have hT : e' - a.angleRV (D := ℝ) m = β' + 2 * Real.pi * ((q + j : ℤ) : ℝ) + j * (2 * ((piConst : ℝ) - Real.pi)) := by
      push_cast
      linarith
    have hz : q + j = 0 := by
      rcases lt_trichotomy (q + (j : ℤ)) 0 with hlt' | h0 | hgt
      · exfalso
        have : ((q + j : ℤ) : ℝ) ≤ -1 := by exact_mod_cast (by omega : q + (j : ℤ) ≤ -1)
        have h3 : 2 * Real.pi * ((q + j : ℤ) : ℝ) ≤ 2 * Real.pi * (-1) := mul_le_mul_of_nonneg_left this (by linarith)
        norm_num at hl hu' hd1 hd2 hlt
        linarith
      · exact h0
      · exfalso
        have : (1 : ℝ) ≤ ((q + j : ℤ) : ℝ) := by exact_mod_cast hgt
        have h3 : 2 * Real.pi * 1 ≤ 2 * Real.pi * ((q + j : ℤ) : ℝ) := mul_le_mul_of_nonneg_left this (by linarith)
        norm_num at hl hu' hd1 hd2 hlt
        linarith
    rw [hz] at hT
    rw [hT, abs_le]
    push_cast
    constructor <;> linarith
  have hdot : (((Vec.mk (c.sub a).y (fneg (c.sub a).x)).dot (b.sub a) <. (lit 0 : ℝ)) = true) ↔ Spec.area2 a b c < 0 := by
    rw [RealArith.lt, lit_zero_real]
    show (c.y - a.y) * (b.x - a.x) + -(c.x - a.x) * (b.y - a.y) < 0 ↔ _
    unfold Spec.area2
    constructor <;> intro h <;> linarith
  unfold CirArc.new
  simp only
  have hc' : (Vec.scl ⟨a.lenSq *. (b.y -. c.y) +. b.lenSq *. (c.y -. a.y) +. c.lenSq *. (a.y -. b.y),
     a.lenSq *. (c.x -. b.x) +. b.lenSq *. (a.x -. c.x) +. c.lenSq *. (b.x -. a.x)⟩
    (lit 1 /. (lit 2 *. (a.x *. (b.y -. c.y) +. b.x *. (c.y -. a.y) +. c.x *. (a.y -. b.y)))) : Vec ℝ) = m := hcentre
  rw [hc', hu]
  simp only [ok_bind]
  rcases lt_or_gt_of_ne hb0 with hb | hb
  · rw [if_pos (hdot.mpr ((area2_sign h).2 hb))]
    refine ⟨_, rfl, rfl, hr, ?_, ?_, ⟨n, hn⟩, rfl⟩
    · show -(lit 1 : ℝ) * |β| = β
      rw [lit_one_real, abs_of_neg hb]
      ring
    · rw [abs_of_neg hb] at h1 h2 ⊢
      have := key (β + 2 * Real.pi) (by linarith) (by linarith) (k - n - 1) (by rw [hk, hn]; push_cast; ring)
      have := abs_le.mp this
      show |(lit (2 * piConst) : ℝ) - (e' - a.angleRV (D := ℝ) m) - -β| ≤ _
      rw [RealArith.lit, abs_le]
      push_cast
      norm_num at this hp ⊢
      constructor <;> linarith
  · rw [if_neg (fun hh => absurd (hdot.mp hh) (not_lt.mpr ((area2_sign h).1 hb).le))]
    refine ⟨_, rfl, rfl, hr, ?_, ?_, ⟨n, hn⟩, rfl⟩
    · show (lit 1 : ℝ) * |β| = β
      rw [lit_one_real, abs_of_pos hb]
      ring
    · rw [abs_of_pos hb] at h1 h2 ⊢
      have := key β (by linarith) (by linarith) (k - n) (by rw [hk, hn]; push_cast; ring)
      refine le_trans this ?_
      norm_num

/-- The points of the computed arc. -/
theorem arc_pointAt_near {m : Vec ℝ} {r α β : ℝ} {arc : CirArc ℝ} (hr0 : 0 < r) (hc : arc.centre = m) (hr : arc.r = r)
    (hb : β ≠ 0) (hd : arc.dir * |β| = β) (ht : abs (arc.totalAngle - |β|) ≤ 1 / 10 ^ 18) {n : ℤ}
    (hs : arc.startAngle = α + 2 * Real.pi * n) {t : ℝ} (h0 : 0 ≤ t) (h1 : t ≤ 1) :
    Spec.Near (r / 10 ^ 18) (arc.pointAt (D := ℝ) t) (Spec.circle m r (α + t * β)) := by
  have hbp : 0 < |β| := abs_pos.mpr hb
  have hdir : |arc.dir| = 1 := by
    have := congrArg abs hd
    rw [abs_mul, abs_abs] at this
    have h := mul_right_cancel₀ hbp.ne' (this.trans (one_mul _).symm)
    exact h
  obtain ⟨x, hx⟩ : ∃ x, x = α + arc.dir * t * arc.totalAngle := ⟨_, rfl⟩
  have hdiff : |x - (α + t * β)| ≤ 1 / 10 ^ 18 := by
    have e : x - (α + t * β) = arc.dir * (t * (arc.totalAngle - |β|)) := by
      rw [hx]
      linear_combination t * hd
    rw [e, abs_mul, hdir, one_mul, abs_mul, abs_of_nonneg h0]
    have := abs_nonneg (arc.totalAngle - |β|)
    nlinarith
  have ec : Real.cos (arc.startAngle + arc.dir * t * arc.totalAngle) = Real.cos x := by
    rw [hs, show α + 2 * Real.pi * n + arc.dir * t * arc.totalAngle = x + n * (2 * Real.pi) by rw [hx]; ring,
      Real.cos_add_int_mul_two_pi]
  have es : Real.sin (arc.startAngle + arc.dir * t * arc.totalAngle) = Real.sin x := by
    rw [hs, show α + 2 * Real.pi * n + arc.dir * t * arc.totalAngle = x + n * (2 * Real.pi) by rw [hx]; ring,
      Real.sin_add_int_mul_two_pi]
  constructor
  · show |Real.cos (arc.startAngle + arc.dir * t * arc.totalAngle) * arc.r + arc.centre.x - (m.x + r * Real.cos (α + t * β))| ≤ _
    rw [ec, hr, hc, show Real.cos x * r + m.x - (m.x + r * Real.cos (α + t * β)) = r * (Real.cos x - Real.cos (α + t * β)) by ring,
      abs_mul, abs_of_pos hr0, div_eq_mul_one_div]
    exact mul_le_mul_of_nonneg_left ((Real.abs_cos_sub_cos_le _ _).trans hdiff) hr0.le
  · show |Real.sin (arc.startAngle + arc.dir * t * arc.totalAngle) * arc.r + arc.centre.y - (m.y + r * Real.sin (α + t * β))| ≤ _
    rw [es, hr, hc, show Real.sin x * r + m.y - (m.y + r * Real.sin (α + t * β)) = r * (Real.sin x - Real.sin (α + t * β)) by ring,
      abs_mul, abs_of_pos hr0, div_eq_mul_one_div]
    exact mul_le_mul_of_nonneg_left ((Real.abs_sin_sub_sin_le _ _).trans hdiff) hr0.le

theorem arcLoop_length (arc : CirArc ℝ) (segments : ℤ) (k : ℕ) (i : ℤ) :
    (arcLoop (D := ℝ) arc segments k i).length = k := by
  induction k generalizing i with
  | zero => rfl
  | succ k ih => rw [arcLoop, List.length_cons, ih]

theorem arcLoop_getElem (arc : CirArc ℝ) (segments : ℤ) (k : ℕ) (i : ℤ) {j : ℕ} (hj : j < k) :
    (arcLoop (D := ℝ) arc segments k i)[j]? = some ⟨arc.pointAt (D := ℝ) (((i + j : ℤ) : ℝ) / (segments : ℝ)),
      arc.pointAt (D := ℝ) (((i + j + 1 : ℤ) : ℝ) / (segments : ℝ))⟩ := by
  induction k generalizing i j with
  | zero => omega
  | succ k ih =>
    rw [arcLoop]
    cases j with
    | zero =>
      rw [List.getElem?_cons_zero]
      simp only [Nat.cast_zero, add_zero]
      rfl
    | succ j =>
      rw [List.getElem?_cons_succ, ih (i + 1) (by omega)]
      have e : i + 1 + (j : ℤ) = i + ((j + 1 : ℕ) : ℤ) := by push_cast; ring
      rw [e]

theorem trunc_real {x : ℝ} (hx : 0 ≤ x) : GoFloat.trunc x = ⌊x⌋ := by
  show (if x < 0 then ⌈x⌉ else ⌊x⌋) = _
  rw [if_neg (not_lt.mpr hx)]

/-- The lines of a circular arc. -/
theorem arc_lines {m : Vec ℝ} {r α γ β : ℝ} {a b c : Vec ℝ} (h : Spec.Arc m r α γ β a b c)
    (h1 : 1 / 10 ^ 17 ≤ |β|) (h2 : |β| ≤ 2 * Real.pi - 1 / 10 ^ 17) (hA : 0.001 ≤ |Spec.area2 a b c|)
    (hsize : r * (|β| + 1 / 10 ^ 18) ≤ 2 ^ 47) (fuel : ℕ) :
    ∃ lines : List (Linear ℝ), processType (D := ℝ) (fuel + 3) ['P'] [a, b, c] = .ok lines ∧
      8 * (lines.length : ℝ) ≤ r * (|β| + 1 / 10 ^ 18) ∧ r * (|β| - 1 / 10 ^ 18) < 8 * ((lines.length : ℝ) + 1) ∧
      ∀ i : ℕ, i < lines.length → ∃ l, lines[i]? = some l ∧
        Spec.Near (r / 10 ^ 18) l.p1 (Spec.circle m r (α + (i : ℝ) / lines.length * β)) ∧
        Spec.Near (r / 10 ^ 18) l.p2 (Spec.circle m r (α + ((i : ℝ) + 1) / lines.length * β)) := by
  obtain ⟨arc, hn, hc, hr, hd, ht, ⟨n, hs⟩, hun⟩ := arc_exact h h1 h2 fuel
  have hr0 := h.radius
  have hb : β ≠ 0 := by
    rintro rfl
    rw [abs_zero] at h1
    norm_num at h1
  have hns : Vec.isStraightLine (D := ℝ) a b c = false := by
    rw [Bool.eq_false_iff]
    intro hh
    exact absurd ((isStraightLine_real a b c).mp hh) (not_lt.mpr hA)
  have ht' := abs_le.mp ht
  have htot : 0 ≤ arc.totalAngle := by norm_num at ht' h1; linarith
  set x : ℝ := arc.r * arc.totalAngle * (lit 0.125 : ℝ) with hx
  have hx8 : x = r * arc.totalAngle / 8 := by
    rw [hx, hr, RealArith.lit]
    push_cast
    ring
  have hx0 : 0 ≤ x := by rw [hx8]; positivity
  have htr : GoFloat.trunc (arc.r *. arc.totalAngle *. (lit 0.125 : ℝ)) = ⌊x⌋ := trunc_real hx0
  have hfl0 : 0 ≤ ⌊x⌋ := Int.floor_nonneg.mpr hx0
  have hxle : 8 * x ≤ r * (|β| + 1 / 10 ^ 18) := by
    rw [hx8]
    have := mul_le_mul_of_nonneg_left (show arc.totalAngle ≤ |β| + 1 / 10 ^ 18 by linarith) hr0.le
    linarith
  have hxge : r * (|β| - 1 / 10 ^ 18) ≤ 8 * x := by
    rw [hx8]
    have := mul_le_mul_of_nonneg_left (show |β| - 1 / 10 ^ 18 ≤ arc.totalAngle by linarith) hr0.le
    linarith
  have hmake : makeCheck 16 ⌊x⌋ = .ok () := by
    unfold makeCheck
    rw [if_neg]
    rintro (hneg | hbig)
    · omega
    · have h3 := Int.floor_le x
      have h4 : (281474976710656 : ℝ) < 16 * (⌊x⌋ : ℝ) := by exact_mod_cast hbig
      norm_num at hsize
      linarith
  obtain ⟨N, hN⟩ := Int.eq_ofNat_of_zero_le hfl0
  have hfloor : (N : ℝ) = (⌊x⌋ : ℝ) := by rw [hN]; simp
  refine ⟨arcLoop (D := ℝ) arc ⌊x⌋ N 0, ?_, ?_, ?_, ?_⟩
  · unfold processType
    rw [if_pos rfl]
    unfold processPerfect
    rw [if_neg (by simp)]
    simp only
    rw [hns]
    simp only [Bool.false_eq_true, if_false]
    unfold approximateCircularArc
    simp only [hn, ok_bind]
    rw [hun, hns]
    simp only [Bool.false_eq_true, if_false]
    rw [htr, hmake, hN]
    rfl
  · rw [arcLoop_length, hfloor]
    linarith [Int.floor_le x]
  · rw [arcLoop_length, hfloor]
    linarith [Int.lt_floor_add_one x]
  · intro i hi
    rw [arcLoop_length] at hi ⊢
    have hNpos : (0 : ℝ) < N := by exact_mod_cast (by omega : 0 < N)
    have hiN : (i : ℝ) + 1 ≤ N := by exact_mod_cast hi
    have hi0 : (0 : ℝ) ≤ i := Nat.cast_nonneg i
    refine ⟨_, arcLoop_getElem arc ⌊x⌋ N 0 hi, ?_, ?_⟩
    · have e : (((0 : ℤ) + (i : ℤ) : ℤ) : ℝ) / ((⌊x⌋ : ℤ) : ℝ) = (i : ℝ) / N := by rw [hfloor]; push_cast; rw [zero_add]
      simp only
      rw [e]
      exact arc_pointAt_near hr0 hc hr hb hd ht hs (by positivity) (by rw [div_le_one hNpos]; linarith)
    · have e : (((0 : ℤ) + (i : ℤ) + 1 : ℤ) : ℝ) / ((⌊x⌋ : ℤ) : ℝ) = ((i : ℝ) + 1) / N := by rw [hfloor]; push_cast; rw [zero_add]
      simp only
      rw [e]
      exact arc_pointAt_near hr0 hc hr hb hd ht hs (by positivity) (by rw [div_le_one hNpos]; linarith)

end GosuPP
