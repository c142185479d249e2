import Verif.Lemmas.CurveAngles
import Verif.Props.Paths

/-!
# C74: directions and lengths of curves; C75: vectors
-/

namespace GosuPP
open Go MultiCurve

/-! ## C74 -/

/-- The start angle of a line is the direction from its end to its start, the end angle the direction from its start to its
end; both in `(-π, π]` (exact arithmetic). -/
theorem C74_line (l : Linear ℝ) :
    l.p1 = Spec.circle l.p2 (Spec.len l) (l.getStartAngle (D := ℝ)) ∧
    l.p2 = Spec.circle l.p1 (Spec.len l) (l.getEndAngle (D := ℝ)) ∧
    (-Real.pi < l.getStartAngle (D := ℝ) ∧ l.getStartAngle (D := ℝ) ≤ Real.pi) ∧
    (-Real.pi < l.getEndAngle (D := ℝ) ∧ l.getEndAngle (D := ℝ) ≤ Real.pi) := by
  have h1 := polar l.p1 l.p2
  have h2 := polar l.p2 l.p1
  have e1 : l.p1.dst (D := ℝ) l.p2 = Spec.len l := getLength_real l
  have e2 : l.p2.dst (D := ℝ) l.p1 = Spec.len l := by
    show Real.sqrt ((l.p1.x - l.p2.x) * (l.p1.x - l.p2.x) + (l.p1.y - l.p2.y) * (l.p1.y - l.p2.y)) = _
    unfold Spec.len
    congr 1
    ring
  rw [e1] at h1
  rw [e2] at h2
  refine ⟨?_, ?_, angleRV_real _ _, angleRV_real _ _⟩
  · conv_lhs => rw [← h1]
    apply Vec.ext
    · show Real.cos _ * _ + _ = _ + _ * Real.cos _; unfold Linear.getStartAngle; rw [mul_comm, add_comm]; rfl
    · show Real.sin _ * _ + _ = _ + _ * Real.sin _; unfold Linear.getStartAngle; rw [mul_comm, add_comm]; rfl
  · conv_lhs => rw [← h2]
    apply Vec.ext
    · show Real.cos _ * _ + _ = _ + _ * Real.cos _; unfold Linear.getEndAngle; rw [mul_comm, add_comm]; rfl
    · show Real.sin _ * _ + _ = _ + _ * Real.sin _; unfold Linear.getEndAngle; rw [mul_comm, add_comm]; rfl

/-- A path without lines has the angle 0 everywhere; otherwise the angles at `t` are those of one of its lines and asking for
them never panics (any arithmetic). -/
theorem C74_total {S D : Type} [GoFloat S] [GoFloat D] [GoConv S D] [GoLibm D] (mc : MultiCurve S) (t : S) :
    (mc.lines = [] → mc.getStartAngle (D := D) = lit 0 ∧ mc.getEndAngle (D := D) = lit 0 ∧
      mc.getStartAngleAt (D := D) t = .ok (lit 0) ∧ mc.getEndAngleAt (D := D) t = .ok (lit 0)) ∧
    (mc.lines ≠ [] → ∃ l ∈ mc.lines, mc.getStartAngleAt (D := D) t = .ok (l.getStartAngle (D := D)) ∧
      mc.getEndAngleAt (D := D) t = .ok (l.getEndAngle (D := D))) := by
  constructor
  · intro h
    unfold getStartAngle getEndAngle getStartAngleAt getEndAngleAt
    rw [h]
    exact ⟨rfl, rfl, rfl, rfl⟩
  · intro h
    obtain ⟨l, h1, h2⟩ := getLineAt_total (D := D) mc h t
    refine ⟨l, h1, ?_⟩
    unfold getStartAngleAt getEndAngleAt
    have hn : ¬ ((mc.lines.length == 0) = true) := by simpa using h
    rw [if_neg hn, if_neg hn, h2]
    exact ⟨rfl, rfl⟩

/-- The start angle of a path is that of its first line, the end angle that of its last line (any arithmetic). -/
theorem C74_ends {S D : Type} [GoFloat S] [GoFloat D] [GoConv S D] [GoLibm D] (mc : MultiCurve S) (l : Linear S) (ls : List (Linear S)) :
    (mc.lines = l :: ls → mc.getStartAngle (D := D) = l.getStartAngle (D := D)) ∧
    (mc.lines = ls ++ [l] → mc.getEndAngle (D := D) = l.getEndAngle (D := D)) := by
  constructor
  · intro h
    unfold getStartAngle
    rw [h]
  · intro h
    unfold getEndAngle
    rw [h, List.getLast?_concat]

/-- The angles at `t` are those of a line on which `PointAt t` lies (exact arithmetic). -/
theorem C74_at {fuel : Nat} {typ : Str} {points : List (Vec ℝ)} {D : ℝ} {mc : MultiCurve ℝ}
    (h : MultiCurve.newT fuel typ points D = .ok mc) (hpos : 0 < mc.length) (t : ℝ) :
    ∃ l ∈ mc.lines, (∃ u, 0 ≤ u ∧ u ≤ 1 ∧ mc.pointAt (D := ℝ) t = .ok (Spec.along l u)) ∧
      mc.getStartAngleAt (D := ℝ) t = .ok (l.getStartAngle (D := ℝ)) ∧
      mc.getEndAngleAt (D := ℝ) t = .ok (l.getEndAngle (D := ℝ)) := by
  obtain ⟨l, h1, h2, h3⟩ := getLineAt_real (newT_measuredR h) hpos t
  refine ⟨l, h1, h3, ?_⟩
  unfold getStartAngleAt getEndAngleAt
  have hn : ¬ ((mc.lines.length == 0) = true) := by
    intro hz
    rw [beq_iff_eq, List.length_eq_zero_iff] at hz
    rw [hz] at h1
    cases h1
  rw [if_neg hn, if_neg hn, h2]
  exact ⟨rfl, rfl⟩

/-- A straight slider meets the hypotheses. -/
example : ∃ mc, MultiCurve.newT (S := ℝ) (D := ℝ) 9 ['L'] [⟨0, 0⟩, ⟨6, 8⟩] (5 : ℝ) = .ok mc ∧ 0 < mc.length := by
  have h1 : ∃ mc, MultiCurve.newT 9 ['L'] Sample.straight (5 : ℝ) = .ok mc := by
    unfold MultiCurve.newT
    rw [Sample.straight_lines]
    exact ⟨_, rfl⟩
  obtain ⟨mc, h1⟩ := h1
  refine ⟨mc, h1, ?_⟩
  rw [(C33_length h1 (Sample.straight_lines 9) ?_ (by norm_num) (.inl ?_)).1]
  · norm_num
  · rw [Sample.straight_length]; norm_num
  · rw [Sample.straight_length]; norm_num

/-- The length of a circular arc through three points is the length of the arc, up to `r * 10⁻¹⁸` because the code's π is a
decimal constant (exact arithmetic). -/
theorem C74_arc {m : Vec ℝ} {r α γ β : ℝ} {a b c : Vec ℝ} (h : Spec.Arc m r α γ β a b c) (h1 : 1 / 10 ^ 17 ≤ |β|)
    (h2 : |β| ≤ 2 * Real.pi - 1 / 10 ^ 17) (fuel : ℕ) :
    ∃ arc : CirArc ℝ, CirArc.new (D := ℝ) (fuel + 3) a b c = .ok arc ∧ |arc.getLength - r * (|β|)| ≤ r / 10 ^ 18 := by
  obtain ⟨arc, hn, hc, hr, hd, ht, -⟩ := arc_exact h h1 h2 fuel
  refine ⟨arc, hn, ?_⟩
  show |arc.r * arc.totalAngle - r * (|β|)| ≤ _
  rw [hr, ← mul_sub, abs_mul, abs_of_pos h.radius, div_eq_mul_one_div]
  exact mul_le_mul_of_nonneg_left ht h.radius.le

/-- A quarter circle of radius 100 meets the hypotheses. -/
example : 1 / 10 ^ 17 ≤ |Real.pi / 2| ∧ |Real.pi / 2| ≤ 2 * Real.pi - 1 / 10 ^ 17 := by
  have hp1 := Real.pi_gt_d2
  rw [abs_of_pos (by linarith)]
  norm_num at hp1 ⊢
  constructor <;> linarith

/-- `NewCatmull` panics unless there are four points (any arithmetic). -/
theorem C74_catmull_panic {S D : Type} [GoFloat S] [GoFloat D] [GoConv S D] (points : List (Vec S)) :
    Catmull.new (D := D) points = .error .panic ↔ points.length ≠ 4 := by
  rcases points with _ | ⟨a, _ | ⟨b, _ | ⟨c, _ | ⟨d, _ | ⟨e, t⟩⟩⟩⟩⟩ <;> simp [Catmull.new]

/-- A Catmull curve leads from the second to the third point and is at least as long as their distance (exact arithmetic). -/
theorem C74_catmull (a b c d : Vec ℝ) : ∃ cm, Catmull.new (D := ℝ) [a, b, c, d] = .ok cm ∧
    cm.pointAt 0 = b ∧ cm.pointAt 1 = c ∧ Spec.len ⟨b, c⟩ ≤ cm.approxLength := by
  have h0 : catmullPoint a b c d 0 = b := by
    unfold catmullPoint
    rw [catmullCoord_zero, catmullCoord_zero]
  have h1 : catmullPoint a b c d 1 = c := by
    unfold catmullPoint
    rw [catmullCoord_one, catmullCoord_one]
  refine ⟨_, rfl, h0, h1, ?_⟩
  show _ ≤ Catmull.lengthLoop (D := ℝ) ⟨a, b, c, d, lit 0⟩ (Math32.ceil (D := ℝ) (b.dst (D := ℝ) c))
    (trunc (Math32.ceil (D := ℝ) (b.dst (D := ℝ) c) : ℝ)).toNat 1 (lit 0)
  have hlen : b.dst (D := ℝ) c = Spec.len ⟨b, c⟩ := getLength_real ⟨b, c⟩
  set P := Spec.len ⟨b, c⟩ with hP
  have hP0 : 0 ≤ P := len_nonneg _
  have hceil : (Math32.ceil (D := ℝ) (b.dst (D := ℝ) c) : ℝ) = ((⌈P⌉ : Int) : ℝ) := by
    show ((⌈b.dst (D := ℝ) c⌉ : Int) : ℝ) = _
    rw [hlen]
  have hN0 : 0 ≤ ⌈P⌉ := Int.ceil_nonneg hP0
  obtain ⟨N, hN⟩ : ∃ N : ℕ, ⌈P⌉ = (N : Int) := ⟨⌈P⌉.toNat, by omega⟩
  have htr : (trunc (((⌈P⌉ : Int) : ℝ)) : Int).toNat = N := by
    show (if (((⌈P⌉ : Int) : ℝ)) < 0 then ⌈(((⌈P⌉ : Int) : ℝ))⌉ else ⌊(((⌈P⌉ : Int) : ℝ))⌋).toNat = N
    rw [if_neg (not_lt.mpr (by exact_mod_cast hN0)), Int.floor_intCast, hN]
    rfl
  rw [hceil, htr]
  have hL := Catmull.lengthLoop_real ⟨a, b, c, d, lit 0⟩ ((⌈P⌉ : Int) : ℝ) N 0 (lit 0)
  rw [show ((0 + 1 : ℕ) : Int) = 1 from rfl] at hL
  rw [hL, lit_zero_real, zero_add, hN, Int.cast_natCast]
  simp only [Nat.zero_add]
  rcases Nat.eq_zero_or_pos N with rfl | hNpos
  · have := Int.le_ceil P
    rw [hN] at this
    simpa using this
  have hNr : (0 : ℝ) < (N : ℝ) := by exact_mod_cast hNpos
  have := norm_sum_le (Finset.range N) (fun m : ℕ => cplx (Catmull.pointAt ⟨a, b, c, d, lit 0⟩ (((m + 1 : ℕ) : ℝ) / N)) -
    cplx (Catmull.pointAt ⟨a, b, c, d, lit 0⟩ ((m : ℝ) / N)))
  rw [Finset.sum_range_sub (fun m : ℕ => cplx (Catmull.pointAt ⟨a, b, c, d, lit 0⟩ ((m : ℝ) / N))), div_self hNr.ne',
    Nat.cast_zero, zero_div] at this
  have e0 : Catmull.pointAt ⟨a, b, c, d, lit 0⟩ 0 = b := h0
  have e1 : Catmull.pointAt ⟨a, b, c, d, lit 0⟩ 1 = c := h1
  rw [e0, e1, ← len_cplx, ← hP, lit_zero_real] at this
  exact this

/-! ## C75 -/

/-- `Rotate` turns a vector by the angle and keeps its length; turning twice adds the angles (exact arithmetic). -/
theorem C75_rotate (r α θ φ : ℝ) (v : Vec ℝ) :
    (Spec.circle ⟨0, 0⟩ r α).rotate (D := ℝ) θ = Spec.circle ⟨0, 0⟩ r (α + θ) ∧
    (v.rotate (D := ℝ) θ).len (D := ℝ) = v.len (D := ℝ) ∧
    (v.rotate (D := ℝ) θ).rotate (D := ℝ) φ = v.rotate (D := ℝ) (θ + φ) := by
  refine ⟨?_, ?_, ?_⟩
  · apply Vec.ext
    · show (0 + r * Real.cos α) * Real.cos θ - (0 + r * Real.sin α) * Real.sin θ = 0 + r * Real.cos (α + θ)
      rw [Real.cos_add]; ring
    · show (0 + r * Real.cos α) * Real.sin θ + (0 + r * Real.sin α) * Real.cos θ = 0 + r * Real.sin (α + θ)
      rw [Real.sin_add]; ring
  · show Real.sqrt ((v.x * Real.cos θ - v.y * Real.sin θ) * (v.x * Real.cos θ - v.y * Real.sin θ) +
      (v.x * Real.sin θ + v.y * Real.cos θ) * (v.x * Real.sin θ + v.y * Real.cos θ)) = Real.sqrt (v.x * v.x + v.y * v.y)
    congr 1
    have := Real.sin_sq_add_cos_sq θ
    linear_combination (v.x ^ 2 + v.y ^ 2) * this
  · apply Vec.ext
    · show (v.x * Real.cos θ - v.y * Real.sin θ) * Real.cos φ - (v.x * Real.sin θ + v.y * Real.cos θ) * Real.sin φ =
        v.x * Real.cos (θ + φ) - v.y * Real.sin (θ + φ)
      rw [Real.cos_add, Real.sin_add]; ring
    · show (v.x * Real.cos θ - v.y * Real.sin θ) * Real.sin φ + (v.x * Real.sin θ + v.y * Real.cos θ) * Real.cos φ =
        v.x * Real.sin (θ + φ) + v.y * Real.cos (θ + φ)
      rw [Real.cos_add, Real.sin_add]; ring

/-- `Nor` gives the vector of length 1 with the same direction, but leaves vectors shorter than √0.00001 as they are
(exact arithmetic). -/
theorem C75_nor (v : Vec ℝ) :
    (v.x ^ 2 + v.y ^ 2 < 0.00001 → v.nor (D := ℝ) = v) ∧
    (0.00001 ≤ v.x ^ 2 + v.y ^ 2 → (v.nor (D := ℝ)).x ^ 2 + (v.nor (D := ℝ)).y ^ 2 = 1 ∧
      ∃ s : ℝ, 0 < s ∧ v = ⟨s * (v.nor (D := ℝ)).x, s * (v.nor (D := ℝ)).y⟩) := by
  have hsq : v.lenSq = v.x ^ 2 + v.y ^ 2 := by
    show v.x * v.x + v.y * v.y = _
    ring
  have heps : (lit 0.00001 : ℝ) = 0.00001 := by rw [RealArith.lit]; norm_num
  constructor
  · intro h
    unfold Vec.nor
    simp only
    rw [if_pos (by rw [RealArith.lt, hsq, heps]; exact h)]
  · intro h
    have hp : 0 < v.x ^ 2 + v.y ^ 2 := by norm_num at h ⊢; linarith
    have hs : 0 < Real.sqrt (v.x ^ 2 + v.y ^ 2) := Real.sqrt_pos.mpr hp
    have e : v.nor (D := ℝ) = ⟨v.x / Real.sqrt (v.x ^ 2 + v.y ^ 2), v.y / Real.sqrt (v.x ^ 2 + v.y ^ 2)⟩ := by
      unfold Vec.nor
      simp only
      rw [if_neg (by rw [RealArith.lt, hsq, heps]; exact not_lt.mpr h), hsq]
      rfl
    rw [e]
    constructor
    · simp only
      rw [div_pow, div_pow, Real.sq_sqrt hp.le, ← add_div, div_self hp.ne']
    · refine ⟨Real.sqrt (v.x ^ 2 + v.y ^ 2), hs, ?_⟩
      apply Vec.ext <;> simp only <;> field_simp

example : (0.00001 : ℝ) ≤ (3 : ℝ) ^ 2 + 4 ^ 2 ∧ (0.001 : ℝ) ^ 2 + 0.001 ^ 2 < 0.00001 := by norm_num

/-- `AngleBetween32` is the angle at the centre: between 0 and π, the same in both directions, and its cosine times the two
distances is the scalar product (exact arithmetic). -/
theorem C75_angle (o p q : Vec ℝ) (hp : o ≠ p) (hq : o ≠ q) :
    0 ≤ Vec.angleBetween (D := ℝ) o p q ∧ Vec.angleBetween (D := ℝ) o p q ≤ Real.pi ∧
    Vec.angleBetween (D := ℝ) o p q = Vec.angleBetween (D := ℝ) o q p ∧
    Spec.len ⟨o, p⟩ * Spec.len ⟨o, q⟩ * Real.cos (Vec.angleBetween (D := ℝ) o p q) =
      (p.x - o.x) * (q.x - o.x) + (p.y - o.y) * (q.y - o.y) := by
  have hA : 0 < Spec.len ⟨o, p⟩ := lt_of_le_of_ne (len_nonneg _) (fun h => hp (len_eq_zero.mp h.symm))
  have hB : 0 < Spec.len ⟨o, q⟩ := lt_of_le_of_ne (len_nonneg _) (fun h => hq (len_eq_zero.mp h.symm))
  have key : ∀ p q : Vec ℝ, Vec.angleBetween (D := ℝ) o p q = Real.arccos
      ((Spec.len ⟨o, p⟩ * Spec.len ⟨o, p⟩ + Spec.len ⟨o, q⟩ * Spec.len ⟨o, q⟩ - Spec.len ⟨p, q⟩ * Spec.len ⟨p, q⟩) /
        (2 * Spec.len ⟨o, p⟩ * Spec.len ⟨o, q⟩)) := by
    intro p q
    unfold Vec.angleBetween
    simp only
    rw [show o.dst (D := ℝ) p = Spec.len ⟨o, p⟩ from getLength_real ⟨o, p⟩,
      show o.dst (D := ℝ) q = Spec.len ⟨o, q⟩ from getLength_real ⟨o, q⟩,
      show p.dst (D := ℝ) q = Spec.len ⟨p, q⟩ from getLength_real ⟨p, q⟩, lit_two_real]
    rfl
  have hsym : Spec.len ⟨p, q⟩ = Spec.len ⟨q, p⟩ := by
    unfold Spec.len
    congr 1
    ring
  have sA := len_sq ⟨o, p⟩
  have sB := len_sq ⟨o, q⟩
  have sC := len_sq ⟨p, q⟩
  simp only at sA sB sC
  have hnum : Spec.len ⟨o, p⟩ * Spec.len ⟨o, p⟩ + Spec.len ⟨o, q⟩ * Spec.len ⟨o, q⟩ - Spec.len ⟨p, q⟩ * Spec.len ⟨p, q⟩ =
      2 * ((p.x - o.x) * (q.x - o.x) + (p.y - o.y) * (q.y - o.y)) := by
    linear_combination sA + sB - sC
  have hcs : ((p.x - o.x) * (q.x - o.x) + (p.y - o.y) * (q.y - o.y)) ^ 2 ≤ (Spec.len ⟨o, p⟩ * Spec.len ⟨o, q⟩) ^ 2 := by
    rw [mul_pow, sA, sB]
    nlinarith [sq_nonneg ((p.x - o.x) * (q.y - o.y) - (p.y - o.y) * (q.x - o.x))]
  have habs := abs_le_of_sq_le_sq' hcs (by positivity)
  refine ⟨?_, ?_, ?_, ?_⟩
  · rw [key]; exact Real.arccos_nonneg _
  · rw [key]; exact Real.arccos_le_pi _
  · rw [key, key, hsym]
    congr 1
    ring
  · rw [key, hnum, Real.cos_arccos]
    · field_simp
    · rw [le_div_iff₀ (by positivity)]
      nlinarith [habs.1]
    · rw [div_le_iff₀ (by positivity)]
      nlinarith [habs.2]

example : (⟨0, 0⟩ : Vec ℝ) ≠ ⟨1, 3⟩ ∧ (⟨0, 0⟩ : Vec ℝ) ≠ ⟨4, 12⟩ := by
  constructor <;> (intro h; have := congrArg Vec.x h; norm_num at this)

/-- In IEEE arithmetic rounding can take the argument of the arc cosine above 1: the angle between (1,3) and (4,12), seen from
the origin, is NaN instead of 0, for every library whose arc cosine is NaN above 1. -/
theorem C75_nan [GoLibm F64] (hacos : ∀ x : F64, (lit 1 <. x) = true → GoLibm.acos x = GoFloat.nan) :
    GoFloat.isNaN (Vec.angleBetween (S := F32) (D := F64) ⟨lit 0, lit 0⟩ ⟨lit 1, lit 3⟩ ⟨lit 4, lit 12⟩) = true := by
  have e : Vec.angleBetween (S := F32) (D := F64) ⟨lit 0, lit 0⟩ ⟨lit 1, lit 3⟩ ⟨lit 4, lit 12⟩ =
      down (GoLibm.acos (up (
        let a := Vec.dst (S := F32) (D := F64) ⟨lit 0, lit 0⟩ ⟨lit 1, lit 3⟩
        let b := Vec.dst (S := F32) (D := F64) ⟨lit 0, lit 0⟩ ⟨lit 4, lit 12⟩
        let c := Vec.dst (S := F32) (D := F64) ⟨lit 1, lit 3⟩ ⟨lit 4, lit 12⟩
        (a *. a +. b *. b -. c *. c) /. (lit 2 *. a *. b)) : F64)) := rfl
  rw [e, hacos]
  · decide +kernel
  · decide +kernel

end GosuPP
