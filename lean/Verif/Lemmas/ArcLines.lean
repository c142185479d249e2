import Verif.Lemmas.ArcIEEE

/-! The lines of a circular arc in float32. -/

namespace GosuPP
open Go Fl

/-! ### Number of lines -/

/-- The number of lines of an arc is about an eighth of its length. -/
theorem arc_segments {arc : CirArc F32} {mx my r s t d : ℚ} (g : GoodArc arc mx my r s t d) :
    ∃ n : ℕ, Go.trunc (arc.r *. arc.totalAngle *. lit 0.125) = (n : ℤ) ∧ n ≤ 5780 ∧
      (1 ≤ n → 8 * n - 1 / 32 ≤ (r : ℝ) * t ∧ (r : ℝ) * t ≤ 8 * (n + 1) + 1 / 32) := by
  obtain ⟨zr, hr⟩ := g.radius
  obtain ⟨zt, ht⟩ := g.total
  have r0 : (0 : ℝ) ≤ r := by
    have : (0 : ℚ) ≤ r := by have := g.r0; norm_num at this; linarith
    exact_mod_cast this
  have r1 : (r : ℝ) ≤ 7350 := by exact_mod_cast g.r1
  have t1 : |(t : ℝ)| ≤ 6.2832 := by
    have : |t| ≤ 6.2832 := abs_le.mpr ⟨by have := g.t0; norm_num at this ⊢; linarith, g.t1⟩
    have := (Rat.cast_le (K := ℝ)).mpr this
    push_cast at this
    norm_num at this ⊢
    exact this
  have p1 : |(r : ℝ)| * |(t : ℝ)| ≤ 7350 * 6.2832 := mul_le_mul (by rw [abs_of_nonneg r0]; exact r1) t1 (abs_nonneg _) (by norm_num)
  have h1 : Ap (arc.r *. arc.totalAngle) (r * t) 0.003 := by
    rw [hr, ht]
    exact (Ap.fin' r zr).mul (Ap.fin' t zt) (B := 7350 * 6.2832) (by simpa using p1) (by norm_num) (by norm_num)
  have h8 : (lit 0.125 : F32) = fin (1 / 8) false := by decide +kernel
  have h2 : Ap (arc.r *. arc.totalAngle *. lit 0.125) (r * t * ((1 / 8 : ℚ) : ℝ)) (1 / 2 ^ 8) := by
    rw [h8]
    refine h1.mul (Ap.fin' (1 / 8) false) (B := 5780) ?_ (by norm_num) ?_
    · rw [abs_mul]; norm_num at p1 ⊢; linarith
    · rw [abs_mul]; norm_num at p1 ⊢
  obtain ⟨q, z, e, hq⟩ := h2
  rw [e]
  have hq' := abs_le.mp hq
  push_cast at hq'
  norm_num at hq'
  have rt0 : -(1 / 32 : ℝ) ≤ r * t := by
    have t0 : (-(1 / 2 ^ 18) : ℝ) ≤ t := by
      have := (Rat.cast_le (K := ℝ)).mpr g.t0
      push_cast at this
      exact this
    have := mul_le_mul_of_nonneg_left t0 r0
    norm_num at this ⊢
    linarith
  have rt1 : (r : ℝ) * t ≤ 7350 * 6.2832 := (le_abs_self _).trans (by rw [abs_mul]; exact p1)
  have q0 : (-1 : ℝ) < q := by linarith [hq'.1]
  have q1 : (q : ℝ) < 5780 := by norm_num at rt1; linarith [hq'.2]
  have q0' : (-1 : ℚ) < q := by exact_mod_cast q0
  have q1' : q < 5780 := by exact_mod_cast q1
  by_cases hneg : q < 0
  · refine ⟨0, ?_, by norm_num, fun h => absurd h (by norm_num)⟩
    have hc : ⌈q⌉ = 0 := by
      rw [Int.ceil_eq_iff]
      exact ⟨by push_cast; linarith, by push_cast; exact hneg.le⟩
    show (let v : Int := if q < 0 then ⌈q⌉ else ⌊q⌋
      if -9223372036854775808 ≤ v ∧ v < 9223372036854775808 then v else -9223372036854775808) = _
    simp only [if_pos hneg, hc]
    rfl
  · have f0 : 0 ≤ ⌊q⌋ := Int.floor_nonneg.mpr (not_lt.mp hneg)
    have f1 : ⌊q⌋ < 5780 := by
      rw [Int.floor_lt]; exact_mod_cast q1'
    obtain ⟨n, hn⟩ := Int.eq_ofNat_of_zero_le f0
    refine ⟨n, ?_, by omega, fun _ => ?_⟩
    · show (let v : Int := if q < 0 then ⌈q⌉ else ⌊q⌋
        if -9223372036854775808 ≤ v ∧ v < 9223372036854775808 then v else -9223372036854775808) = _
      simp only [if_neg hneg]
      rw [if_pos ⟨by omega, by omega⟩, hn]
    · have k1 : ((n : ℤ) : ℚ) ≤ q := by
        have := Int.floor_le q
        rw [hn] at this
        exact this
      have k2 : q < ((n : ℤ) : ℚ) + 1 := by
        have := Int.lt_floor_add_one q
        rw [hn] at this
        exact this
      have k1' : (n : ℝ) ≤ q := by exact_mod_cast k1
      have k2' : (q : ℝ) < n + 1 := by exact_mod_cast k2
      constructor <;> norm_num <;> linarith [hq'.1, hq'.2]

/-! ### Points -/

/-- The angle of the point at the fraction `i / n`. -/
theorem arc_angle {arc : CirArc F32} {mx my r s t d : ℚ} (g : GoodArc arc mx my r s t d) {i n : ℕ} (hn : 1 ≤ n) (hi : i ≤ n) (hn' : n ≤ 5780) :
    Ap (arc.startAngle +. arc.dir *. (ofInt (i : ℤ) /. ofInt (n : ℤ)) *. arc.totalAngle) (s + d * (i / n) * t) (1 / 2 ^ 19) ∧
      |(s : ℝ) + d * (i / n) * t| ≤ 9.45 := by
  obtain ⟨zs, hs⟩ := g.start
  obtain ⟨zt, ht⟩ := g.total
  obtain ⟨zd, hd⟩ := g.dir
  have t1 : |(t : ℝ)| ≤ 6.2832 := by
    have : |t| ≤ 6.2832 := abs_le.mpr ⟨by have := g.t0; norm_num at this ⊢; linarith, g.t1⟩
    have := (Rat.cast_le (K := ℝ)).mpr this
    push_cast at this
    norm_num at this ⊢
    exact this
  have s1 : |(s : ℝ)| ≤ 3.1416 := by
    have : |s| ≤ 3.1416 := g.sB.trans (by unfold piQ; norm_num)
    have := (Rat.cast_le (K := ℝ)).mpr this
    push_cast at this
    norm_num at this ⊢
    exact this
  have d1 : |(d : ℝ)| = 1 := by
    rcases g.dir1 with h | h <;> rw [h] <;> norm_num
  have nR : (0 : ℝ) < n := by exact_mod_cast hn
  have hf : |(i : ℝ) / n| ≤ 1 := by
    rw [abs_of_nonneg (by positivity), div_le_one nR]
    exact_mod_cast hi
  have nq : (n : ℚ) ≠ 0 := by
    have : n ≠ 0 := by omega
    exact_mod_cast this
  -- the fraction
  have wi : Wh (ofInt (i : ℤ) : F32) (i : ℤ) := Wh.ofRat' (by rw [abs_of_nonneg (by omega)]; omega) false
  have wn : Wh (ofInt (n : ℤ) : F32) (n : ℤ) := Wh.ofRat' (by rw [abs_of_nonneg (by omega)]; omega) false
  have h0 : Ap (ofInt (i : ℤ) /. ofInt (n : ℤ) : F32) (i / n) (1.01 / 2 ^ 24) := by
    obtain ⟨a, ha⟩ := wi
    obtain ⟨b, hb⟩ := wn
    rw [ha, hb]
    have hq : (((i : ℤ) : ℚ) / ((n : ℤ) : ℚ) : ℚ) = (i : ℚ) / n := by push_cast; rfl
    have e1 : (fin ((i : ℤ) : ℚ) a : F32) /. (fin ((n : ℤ) : ℚ) b) = ofRat fmt32 (((i : ℤ) : ℚ) / ((n : ℤ) : ℚ))
        (signbit (fin ((i : ℤ) : ℚ) a : F32) ^^ signbit (fin ((n : ℤ) : ℚ) b : F32)) := by
      show (if ((n : ℤ) : ℚ) = 0 then _ else _) = _
      rw [if_neg (by push_cast; exact nq)]
    obtain ⟨q, c, gq, hr⟩ := Ap.round (q := ((i : ℤ) : ℚ) / ((n : ℤ) : ℚ)) (B := 1) (by push_cast; exact hf) (by norm_num)
      (signbit (fin ((i : ℤ) : ℚ) a : F32) ^^ signbit (fin ((n : ℤ) : ℚ) b : F32))
    refine ⟨q, c, by rw [e1, gq], ?_⟩
    push_cast at hr
    exact hr.trans (by norm_num)
  have h1 : Ap (arc.dir *. (ofInt (i : ℤ) /. ofInt (n : ℤ))) (d * (i / n)) (1.02 / 2 ^ 23) := by
    rw [hd]
    refine (Ap.fin' d zd).mul h0 (B := 1.001) ?_ (by norm_num) ?_
    · rw [d1]; norm_num; linarith
    · rw [d1]; norm_num
  have m1 : |(d : ℝ) * (i / n)| ≤ 1 := by rw [abs_mul, d1, one_mul]; exact hf
  have m2 : |(d : ℝ) * (i / n) * t| ≤ 6.2832 := by
    rw [abs_mul]
    calc _ ≤ 1 * 6.2832 := mul_le_mul m1 t1 (abs_nonneg _) (by norm_num)
      _ = _ := one_mul _
  have h2 : Ap (arc.dir *. (ofInt (i : ℤ) /. ofInt (n : ℤ)) *. arc.totalAngle) (d * (i / n) * t) (1.15 / 10 ^ 6) := by
    rw [ht]
    refine h1.mul (Ap.fin' t zt) (B := 6.284) ?_ (by norm_num) ?_
    · calc (|(d : ℝ) * (i / n)| + 1.02 / 2 ^ 23) * (|(t : ℝ)| + 0) ≤ (1 + 1.02 / 2 ^ 23) * 6.2832 :=
          mul_le_mul (by linarith) (by linarith) (by positivity) (by norm_num)
        _ ≤ _ := by norm_num
    · norm_num at t1 ⊢; linarith
  refine ⟨?_, (abs_add_le _ _).trans (by norm_num at s1 m2 ⊢; linarith)⟩
  rw [hs]
  exact (Ap.fin' s zs).add h2 (B := 9.45) (by norm_num at s1 m2 ⊢; linarith) (by norm_num) (by norm_num)

/-- Cosine or sine of a float32 near an angle. -/
theorem trig_near {lib : F64 → F64} {f : ℝ → ℝ} (hlip : ∀ x y, |f x - f y| ≤ |x - y|) (hf : ∀ x, |f x| ≤ 1)
    (hlib : ∀ (x : ℚ) (z : Bool), |x| ≤ 16 → ∃ (c : ℚ) (b : Bool), lib (fin x z) = fin c b ∧ |(c : ℝ) - f x| ≤ 1 / 2 ^ 30)
    {x : F32} {v : ℝ} (hx : Ap x v (1 / 2 ^ 19)) (hv : |v| ≤ 9.45) : Ap (down (lib (up x)) : F32) (f v) (1 / 2 ^ 18) := by
  obtain ⟨q, z, rfl, hq⟩ := hx
  have hq1 : |(q : ℝ)| ≤ 10 := by
    have := abs_add_le v ((q : ℝ) - v)
    rw [add_sub_cancel] at this
    norm_num at this hv hq ⊢
    linarith
  have hq2 : |q| ≤ 10 := by exact_mod_cast hq1
  obtain ⟨y, b, gy, hy⟩ := up_near (q := q) (hq2.trans (by norm_num)) z
  have hy1 : |y - q| ≤ 1 / 2 ^ 40 := hy.trans (by
    have := div_le_div_of_nonneg_right hq2 (by positivity : (0:ℚ) ≤ 2 ^ 53)
    norm_num at this ⊢; linarith)
  have hy2 : |y| ≤ 16 := by
    have := abs_add_le q (y - q)
    rw [add_sub_cancel] at this
    norm_num at hy1
    linarith
  obtain ⟨c, w, gc, hc⟩ := hlib y b hy2
  have hy3 : |(y : ℝ) - q| ≤ 1 / 2 ^ 40 := by
    have := (Rat.cast_le (K := ℝ)).mpr hy1
    push_cast at this
    exact this
  have hcv : |(c : ℝ) - f v| ≤ 1 / 2 ^ 30 + (1 / 2 ^ 40 + 1 / 2 ^ 19) := by
    have e1 := abs_add_le ((c : ℝ) - f y) (f y - f v)
    have e2 := hlip y v
    have e3 := abs_add_le ((y : ℝ) - q) (q - v)
    rw [sub_add_sub_cancel] at e1 e3
    linarith
  have hc1 : |(c : ℝ)| ≤ 1.01 := by
    have := abs_add_le (f v) ((c : ℝ) - f v)
    rw [add_sub_cancel] at this
    have := hf v
    norm_num at *
    linarith
  rw [gy, gc]
  obtain ⟨q', z', g', h'⟩ := Ap.round hc1 (by norm_num) w
  refine ⟨q', z', g', ?_⟩
  have := abs_add_le ((q' : ℝ) - c) (c - f v)
  rw [sub_add_sub_cancel] at this
  norm_num at *
  linarith

/-- The point at the fraction `i / n`. -/
theorem arc_point [GoLibm F64] (hl : Spec.ArcLaws) {arc : CirArc F32} {mx my r s t d : ℚ} (g : GoodArc arc mx my r s t d)
    {i n : ℕ} (hn : 1 ≤ n) (hi : i ≤ n) (hn' : n ≤ 5780) :
    Ap (arc.pointAt (D := F64) (ofInt (i : ℤ) /. ofInt (n : ℤ))).x (Real.cos (s + d * (i / n) * t) * r + mx) 0.03 ∧
    Ap (arc.pointAt (D := F64) (ofInt (i : ℤ) /. ofInt (n : ℤ))).y (Real.sin (s + d * (i / n) * t) * r + my) 0.03 := by
  obtain ⟨ha, hb⟩ := arc_angle g hn hi hn'
  obtain ⟨z, w, hc⟩ := g.centre
  obtain ⟨zr, hr⟩ := g.radius
  have r0 : (0 : ℝ) ≤ r := by
    have : (0 : ℚ) ≤ r := by have := g.r0; norm_num at this; linarith
    exact_mod_cast this
  have r1 : (r : ℝ) ≤ 7350 := by exact_mod_cast g.r1
  have mx1 : |(mx : ℝ)| ≤ 4200 := by exact_mod_cast g.mxB
  have my1 : |(my : ℝ)| ≤ 4200 := by exact_mod_cast g.myB
  have key : ∀ {u : F32} {f m : ℝ} {M : F32}, Ap u f (1 / 2 ^ 18) → |f| ≤ 1 → Ap M m 0 → |m| ≤ 4200 → Ap (u *. arc.r +. M) (f * r + m) 0.03 := by
    intro u f m M hu hf hM hm
    have b1 : |f| * |(r : ℝ)| ≤ 7350 := by
      calc |f| * |(r : ℝ)| ≤ 1 * 7350 := mul_le_mul hf (by rw [abs_of_nonneg r0]; exact r1) (abs_nonneg _) (by norm_num)
        _ = _ := one_mul _
    have h1 : Ap (u *. arc.r) (f * r) 0.029 := by
      rw [hr]
      refine hu.mul (Ap.fin' r zr) (B := 7351) ?_ (by norm_num) ?_
      · rw [_root_.add_zero, _root_.add_mul, abs_of_nonneg r0] at *
        norm_num; linarith
      · rw [abs_of_nonneg r0]; norm_num; linarith
    exact h1.add hM (B := 11552) (by rw [abs_mul]; norm_num; linarith) (by norm_num) (by norm_num)
  have k1 := key (trig_near Real.abs_cos_sub_cos_le Real.abs_cos_le_one hl.cos ha hb) (Real.abs_cos_le_one _) (Ap.fin' mx z) mx1
  have k2 := key (trig_near Real.abs_sin_sub_sin_le Real.abs_sin_le_one hl.sin ha hb) (Real.abs_sin_le_one _) (Ap.fin' my w) my1
  unfold CirArc.pointAt Vec.ofRad Vec.add
  rw [hc]
  exact ⟨k1, k2⟩

/-! ### Lines -/

theorem chord_eq (a b r : ℝ) (hr : 0 ≤ r) :
    √((Real.cos b * r - Real.cos a * r) ^ 2 + (Real.sin b * r - Real.sin a * r) ^ 2) = 2 * r * |Real.sin ((b - a) / 2)| := by
  have e : (Real.cos b * r - Real.cos a * r) ^ 2 + (Real.sin b * r - Real.sin a * r) ^ 2 = (2 * r * |Real.sin ((b - a) / 2)|) ^ 2 := by
    rw [mul_pow, mul_pow, sq_abs, ← sub_mul, ← sub_mul, Real.cos_sub_cos, Real.sin_sub_sin]
    have := Real.sin_sq_add_cos_sq ((b + a) / 2)
    calc _ = (2 * r * Real.sin ((b - a) / 2)) ^ 2 * (Real.sin ((b + a) / 2) ^ 2 + Real.cos ((b + a) / 2) ^ 2) := by ring
      _ = _ := by rw [this]; ring
  rw [e, Real.sqrt_sq (by positivity)]

theorem vec_eta {v : Vec F32} {x y : F32} (hx : v.x = x) (hy : v.y = y) : v = ⟨x, y⟩ := by
  subst hx hy; rfl

/-- Two neighbouring points are at finite places and between 1 and 32 apart. -/
theorem arc_line [GoLibm F64] (hl : Spec.ArcLaws) {arc : CirArc F32} {mx my r s t d : ℚ} (g : GoodArc arc mx my r s t d)
    {i n : ℕ} (hi : i < n) (hn' : n ≤ 5780) (lo : 8 * n - 1 / 32 ≤ (r : ℝ) * t) (hi' : (r : ℝ) * t ≤ 8 * (n + 1) + 1 / 32)
    {l : Linear F32} (el : l = ⟨arc.pointAt (D := F64) (ofInt (i : ℤ) /. ofInt (n : ℤ)), arc.pointAt (D := F64) (ofInt ((i + 1 : ℕ) : ℤ) /. ofInt (n : ℤ))⟩) :
    (∃ x y, Spec.At l.p1 x y ∧ |x| ≤ 2 ^ 14 ∧ |y| ≤ 2 ^ 14) ∧ (∃ x y, Spec.At l.p2 x y ∧ |x| ≤ 2 ^ 14 ∧ |y| ≤ 2 ^ 14) ∧
      l.p1.eq l.p2 = false ∧ In32 1 (pow2 5) (l.getLength (D := F64)) := by
  have hn : 1 ≤ n := by omega
  obtain ⟨⟨x1, a1, e1, h1⟩, ⟨y1, b1, f1, k1⟩⟩ := arc_point hl g hn hi.le hn'
  obtain ⟨⟨x2, a2, e2, h2⟩, ⟨y2, b2, f2, k2⟩⟩ := arc_point hl g (i := i + 1) hn hi hn'
  have p1 : l.p1 = ⟨fin x1 a1, fin y1 b1⟩ := by rw [el]; exact vec_eta e1 f1
  have p2 : l.p2 = ⟨fin x2 a2, fin y2 b2⟩ := by rw [el]; exact vec_eta e2 f2
  have r5 : (5.8 : ℝ) ≤ r := by
    have := (Rat.cast_le (K := ℝ)).mpr g.r0
    push_cast at this
    norm_num at this ⊢
    exact this
  have r0 : (0 : ℝ) ≤ r := by norm_num at r5; linarith
  have r1 : (r : ℝ) ≤ 7350 := by exact_mod_cast g.r1
  have mx1 : |(mx : ℝ)| ≤ 4200 := by exact_mod_cast g.mxB
  have my1 : |(my : ℝ)| ≤ 4200 := by exact_mod_cast g.myB
  have d1 : |(d : ℝ)| = 1 := by
    rcases g.dir1 with h | h <;> rw [h] <;> norm_num
  have nR : (1 : ℝ) ≤ n := by exact_mod_cast hn
  -- the angle between the points
  set A : ℝ := s + d * ((i : ℕ) / n) * t with hA
  set B : ℝ := s + d * (((i + 1 : ℕ) : ℝ) / n) * t with hB
  have hBA : (B - A) / 2 = d * (t / n / 2) := by
    rw [hA, hB]; push_cast; field_simp; ring
  set D : ℝ := t / n with hD
  have rD : r * D = r * t / n := by rw [hD]; ring
  have rD1 : 7.9 ≤ r * D := by
    rw [rD, le_div_iff₀ (by linarith)]
    norm_num at lo ⊢; linarith
  have rD2 : r * D ≤ 16.1 := by
    rw [rD, div_le_iff₀ (by linarith)]
    norm_num at hi' ⊢; linarith
  have D0 : 0 ≤ D := by
    by_contra hneg
    push Not at hneg
    have := mul_nonpos_of_nonneg_of_nonpos r0 hneg.le
    norm_num at rD1; linarith
  have D3 : D ≤ 3 := by
    by_contra hbig
    push Not at hbig
    have : 5.8 * 3 ≤ r * D := mul_le_mul r5 hbig.le (by norm_num) r0
    norm_num at this rD2; linarith
  have pi1 := Real.pi_gt_d2
  have pi2 := Real.pi_lt_d2
  have hsinabs : |Real.sin ((B - A) / 2)| = Real.sin (D / 2) := by
    have s0 : 0 ≤ Real.sin (D / 2) := Real.sin_nonneg_of_nonneg_of_le_pi (by linarith) (by norm_num at pi1; linarith)
    rw [hBA]
    rcases g.dir1 with h | h
    · rw [h, Rat.cast_one, one_mul, abs_of_nonneg s0]
    · rw [h, Rat.cast_neg, Rat.cast_one, neg_one_mul, Real.sin_neg, abs_neg, abs_of_nonneg s0]
  have ch := chord_eq A B r r0
  rw [hsinabs] at ch
  have ch1 : 2 * (r : ℝ) * Real.sin (D / 2) ≤ 16.1 := by
    have := Real.sin_le (show 0 ≤ D / 2 by linarith)
    have := mul_le_mul_of_nonneg_left this r0
    norm_num at rD2 ⊢
    linarith
  have ch0 : 5 ≤ 2 * (r : ℝ) * Real.sin (D / 2) := by
    have h1 := Real.mul_le_sin (show 0 ≤ D / 2 by linarith) (by norm_num at pi1; linarith)
    have h2 : 2 / Real.pi ≥ 0.634 := by
      rw [ge_iff_le, le_div_iff₀ Real.pi_pos]; norm_num at pi2 ⊢; linarith
    have h3 : 0.634 * (D / 2) ≤ Real.sin (D / 2) := (mul_le_mul_of_nonneg_right h2 (by linarith)).trans h1
    have h4 := mul_le_mul_of_nonneg_left h3 r0
    norm_num at h4 rD1 ⊢
    linarith
  -- the computed points
  set cA := Real.cos A * (r : ℝ) with hcA
  set cB := Real.cos B * (r : ℝ) with hcB
  set sA := Real.sin A * (r : ℝ) with hsA
  set sB := Real.sin B * (r : ℝ) with hsB
  have size : ∀ {f m : ℝ} {q : ℚ}, |f| ≤ 1 → |m| ≤ 4200 → |(q : ℝ) - (f * r + m)| ≤ 0.03 → |q| ≤ 2 ^ 14 := by
    intro f m q hf hm hq
    have t1 : |f * (r : ℝ)| ≤ 1 * 7350 := by
      rw [abs_mul]
      exact mul_le_mul hf (by rw [abs_of_nonneg r0]; exact r1) (abs_nonneg _) (by norm_num)
    have t2 := abs_add_le (f * (r : ℝ) + m) ((q : ℝ) - (f * r + m))
    rw [add_sub_cancel] at t2
    have t3 := abs_add_le (f * (r : ℝ)) m
    have : |(q : ℝ)| ≤ 2 ^ 14 := by norm_num at *; linarith
    exact_mod_cast this
  have x1B := size (Real.abs_cos_le_one _) mx1 h1
  have y1B := size (Real.abs_sin_le_one _) my1 k1
  have x2B := size (Real.abs_cos_le_one _) mx1 h2
  have y2B := size (Real.abs_sin_le_one _) my1 k2
  have bigger : (2 : ℚ) ^ 14 ≤ 2 ^ 21 := by norm_num
  obtain ⟨q, z, gq, q0, hq⟩ := getLength_error p1 p2 (x1B.trans bigger) (y1B.trans bigger) (x2B.trans bigger) (y2B.trans bigger)
  have nr : norm2 (x2 - x1) (y2 - y1) = √(((x2 : ℝ) - x1) ^ 2 + ((y2 : ℝ) - y1) ^ 2) := by
    unfold norm2; push_cast; rfl
  rw [nr] at hq
  have dx : |((x2 : ℝ) - x1) - (cB - cA)| ≤ 0.06 := by
    have := abs_sub ((x2 : ℝ) - (cB + mx)) (x1 - (cA + mx))
    rw [show (x2 : ℝ) - (cB + mx) - (x1 - (cA + mx)) = (x2 - x1) - (cB - cA) by ring] at this
    norm_num at *; linarith
  have dy : |((y2 : ℝ) - y1) - (sB - sA)| ≤ 0.06 := by
    have := abs_sub ((y2 : ℝ) - (sB + my)) (y1 - (sA + my))
    rw [show (y2 : ℝ) - (sB + my) - (y1 - (sA + my)) = (y2 - y1) - (sB - sA) by ring] at this
    norm_num at *; linarith
  have t1 := plane_triangle (cB - cA) (sB - sA) ((x2 - x1) - (cB - cA)) ((y2 - y1) - (sB - sA))
  have t2 := plane_triangle (x2 - x1) (y2 - y1) ((cB - cA) - (x2 - x1)) ((sB - sA) - (y2 - y1))
  rw [show cB - cA + ((x2 : ℝ) - x1 - (cB - cA)) = x2 - x1 by ring, show sB - sA + ((y2 : ℝ) - y1 - (sB - sA)) = y2 - y1 by ring, ch] at t1
  rw [show (x2 : ℝ) - x1 + (cB - cA - (x2 - x1)) = cB - cA by ring, show (y2 : ℝ) - y1 + (sB - sA - (y2 - y1)) = sB - sA by ring, ch,
    abs_sub_comm (cB - cA), abs_sub_comm (sB - sA)] at t2
  refine ⟨⟨x1, y1, ⟨a1, b1, p1⟩, x1B, y1B⟩, ⟨x2, y2, ⟨a2, b2, p2⟩, x2B, y2B⟩, ?_, ⟨q, z, gq, ?_, ?_⟩⟩
  · by_contra hc
    rw [Bool.not_eq_false, p1, p2] at hc
    change (decide (x1 = x2) && decide (y1 = y2)) = true at hc
    simp only [Bool.and_eq_true, decide_eq_true_eq] at hc
    have z : √(((x2 : ℝ) - x1) ^ 2 + ((y2 : ℝ) - y1) ^ 2) = 0 := by rw [hc.1, hc.2]; simp
    rw [z] at t2
    norm_num at dx dy
    linarith
  · generalize √(((x2 : ℝ) - x1) ^ 2 + ((y2 : ℝ) - y1) ^ 2) = N at *
    have hq' := abs_le.mp hq
    have : (1 : ℝ) ≤ q := by norm_num at hq' dx dy; linarith [hq'.1]
    exact_mod_cast this
  · generalize √(((x2 : ℝ) - x1) ^ 2 + ((y2 : ℝ) - y1) ^ 2) = N at *
    have hq' := abs_le.mp hq
    have : (q : ℝ) ≤ 2 ^ 5 := by norm_num at hq' dx dy ch1 ⊢; linarith [hq'.2]
    rw [show pow2 5 = 2 ^ 5 from pow2_nat 5]
    exact_mod_cast this

theorem arcLoop_lines [GoLibm F64] (arc : CirArc F32) (n : ℤ) (k i : ℕ) :
    (arcLoop (D := F64) arc n k i).length = k ∧ ∀ l ∈ arcLoop (D := F64) arc n k i, ∃ j : ℕ, j < i + k ∧
      l = ⟨arc.pointAt (D := F64) (ofInt (j : ℤ) /. ofInt n), arc.pointAt (D := F64) (ofInt ((j + 1 : ℕ) : ℤ) /. ofInt n)⟩ := by
  induction k generalizing i with
  | zero => exact ⟨rfl, fun l hl => absurd hl (by simp [arcLoop])⟩
  | succ k ih =>
    obtain ⟨e, h⟩ := ih (i + 1)
    have u : arcLoop (D := F64) arc n (k + 1) i = ⟨arc.pointAt (D := F64) (ofInt (i : ℤ) /. ofInt n), arc.pointAt (D := F64) (ofInt ((i + 1 : ℕ) : ℤ) /. ofInt n)⟩ ::
        arcLoop (D := F64) arc n k ((i + 1 : ℕ) : ℤ) := by
      rw [arcLoop]; push_cast; rfl
    rw [u]
    refine ⟨by rw [List.length_cons, e], fun l hl => ?_⟩
    rcases List.mem_cons.mp hl with rfl | hl
    · exact ⟨i, by omega, rfl⟩
    · obtain ⟨j, hj, e⟩ := h l hl
      exact ⟨j, by omega, e⟩

/-- The lines of an arc. -/
theorem arc_raw [GoLibm F64] (hl : Spec.ArcLaws) {a b c : Vec F32} {ax ay bx by' cx cy : ℤ} (h : ArcPts a b c ax ay bx by' cx cy)
    {fuel : ℕ} (hf : 3 ≤ fuel) : ∃ raw, processType (D := F64) fuel ['P'] [a, b, c] = .ok raw ∧ raw.length ≤ 5780 ∧
      ∀ l ∈ raw, (∃ x y, Spec.At l.p1 x y ∧ |x| ≤ 2 ^ 14 ∧ |y| ≤ 2 ^ 14) ∧ (∃ x y, Spec.At l.p2 x y ∧ |x| ≤ 2 ^ 14 ∧ |y| ≤ 2 ^ 14) ∧
        l.p1.eq l.p2 = false ∧ In32 1 (pow2 5) (l.getLength (D := F64)) := by
  obtain ⟨arc, mx, my, r, s, t, d, e, g⟩ := arc_new hl h hf
  obtain ⟨n, hn, hn', hrt⟩ := arc_segments g
  have hns := not_straight h
  obtain ⟨k1, k2⟩ := arcLoop_lines arc n n 0
  refine ⟨arcLoop (D := F64) arc n n 0, ?_, by rw [show ((0 : ℕ) : ℤ) = 0 from rfl] at k1; omega, fun l hl' => ?_⟩
  · have u : processType (D := F64) fuel ['P'] [a, b, c] =
        if Vec.isStraightLine (D := F64) a b c = true then .ok (processLinear [a, b, c]) else
          (CirArc.new (D := F64) fuel a b c).bind fun arc => if arc.unstable = true then .ok [⟨a, b⟩, ⟨b, c⟩] else
            (makeCheck 16 (Go.trunc (arc.r *. arc.totalAngle *. lit 0.125))).bind fun _ =>
              .ok (arcLoop (D := F64) arc (Go.trunc (arc.r *. arc.totalAngle *. lit 0.125)) (Go.trunc (arc.r *. arc.totalAngle *. lit 0.125)).toNat 0) := rfl
    rw [u, hns, if_neg (by decide), e]
    simp only [Except.bind]
    rw [g.stable, if_neg (by decide), hn]
    unfold makeCheck
    rw [if_neg (by omega)]
    rfl
  · obtain ⟨j, hj, el⟩ := k2 l hl'
    obtain ⟨lo, hi⟩ := hrt (by omega)
    exact arc_line hl g (by omega) hn' lo hi el

/-- The path of a slider on an arc. -/
theorem arc_path [GoLibm F64] (hl : Spec.ArcLaws) {a b c : Vec F32} {ax ay bx by' cx cy : ℤ} (h : ArcPts a b c ax ay bx by' cx cy)
    {fuel : ℕ} (hf : 3 ≤ fuel) {P : ℚ} {z : Bool} (hP0 : 1 ≤ P) (hP1 : P ≤ 2 ^ 14) {mc : MultiCurve F32}
    (hmc : MultiCurve.newT fuel ['P'] [a, b, c] (fin P z : F64) = .ok mc) :
    Props.TamePath mc ∧ ∃ C zC, mc.length = fin C zC ∧ 0 ≤ C ∧ C ≤ P + 600 := by
  obtain ⟨raw, hraw, hcnt, hlines⟩ := arc_raw hl h hf
  have htiny : ∀ l ∈ raw, l.p1.eq l.p2 = true ∨ Fl.le (fin (1 / 2 ^ 48) false) (l.getLength (D := F64)) = true := by
    intro l hl'
    obtain ⟨q, w, e, q1, -⟩ := (hlines l hl').2.2.2
    refine Or.inr ?_
    rw [e]
    simp only [Fl.le, decide_eq_true_eq]
    norm_num; linarith
  obtain ⟨L, zL, hL, L0, L1⟩ : In32 0 (_ * pow2 5) (MultiCurve.totalLength (D := F64) raw) :=
    totalLength_bound raw (by norm_num) (by norm_num) (fun l hl' => by
      obtain ⟨q, w, e, q1, q2⟩ := (hlines l hl').2.2.2
      exact ⟨q, w, e, by linarith, q2⟩) (hcnt.trans (by norm_num))
  have hin : ∀ l ∈ raw, (∃ x y, Spec.At l.p1 x y ∧ |x| ≤ 2 ^ 14 ∧ |y| ≤ 2 ^ 14) ∧ ∃ x y, Spec.At l.p2 x y ∧ |x| ≤ 2 ^ 14 ∧ |y| ≤ 2 ^ 14 :=
    fun l hl' => ⟨(hlines l hl').1, (hlines l hl').2.1⟩
  refine ⟨⟨fuel, ['P'], [a, b, c], P, z, raw, hmc, hraw, hcnt.trans (by norm_num), ?_, ?_, htiny, by linarith, ?_⟩, ?_⟩
  · intro p hp
    simp only [List.getElem?_cons_zero, Option.some.injEq] at hp
    subst hp
    have w : ∀ {u : F32} {n : ℤ}, Wh u n → |n| ≤ 1023 → Bd 17 u := by
      rintro u n ⟨c, rfl⟩ hn
      refine ⟨_, c, rfl, ?_⟩
      rw [show pow2 17 = 2 ^ 17 from pow2_nat 17]
      have : |n| ≤ 2 ^ 17 := hn.trans (by norm_num)
      exact_mod_cast this
    exact ⟨w h.wax h.bax, w h.way h.bay⟩
  · intro l hl'
    obtain ⟨⟨x, y, a1, a2, a3⟩, ⟨x', y', b1, b2, b3⟩⟩ := hin l hl'
    exact ⟨⟨x, y, a1, a2.trans (by norm_num), a3.trans (by norm_num)⟩, ⟨x', y', b1, b2.trans (by norm_num), b3.trans (by norm_num)⟩⟩
  · intro L' z' h'
    rw [hL] at h'
    cases h'
    linarith
  have hR : (raw.length : ℚ) ≤ 5780 := by exact_mod_cast hcnt
  rw [show pow2 5 = 2 ^ 5 from pow2_nat 5] at L1
  rcases lt_or_eq_of_le L0 with hLpos | hLz
  · have e14 : pow2 14 = 2 ^ 14 := pow2_nat 14
    obtain ⟨C, zC, hC, C0, hCP⟩ := C84_length (k := 14) (j := 14) hmc hraw (hcnt.trans (by norm_num)) (by norm_num) (by norm_num) (by norm_num)
      hin htiny hL hLpos (by linarith) (by rw [e14]; linarith) (Or.inr fun l hl' => (hlines l (List.mem_of_getLast? hl')).2.2.1)
    refine ⟨C, zC, hC, C0, ?_⟩
    have hLn : L ≤ 5780 * 2 ^ 5 := L1.trans (by linarith)
    have t : (raw.length : ℚ) * (L + P) ≤ 5780 * (5780 * 2 ^ 5 + 2 ^ 14) := mul_le_mul hR (by linarith) (by linarith) (by norm_num)
    have t' := div_le_div_of_nonneg_right t (by positivity : (0:ℚ) ≤ 2 ^ 21)
    have c := (abs_le.mp hCP).2
    rw [e14] at c
    norm_num at t' c ⊢
    linarith
  · refine ⟨L, zL, ?_, L0, by linarith⟩
    unfold MultiCurve.newT at hmc
    rw [hraw] at hmc
    obtain ⟨lines, e1, hmc⟩ := bind_ok hmc
    cases e1
    obtain ⟨fp, -, hmc⟩ := bind_ok hmc
    cases hmc
    show MultiCurve.totalLength (D := F64) _ = _
    rw [if_neg]
    · exact hL
    · rw [hL, show (lit 0 : F32) = fin 0 false from ofRat_zero _]
      change ¬ Fl.lt (fin 0 false) (fin L zL) = true
      simp [Fl.lt, ← hLz]

end GosuPP
