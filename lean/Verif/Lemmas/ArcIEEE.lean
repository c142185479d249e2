import Verif.Lemmas.BezierLines
import Verif.Spec.ArcLaws
import Mathlib.Analysis.SpecialFunctions.Trigonometric.Bounds
import Mathlib.Analysis.Real.Pi.Bounds

/-! Circular arcs in float32. -/

namespace GosuPP
open Go Fl

/-! ### Numbers near a real number -/

/-- A finite float32 within `e` of `v`. -/
def Ap (x : F32) (v e : ℝ) : Prop := ∃ (q : ℚ) (z : Bool), x = fin q z ∧ |(q : ℝ) - v| ≤ e

namespace Ap
variable {x y : F32} {v w e e' E B : ℝ}

theorem mono (h : Ap x v e) (he : e ≤ E) : Ap x v E := by
  obtain ⟨q, z, rfl, h⟩ := h
  exact ⟨q, z, rfl, h.trans he⟩

theorem fin' (q : ℚ) (z : Bool) : Ap (fin q z) q 0 := ⟨q, z, rfl, by simp⟩

theorem value (h : Ap x v e) : ∃ q z, x = fin q z ∧ |(q : ℝ)| ≤ |v| + e := by
  obtain ⟨q, z, rfl, h⟩ := h
  refine ⟨q, z, rfl, ?_⟩
  have := abs_add_le v ((q : ℝ) - v)
  rw [add_sub_cancel] at this
  linarith

theorem round {q : ℚ} (h : |(q : ℝ)| ≤ B) (hB : B ≤ 2 ^ 100) (z : Bool) :
    ∃ r c, ofRat fmt32 q z = fin r c ∧ |(r : ℝ) - q| ≤ B / 2 ^ 24 + 1 / 2 ^ 150 := by
  have h1 : |q| ≤ 2 ^ 120 := by
    have : |(q : ℝ)| ≤ 2 ^ 120 := h.trans (hB.trans (by norm_num))
    exact_mod_cast this
  obtain ⟨r, c, g, hr⟩ := op_error (q := q) le_rfl h1 z
  refine ⟨r, c, g, ?_⟩
  have h2 : |(r : ℝ) - q| ≤ |(q : ℝ)| / 2 ^ 24 + 1 / 2 ^ 150 := by
    have := (Rat.cast_le (K := ℝ)).mpr hr
    push_cast at this
    exact this
  have := div_le_div_of_nonneg_right h (by positivity : (0:ℝ) ≤ 2 ^ 24)
  linarith

theorem add (hx : Ap x v e) (hy : Ap y w e') (hB : |v| + e + (|w| + e') ≤ B) (hB' : B ≤ 2 ^ 100)
    (hE : e + e' + (B / 2 ^ 24 + 1 / 2 ^ 150) ≤ E) : Ap (x +. y) (v + w) E := by
  obtain ⟨p, a, ex, hp⟩ := hx.value
  obtain ⟨q, b, ey, hq⟩ := hy.value
  obtain ⟨p', a', ex', hx⟩ := hx
  obtain ⟨q', b', ey', hy⟩ := hy
  rw [ex] at ex'; cases ex'
  rw [ey] at ey'; cases ey'
  subst ex ey
  have hs : |((p + q : ℚ) : ℝ)| ≤ B := by
    push_cast
    exact (abs_add_le _ _).trans (by linarith)
  obtain ⟨r, c, g, hr⟩ := round hs hB' (signbit (fin p a : F32) && signbit (fin q b : F32))
  refine ⟨r, c, g, ?_⟩
  push_cast at hr
  have h1 := abs_le.mp hx; have h2 := abs_le.mp hy; have h3 := abs_le.mp hr
  rw [abs_le]
  constructor <;> linarith [h1.1, h1.2, h2.1, h2.2, h3.1, h3.2]

theorem neg (hx : Ap x v e) : Ap (Fl.neg x) (-v) e := by
  obtain ⟨p, a, rfl, hx⟩ := hx
  refine ⟨-p, _, rfl, ?_⟩
  push_cast
  rw [← abs_neg]
  convert hx using 2
  ring

theorem sub (hx : Ap x v e) (hy : Ap y w e') (hB : |v| + e + (|w| + e') ≤ B) (hB' : B ≤ 2 ^ 100)
    (hE : e + e' + (B / 2 ^ 24 + 1 / 2 ^ 150) ≤ E) : Ap (x -. y) (v - w) E := by
  rw [sub_eq_add_neg]
  exact hx.add hy.neg (by rw [abs_neg]; exact hB) hB' hE

theorem mul (hx : Ap x v e) (hy : Ap y w e') (hB : (|v| + e) * (|w| + e') ≤ B) (hB' : B ≤ 2 ^ 100)
    (hE : e * |w| + e' * |v| + e * e' + (B / 2 ^ 24 + 1 / 2 ^ 150) ≤ E) : Ap (x *. y) (v * w) E := by
  obtain ⟨p, a, ex, hp⟩ := hx.value
  obtain ⟨q, b, ey, hq⟩ := hy.value
  obtain ⟨p', a', ex', hx⟩ := hx
  obtain ⟨q', b', ey', hy⟩ := hy
  rw [ex] at ex'; cases ex'
  rw [ey] at ey'; cases ey'
  subst ex ey
  have hs : |((p * q : ℚ) : ℝ)| ≤ B := by
    push_cast
    rw [abs_mul]
    exact (mul_le_mul hp hq (abs_nonneg _) ((abs_nonneg _).trans hp)).trans hB
  obtain ⟨r, c, g, hr⟩ := round hs hB' (signbit (fin p a : F32) ^^ signbit (fin q b : F32))
  refine ⟨r, c, g, ?_⟩
  push_cast at hr
  have e1 : (r : ℝ) - v * w = (r - p * q) + ((p - v) * (q - w) + (p - v) * w + v * (q - w)) := by ring
  rw [e1]
  refine (abs_add_le _ _).trans ?_
  have k1 : |((p : ℝ) - v) * (q - w)| ≤ e * e' := by
    rw [abs_mul]; exact mul_le_mul hx hy (abs_nonneg _) ((abs_nonneg _).trans hx)
  have k2 : |((p : ℝ) - v) * w| ≤ e * |w| := by
    rw [abs_mul]; exact mul_le_mul_of_nonneg_right hx (abs_nonneg _)
  have k3 : |v * ((q : ℝ) - w)| ≤ e' * |v| := by
    rw [abs_mul, _root_.mul_comm]; exact mul_le_mul_of_nonneg_right hy (abs_nonneg _)
  have k4 := abs_add_le (((p : ℝ) - v) * (q - w) + (p - v) * w) (v * (q - w))
  have k5 := abs_add_le (((p : ℝ) - v) * (q - w)) ((p - v) * w)
  linarith

end Ap

/-! ### Whole numbers -/

/-- A float32 that is the whole number `n`. -/
def Wh (x : F32) (n : ℤ) : Prop := ∃ z, x = fin (n : ℚ) z

namespace Wh
variable {x y : F32} {m n : ℤ}

theorem ofRat' {n : ℤ} (h : |n| ≤ 2 ^ 24) (z : Bool) : Wh (ofRat fmt32 (n : ℚ) z) n := by
  have hr : Rep fmt32 (n : ℚ) := Fl.rep_int h (by decide)
  rw [ofRat_of_rep hr]
  · exact ⟨_, rfl⟩
  · have h1 : |(n : ℚ)| ≤ 2 ^ 24 := by exact_mod_cast h
    refine _root_.lt_of_le_of_lt h1 ?_
    have : pow2 24 < pow2 fmt32.emax := pow2_lt.mpr (by decide)
    rwa [show pow2 24 = 2 ^ 24 from pow2_nat 24] at this

theorem add (hx : Wh x m) (hy : Wh y n) (h : |m + n| ≤ 2 ^ 24) : Wh (x +. y) (m + n) := by
  obtain ⟨a, rfl⟩ := hx
  obtain ⟨b, rfl⟩ := hy
  have := ofRat' h (signbit (fin (m : ℚ) a : F32) && signbit (fin (n : ℚ) b : F32))
  push_cast at this
  exact this

theorem neg (hx : Wh x m) : Wh (Fl.neg x) (-m) := by
  obtain ⟨a, rfl⟩ := hx
  exact ⟨decide ((m : ℚ) = 0) && !a, by push_cast; rfl⟩

theorem sub (hx : Wh x m) (hy : Wh y n) (h : |m - n| ≤ 2 ^ 24) : Wh (x -. y) (m - n) := by
  rw [sub_eq_add_neg] at h ⊢
  exact hx.add hy.neg h

theorem mul (hx : Wh x m) (hy : Wh y n) (h : |m * n| ≤ 2 ^ 24) : Wh (x *. y) (m * n) := by
  obtain ⟨a, rfl⟩ := hx
  obtain ⟨b, rfl⟩ := hy
  have := ofRat' h (signbit (fin (m : ℚ) a : F32) ^^ signbit (fin (n : ℚ) b : F32))
  push_cast at this
  exact this

theorem ap (hx : Wh x m) : Ap x m 0 := by
  obtain ⟨a, rfl⟩ := hx
  have := Ap.fin' (m : ℚ) a
  push_cast at this
  exact this

end Wh

/-! ### The centre -/

theorem num_error {A B C U V W : F32} {pa pb pc u v w : ℤ} {l : ℝ} (hA : Wh A pa) (hB : Wh B pb) (hC : Wh C pc)
    (hU : Wh U u) (hV : Wh V v) (hW : Wh W w) (ba : |(pa : ℝ)| ≤ 2 ^ 21) (bb : |(pb : ℝ)| ≤ 2 ^ 21) (bc : |(pc : ℝ)| ≤ 2 ^ 21)
    (bu : |(u : ℝ)| ≤ l) (bv : |(v : ℝ)| ≤ l) (bw : |(w : ℝ)| ≤ l) (l1 : 1 ≤ l) (l2 : l ≤ 2 ^ 12) :
    Ap (A *. U +. B *. V +. C *. W) (pa * u + pb * v + pc * w) (1.01 * l) := by
  have key : ∀ {X Y : F32} {m n : ℤ}, Wh X m → Wh Y n → |(m : ℝ)| ≤ 2 ^ 21 → |(n : ℝ)| ≤ l →
      |(m : ℝ) * n| ≤ 2 ^ 21 * l ∧ Ap (X *. Y) (m * n) (0.126 * l) := by
    intro X Y m n hX hY hm hn
    have hb : |(m : ℝ)| * |(n : ℝ)| ≤ 2 ^ 21 * l := mul_le_mul hm hn (abs_nonneg _) (by norm_num)
    refine ⟨by rw [abs_mul]; exact hb, hX.ap.mul hY.ap (B := 2 ^ 21 * l) (by simpa using hb) (by linarith) ?_⟩
    norm_num
    linarith
  obtain ⟨a1, a2⟩ := key hA hU ba bu
  obtain ⟨b1, b2⟩ := key hB hV bb bv
  obtain ⟨c1, c2⟩ := key hC hW bc bw
  have s1 : |(pa : ℝ) * u + pb * v| ≤ 2 ^ 22 * l := (abs_add_le _ _).trans (by linarith)
  have h1 := a2.add b2 (B := 2 ^ 22 * l + l) (E := 0.503 * l) (by linarith) (by linarith) (by norm_num; linarith)
  exact h1.add c2 (B := 2 ^ 22 * l + 2 ^ 21 * l + l) (E := 1.01 * l) (by linarith) (by linarith) (by norm_num; linarith)

theorem one_lit32 : (lit 1 : F32) = fin 1 false := by decide +kernel

/-- A coordinate of the centre. -/
theorem quot_error {x d : F32} {N D l : ℝ} {n : ℤ} (hx : Ap x N (1.01 * l)) (hd : Wh d n) (hn : (n : ℝ) = D) (hD : 2 ≤ |D|)
    (hD' : |D| ≤ 2 ^ 24) (hN : |N| ≤ 4096 * |D|) (l0 : 0 ≤ l) (l1 : l ≤ 2 ^ 12) :
    Ap (x *. (lit 1 /. d)) (N / D) (1.02 * l / |D| + 1 / 900) := by
  obtain ⟨z, rfl⟩ := hd
  have hn0 : (n : ℚ) ≠ 0 := by
    intro h
    have : (n : ℝ) = 0 := by exact_mod_cast h
    rw [← hn, this, abs_zero] at hD
    norm_num at hD
  have D0 : 0 < |D| := by linarith
  have hq : ((1 / (n : ℚ) : ℚ) : ℝ) = 1 / D := by push_cast; rw [hn]
  have e1 : (lit 1 : F32) /. (fin (n : ℚ) z) = ofRat fmt32 (1 / (n : ℚ)) (signbit (fin 1 false : F32) ^^ signbit (fin (n : ℚ) z : F32)) := by
    rw [one_lit32]
    show (if (n : ℚ) = 0 then _ else _) = _
    rw [if_neg hn0]
  have i1 : |1 / D| = 1 / |D| := by rw [abs_div, abs_one]
  obtain ⟨r, c, g, hr⟩ := Ap.round (q := 1 / (n : ℚ)) (B := 1 / |D|) (by rw [hq, i1])
    (by rw [div_le_iff₀ D0]; linarith) (signbit (fin 1 false : F32) ^^ signbit (fin (n : ℚ) z : F32))
  rw [hq] at hr
  have hy : Ap ((lit 1 : F32) /. (fin (n : ℚ) z)) (1 / D) (1 / |D| / 2 ^ 23) := by
    refine ⟨r, c, by rw [e1, g], hr.trans ?_⟩
    have : 1 / 2 ^ 24 ≤ 1 / |D| := one_div_le_one_div_of_le D0 hD'
    norm_num at this ⊢
    linarith
  have i0 : 0 < 1 / |D| := by positivity
  have i2 : 1 / |D| ≤ 1 / 2 := one_div_le_one_div_of_le (by norm_num) hD
  have n1 : |N| * (1 / |D|) ≤ 4096 := by rw [mul_one_div, div_le_iff₀ D0]; exact hN
  have li : l * (1 / |D|) ≤ 2 ^ 11 := by
    calc l * (1 / |D|) ≤ 2 ^ 12 * (1 / 2) := mul_le_mul l1 i2 i0.le (by norm_num)
      _ = 2 ^ 11 := by norm_num
  have li0 : 0 ≤ l * (1 / |D|) := by positivity
  rw [div_eq_mul_one_div N D, show 1.02 * l / |D| = 1.02 * (l * (1 / |D|)) by ring]
  generalize 1 / |D| = i at *
  refine hx.mul hy (B := 4096 + 1.01 * (l * i) + 1) ?_ (by linarith) ?_
  · rw [i1]
    have : (|N| + 1.01 * l) * (i + i / 2 ^ 23) = (|N| * i + 1.01 * (l * i)) * (1 + 1 / 2 ^ 23) := by ring
    rw [this]
    norm_num
    linarith
  · rw [i1]
    have : 1.01 * l * i + i / 2 ^ 23 * |N| + 1.01 * l * (i / 2 ^ 23) = 1.01 * (l * i) + (|N| * i) / 2 ^ 23 + 1.01 * (l * i) / 2 ^ 23 := by ring
    rw [this]
    norm_num
    linarith

/-! ### The radius -/

theorem plane_triangle (x y u v : ℝ) : √((x + u) ^ 2 + (y + v) ^ 2) ≤ √(x ^ 2 + y ^ 2) + |u| + |v| := by
  have s0 : 0 ≤ x ^ 2 + y ^ 2 := by positivity
  have hx : |x| ≤ √(x ^ 2 + y ^ 2) := Real.abs_le_sqrt (by nlinarith [sq_nonneg y])
  have hy : |y| ≤ √(x ^ 2 + y ^ 2) := Real.abs_le_sqrt (by nlinarith [sq_nonneg x])
  have hs := Real.sq_sqrt s0
  have s1 := Real.sqrt_nonneg (x ^ 2 + y ^ 2)
  apply Real.sqrt_le_iff.mpr
  refine ⟨by positivity, ?_⟩
  have e : (√(x ^ 2 + y ^ 2) + |u| + |v|) ^ 2 =
      √(x ^ 2 + y ^ 2) ^ 2 + 2 * (√(x ^ 2 + y ^ 2) * |u|) + 2 * (√(x ^ 2 + y ^ 2) * |v|) + |u| ^ 2 + |v| ^ 2 + 2 * (|u| * |v|) := by ring
  rw [e, hs, sq_abs, sq_abs]
  have k1 := mul_le_mul_of_nonneg_right hx (abs_nonneg u)
  have k2 := mul_le_mul_of_nonneg_right hy (abs_nonneg v)
  have k3 : x * u ≤ |x| * |u| := by rw [← abs_mul]; exact le_abs_self _
  have k4 : y * v ≤ |y| * |v| := by rw [← abs_mul]; exact le_abs_self _
  have k5 : 0 ≤ |u| * |v| := by positivity
  nlinarith

/-- Twice the doubled area of a triangle. -/
def det3 (ax ay bx by' cx cy : ℝ) : ℝ := 2 * (ax * (by' - cy) + bx * (cy - ay) + cx * (ay - by'))

def cenX (ax ay bx by' cx cy : ℝ) : ℝ :=
  (ax ^ 2 + ay ^ 2) * (by' - cy) + (bx ^ 2 + by' ^ 2) * (cy - ay) + (cx ^ 2 + cy ^ 2) * (ay - by')

def cenY (ax ay bx by' cx cy : ℝ) : ℝ :=
  (ax ^ 2 + ay ^ 2) * (cx - bx) + (bx ^ 2 + by' ^ 2) * (ax - cx) + (cx ^ 2 + cy ^ 2) * (bx - ax)

section
variable {ax ay bx by' cx cy l : ℝ}

theorem radius_facts (hD : det3 ax ay bx by' cx cy ≠ 0)
    (hA : 144 ≤ (bx - cx) ^ 2 + (by' - cy) ^ 2) (hB : 144 ≤ (cx - ax) ^ 2 + (cy - ay) ^ 2) (hC : 144 ≤ (ax - bx) ^ 2 + (ay - by') ^ 2)
    (l0 : 0 ≤ l) (hl : l ^ 2 ≤ (bx - cx) ^ 2 + (by' - cy) ^ 2 ∨ l ^ 2 ≤ (cx - ax) ^ 2 + (cy - ay) ^ 2 ∨ l ^ 2 ≤ (ax - bx) ^ 2 + (ay - by') ^ 2) :
    let R := √((cenX ax ay bx by' cx cy / det3 ax ay bx by' cx cy - ax) ^ 2 + (cenY ax ay bx by' cx cy / det3 ax ay bx by' cx cy - ay) ^ 2)
    6 ≤ R ∧ 144 * l ≤ R * |det3 ax ay bx by' cx cy| := by
  intro R
  set D := det3 ax ay bx by' cx cy with hDd
  set X := cenX ax ay bx by' cx cy with hX
  set Y := cenY ax ay bx by' cx cy with hY
  have D2 : 0 < D ^ 2 := by positivity
  have R0 : 0 ≤ R := Real.sqrt_nonneg _
  have hR : R ^ 2 = (X / D - ax) ^ 2 + (Y / D - ay) ^ 2 := Real.sq_sqrt (by positivity)
  have h1 : R ^ 2 * D ^ 2 = (X - ax * D) ^ 2 + (Y - ay * D) ^ 2 := by
    rw [hR]; field_simp
  have h2 : (X - ax * D) ^ 2 + (Y - ay * D) ^ 2 =
      ((bx - cx) ^ 2 + (by' - cy) ^ 2) * ((cx - ax) ^ 2 + (cy - ay) ^ 2) * ((ax - bx) ^ 2 + (ay - by') ^ 2) := by
    rw [hDd, hX, hY]; unfold det3 cenX cenY; ring
  have h3 : (X - bx * D) ^ 2 + (Y - by' * D) ^ 2 = (X - ax * D) ^ 2 + (Y - ay * D) ^ 2 := by
    rw [hDd, hX, hY]; unfold det3 cenX cenY; ring
  constructor
  · -- the side is at most the diameter
    have h4 : ((ax - bx) ^ 2 + (ay - by') ^ 2) * D ^ 2 ≤ 4 * (R ^ 2 * D ^ 2) := by
      rw [h1]
      have k : ((ax - bx) ^ 2 + (ay - by') ^ 2) * D ^ 2 + ((X - bx * D) + (X - ax * D)) ^ 2 + ((Y - by' * D) + (Y - ay * D)) ^ 2 =
          2 * ((X - bx * D) ^ 2 + (Y - by' * D) ^ 2) + 2 * ((X - ax * D) ^ 2 + (Y - ay * D) ^ 2) := by ring
      have k1 := sq_nonneg ((X - bx * D) + (X - ax * D))
      have k2 := sq_nonneg ((Y - by' * D) + (Y - ay * D))
      linarith
    have h5 : 144 * D ^ 2 ≤ 4 * R ^ 2 * D ^ 2 := by
      have := mul_le_mul_of_nonneg_right hC D2.le
      linarith
    have h6 := le_of_mul_le_mul_right h5 D2
    exact abs_le_of_sq_le_sq' (by linarith : (6:ℝ) ^ 2 ≤ R ^ 2) R0 |>.2
  · have h7 : (144 * l) ^ 2 ≤ (R * |D|) ^ 2 := by
      rw [mul_pow R, sq_abs, h1, h2]
      generalize (bx - cx) ^ 2 + (by' - cy) ^ 2 = A at *
      generalize (cx - ax) ^ 2 + (cy - ay) ^ 2 = B at *
      generalize (ax - bx) ^ 2 + (ay - by') ^ 2 = C at *
      have l2 : 0 ≤ l ^ 2 := by positivity
      have key : ∀ {p q r : ℝ}, l ^ 2 ≤ p → 144 ≤ q → 144 ≤ r → (144 * l) ^ 2 ≤ p * q * r := by
        intro p q r hp hq hr
        have e : (144 * l) ^ 2 = l ^ 2 * 144 * 144 := by ring
        rw [e]
        exact mul_le_mul (mul_le_mul hp hq (by norm_num) (l2.trans hp)) hr (by norm_num) (mul_nonneg (l2.trans hp) (by linarith))
      rcases hl with h | h | h
      · exact key h hB hC
      · have := key h hA hC; linarith [show B * A * C = A * B * C by ring]
      · have := key h hA hB; linarith [show C * A * B = A * B * C by ring]
    exact abs_le_of_sq_le_sq' h7 (mul_nonneg R0 (abs_nonneg _)) |>.2

end

/-! ### Angles -/

/-- The float32 nearest to pi. -/
def piQ : ℚ := 13176795 / 4194304

theorem pi_le_piQ : Real.pi ≤ (piQ : ℝ) := by
  have := Real.pi_lt_d20
  unfold piQ
  norm_num at this ⊢
  linarith

theorem rep_piQ : Rep fmt32 piQ := ⟨13176795, -22, by decide, by decide, by unfold piQ; rw [show pow2 (-22) = 1 / 2 ^ 22 by decide +kernel]; norm_num⟩

theorem two_pi32 : (lit 2 *. CirArc.pi32 : F32) = fin (2 * piQ) false := by decide +kernel
theorem lit_two_pi : (lit (2 * piConst) : F32) = fin (2 * piQ) false := by decide +kernel

theorem up_near {q : ℚ} (h : |q| ≤ 2 ^ 100) (z : Bool) :
    ∃ r c, (up (fin q z : F32) : F64) = fin r c ∧ |r - q| ≤ |q| / 2 ^ 53 + 1 / 2 ^ 200 := by
  have hb : Bd (f := fmt64) 100 (ofRat fmt64 q z) := bd_ofRat (by rw [show pow2 100 = 2 ^ 100 from pow2_nat 100]; exact h) (by decide) (by decide) z
  obtain ⟨r, c, g, -⟩ := hb
  refine ⟨r, c, g, ?_⟩
  have hr : r = rnd fmt64 q := by
    unfold ofRat at g
    simp only at g
    split at g
    · cases g
    · injection g with g _; exact g.symm
  rw [hr]
  have e := rnd_error_rel (f := fmt64) q
  rw [show -((fmt64.p : ℕ) : ℤ) = -53 from rfl, show pow2 (-53) = 1 / 2 ^ 53 by decide +kernel] at e
  have t : pow2 (fmt64.emin - 1) ≤ 1 / 2 ^ 200 := by
    rw [show (1 : ℚ) / 2 ^ 200 = pow2 (-200) by decide +kernel]
    exact pow2_mono (by decide)
  linarith [show |q| * (1 / 2 ^ 53) = |q| / 2 ^ 53 by ring]

theorem atan2_in [GoLibm F64] (hl : Spec.ArcLaws) {y x : ℚ} (hy : |y| ≤ 2 ^ 100) (hx : |x| ≤ 2 ^ 100) (z w : Bool) :
    ∃ q b, Math32.atan2 (D := F64) (fin y z : F32) (fin x w) = fin q b ∧ |q| ≤ piQ := by
  obtain ⟨r, c, g1, -⟩ := up_near hy z
  obtain ⟨r', c', g2, -⟩ := up_near hx w
  obtain ⟨v, b, g3, hv⟩ := hl.atan2 r r' c c'
  have hv' : |v| ≤ piQ := by
    have := hv.trans pi_le_piQ
    exact_mod_cast this
  obtain ⟨d, g4⟩ := ofRat32_fin (q := v) (hv'.trans (by unfold piQ; norm_num)) b
  refine ⟨rnd fmt32 v, d, ?_, ?_⟩
  · unfold Math32.atan2
    rw [g1, g2, g3]
    exact g4
  · rw [abs_le] at hv' ⊢
    exact ⟨le_rnd rep_piQ.neg hv'.1, rnd_le rep_piQ hv'.2⟩

theorem turn_error {e : ℚ} (z : Bool) (h : |e| ≤ 4) :
    ∃ r c, (fin e z : F32) +. lit 2 *. CirArc.pi32 = fin r c ∧ |r - (e + 2 * piQ)| ≤ 1 / 2 ^ 20 := by
  rw [two_pi32]
  obtain ⟨r, c, g, hr⟩ := op_error (q := e + 2 * piQ) (B := 11) (by
    unfold piQ
    have := abs_le.mp h
    rw [abs_le]; constructor <;> linarith) (by norm_num) (signbit (fin e z : F32) && signbit (fin (2 * piQ) false : F32))
  exact ⟨r, c, g, hr.trans (by norm_num)⟩

theorem unwind_in {s e0 : ℚ} (a b : Bool) (hs : |s| ≤ piQ) (he : |e0| ≤ piQ) {fuel : ℕ} (hf : 3 ≤ fuel) :
    ∃ e z, CirArc.unwind (fin s a : F32) fuel (fin e0 b) = .ok (fin e z) ∧ s ≤ e ∧ e - s ≤ 2 * piQ + 1 / 2 ^ 20 ∧ |e| ≤ 11 := by
  obtain ⟨fuel, rfl⟩ : ∃ k, fuel = k + 3 := ⟨fuel - 3, by omega⟩
  have hs' := abs_le.mp hs
  have he' := abs_le.mp he
  have p1 : piQ ≤ 3.2 := by unfold piQ; norm_num
  have p2 : 3.1 ≤ piQ := by unfold piQ; norm_num
  have step : ∀ (e : ℚ) (z : Bool) (n : ℕ), CirArc.unwind (fin s a : F32) (n + 1) (fin e z) =
      if e < s then CirArc.unwind (fin s a : F32) n (fin e z +. lit 2 *. CirArc.pi32) else .ok (fin e z) := by
    intro e z n
    rw [CirArc.unwind]
    by_cases h : e < s
    · rw [if_pos h]
      exact if_pos (show Fl.lt (fin e z) (fin s a : F32) = true by simpa [Fl.lt] using h)
    · rw [if_neg h]
      exact if_neg (show ¬ Fl.lt (fin e z) (fin s a : F32) = true by simpa [Fl.lt] using h)
  rw [step]
  by_cases h0 : e0 < s
  · rw [if_pos h0]
    obtain ⟨e1, z1, g1, h1⟩ := turn_error (e := e0) b (by rw [abs_le]; constructor <;> linarith)
    have h1' := abs_le.mp h1
    rw [g1, step]
    by_cases k1 : e1 < s
    · rw [if_pos k1]
      obtain ⟨e2, z2, g2, h2⟩ := turn_error (e := e1) z1 (by rw [abs_le]; constructor <;> norm_num at h1' ⊢ <;> linarith [h1'.1])
      have h2' := abs_le.mp h2
      norm_num at h1' h2'
      rw [g2, step, if_neg (by linarith [h2'.1, h1'.1])]
      refine ⟨e2, z2, rfl, by linarith [h2'.1, h1'.1], by norm_num; linarith [h2'.2], ?_⟩
      rw [abs_le]; constructor <;> linarith [h2'.1, h1'.1, h2'.2]
    · rw [if_neg k1]
      norm_num at h1'
      refine ⟨e1, z1, rfl, not_lt.mp k1, by norm_num; linarith [h1'.2], ?_⟩
      rw [abs_le]; constructor <;> linarith [h1'.1, h1'.2]
  · rw [if_neg h0]
    refine ⟨e0, b, rfl, not_lt.mp h0, by norm_num; linarith, ?_⟩
    rw [abs_le]; constructor <;> linarith

/-! ### The arc -/

/-- Three points with whole coordinates of at most 1023 in magnitude, not in a line and at least 12 apart, on a circle with a centre
of coordinates of at most 4096 in magnitude. -/
structure ArcPts (a b c : Vec F32) (ax ay bx by' cx cy : ℤ) : Prop where
  wax : Wh a.x ax
  way : Wh a.y ay
  wbx : Wh b.x bx
  wby : Wh b.y by'
  wcx : Wh c.x cx
  wcy : Wh c.y cy
  bax : |ax| ≤ 1023
  bay : |ay| ≤ 1023
  bbx : |bx| ≤ 1023
  bby : |by'| ≤ 1023
  bcx : |cx| ≤ 1023
  bcy : |cy| ≤ 1023
  det : 2 * (ax * (by' - cy) + bx * (cy - ay) + cx * (ay - by')) ≠ 0
  sA : 144 ≤ (bx - cx) ^ 2 + (by' - cy) ^ 2
  sB : 144 ≤ (cx - ax) ^ 2 + (cy - ay) ^ 2
  sC : 144 ≤ (ax - bx) ^ 2 + (ay - by') ^ 2
  cX : |(ax ^ 2 + ay ^ 2) * (by' - cy) + (bx ^ 2 + by' ^ 2) * (cy - ay) + (cx ^ 2 + cy ^ 2) * (ay - by')| ≤
    4096 * |2 * (ax * (by' - cy) + bx * (cy - ay) + cx * (ay - by'))|
  cY : |(ax ^ 2 + ay ^ 2) * (cx - bx) + (bx ^ 2 + by' ^ 2) * (ax - cx) + (cx ^ 2 + cy ^ 2) * (bx - ax)| ≤
    4096 * |2 * (ax * (by' - cy) + bx * (cy - ay) + cx * (ay - by'))|

theorem abs_sub_small {m n : ℤ} (hm : |m| ≤ 1023) (hn : |n| ≤ 1023) : |m - n| ≤ 2046 := (abs_sub m n).trans (by omega)

theorem abs_mul_small {m n p q : ℤ} (hm : |m| ≤ p) (hn : |n| ≤ q) : |m * n| ≤ p * q := by
  rw [abs_mul]; exact mul_le_mul hm hn (abs_nonneg _) ((abs_nonneg _).trans hm)

theorem lenSq_whole {v : Vec F32} {x y : ℤ} (hx : Wh v.x x) (hy : Wh v.y y) (bx : |x| ≤ 1023) (by' : |y| ≤ 1023) :
    Wh v.lenSq (x ^ 2 + y ^ 2) ∧ |((x ^ 2 + y ^ 2 : ℤ) : ℝ)| ≤ 2 ^ 21 := by
  have h1 := abs_mul_small bx bx
  have h2 := abs_mul_small by' by'
  have h3 := (abs_add_le (x * x) (y * y)).trans (add_le_add h1 h2)
  have := (hx.mul hx (h1.trans (by norm_num))).add (hy.mul hy (h2.trans (by norm_num))) (h3.trans (by norm_num))
  rw [pow_two, pow_two]
  refine ⟨this, ?_⟩
  have h4 : |x * x + y * y| ≤ 2 ^ 21 := h3.trans (by norm_num)
  exact_mod_cast h4

variable {a b c : Vec F32} {ax ay bx by' cx cy : ℤ}

theorem det_whole (h : ArcPts a b c ax ay bx by' cx cy) :
    Wh (lit 2 *. (a.x *. (b.y -. c.y) +. b.x *. (c.y -. a.y) +. c.x *. (a.y -. b.y))) (2 * (ax * (by' - cy) + bx * (cy - ay) + cx * (ay - by'))) ∧
      |2 * (ax * (by' - cy) + bx * (cy - ay) + cx * (ay - by'))| ≤ 2 ^ 24 := by
  have d1 := abs_sub_small h.bby h.bcy
  have d2 := abs_sub_small h.bcy h.bay
  have d3 := abs_sub_small h.bay h.bby
  have m1 := abs_mul_small h.bax d1
  have m2 := abs_mul_small h.bbx d2
  have m3 := abs_mul_small h.bcx d3
  have s1 := (abs_add_le _ _).trans (add_le_add m1 m2)
  have s2 := (abs_add_le _ _).trans (add_le_add s1 m3)
  have s3 := abs_mul_small (le_refl |(2:ℤ)|) s2
  refine ⟨?_, s3.trans (by norm_num)⟩
  refine Wh.mul ⟨false, by rw [two_lit32]; norm_num⟩ ?_ (s3.trans (by norm_num))
  refine Wh.add (Wh.add ?_ ?_ (s1.trans (by norm_num))) ?_ (s2.trans (by norm_num))
  · exact h.wax.mul (h.wby.sub h.wcy (d1.trans (by norm_num))) (m1.trans (by norm_num))
  · exact h.wbx.mul (h.wcy.sub h.way (d2.trans (by norm_num))) (m2.trans (by norm_num))
  · exact h.wcx.mul (h.way.sub h.wby (d3.trans (by norm_num))) (m3.trans (by norm_num))

theorem whole_lit_001 : ∃ q z, (lit 0.001 : F32) = fin q z ∧ q ≤ 1 / 2 := by
  have : (lit 0.001 : F32) = fin (8589935 / 8589934592) false := by decide +kernel
  exact ⟨_, _, this, by norm_num⟩

theorem not_straight (h : ArcPts a b c ax ay bx by' cx cy) : Vec.isStraightLine (D := F64) a b c = false := by
  have d1 := abs_sub_small h.bby h.bay
  have d2 := abs_sub_small h.bcx h.bax
  have d3 := abs_sub_small h.bbx h.bax
  have d4 := abs_sub_small h.bcy h.bay
  have m1 := abs_mul_small d1 d2
  have m2 := abs_mul_small d3 d4
  have s1 := (abs_sub _ _).trans (add_le_add m1 m2)
  obtain ⟨z, hz⟩ : Wh ((b.y -. a.y) *. (c.x -. a.x) -. (b.x -. a.x) *. (c.y -. a.y)) _ :=
    ((h.wby.sub h.way (d1.trans (by norm_num))).mul (h.wcx.sub h.wax (d2.trans (by norm_num))) (m1.trans (by norm_num))).sub
      ((h.wbx.sub h.wax (d3.trans (by norm_num))).mul (h.wcy.sub h.way (d4.trans (by norm_num))) (m2.trans (by norm_num))) (s1.trans (by norm_num))
  set n : ℤ := (by' - ay) * (cx - ax) - (bx - ax) * (cy - ay) with hn
  have hn0 : n ≠ 0 := fun e => h.det (by rw [hn] at e; linarith)
  have hn1 : (1 : ℚ) ≤ |(n : ℚ)| := by exact_mod_cast Int.one_le_abs hn0
  have hn2 : |(n : ℚ)| ≤ 2 ^ 24 := by
    have : |n| ≤ 2 ^ 24 := s1.trans (by norm_num)
    exact_mod_cast this
  obtain ⟨r, w, g, hr⟩ := up_near (q := (n : ℚ)) (hn2.trans (by norm_num)) z
  have hr1 : |(n : ℚ)| / 2 ^ 53 + 1 / 2 ^ 200 ≤ 1 / 4 := by norm_num at hn2 ⊢; linarith
  have hr2 : 1 / 2 ≤ |r| := by
    have := abs_sub_abs_le_abs_sub (n : ℚ) r
    rw [abs_sub_comm] at hr
    linarith
  have hr3 : |r| ≤ 2 ^ 120 := by
    have := abs_sub_abs_le_abs_sub r (n : ℚ)
    norm_num at hn2 ⊢
    linarith
  obtain ⟨u, g2⟩ := ofRat32_fin (q := |r|) (by rw [abs_abs]; exact hr3) false
  have e : Math32.abs (D := F64) ((b.y -. a.y) *. (c.x -. a.x) -. (b.x -. a.x) *. (c.y -. a.y)) = fin (rnd fmt32 |r|) u := by
    unfold Math32.abs
    rw [hz, g]
    exact g2
  have h5 : (1 : ℚ) / 2 ≤ rnd fmt32 |r| := le_rnd ⟨1, -1, by decide, by decide, by rw [show pow2 (-1) = 1 / 2 by decide +kernel]; norm_num⟩ hr2
  obtain ⟨q, y, hq, hq2⟩ := whole_lit_001
  unfold Vec.isStraightLine
  rw [e, hq]
  show Fl.lt (fin (rnd fmt32 |r|) u) (fin q y : F32) = false
  simp only [Fl.lt, decide_eq_false_iff_not, not_lt]
  linarith

/-- The centre as it is computed. -/
def centre32 (a b c : Vec F32) : Vec F32 :=
  Vec.scl ⟨a.lenSq *. (b.y -. c.y) +. b.lenSq *. (c.y -. a.y) +. c.lenSq *. (a.y -. b.y),
     a.lenSq *. (c.x -. b.x) +. b.lenSq *. (a.x -. c.x) +. c.lenSq *. (b.x -. a.x)⟩
    (lit 1 /. (lit 2 *. (a.x *. (b.y -. c.y) +. b.x *. (c.y -. a.y) +. c.x *. (a.y -. b.y))))

theorem abs_le_sq_sum (x y : ℝ) : x ^ 2 ≤ x ^ 2 + y ^ 2 ∧ y ^ 2 ≤ x ^ 2 + y ^ 2 := ⟨by nlinarith [sq_nonneg y], by nlinarith [sq_nonneg x]⟩

/-- Centre and radius of the arc as they are computed. -/
theorem centre_in (h : ArcPts a b c ax ay bx by' cx cy) :
    ∃ (mx my r : ℚ) (zx zy zr : Bool), centre32 a b c = ⟨fin mx zx, fin my zy⟩ ∧ |mx| ≤ 4200 ∧ |my| ≤ 4200 ∧
      a.dst (D := F64) (centre32 a b c) = fin r zr ∧ 5.8 ≤ r ∧ r ≤ 7350 := by
  obtain ⟨dw, dle⟩ := det_whole h
  set n : ℤ := 2 * (ax * (by' - cy) + bx * (cy - ay) + cx * (ay - by')) with hn
  have hdet : det3 ax ay bx by' cx cy = (n : ℝ) := by rw [hn]; unfold det3; push_cast; ring
  have hn0 : (n : ℝ) ≠ 0 := by exact_mod_cast h.det
  have hn2 : (2 : ℝ) ≤ |(n : ℝ)| := by
    have : (2 : ℤ) ≤ |n| := by
      rw [hn, abs_mul, abs_two]
      have : (1 : ℤ) ≤ |ax * (by' - cy) + bx * (cy - ay) + cx * (ay - by')| := Int.one_le_abs fun e => h.det (by rw [e]; rfl)
      linarith
    exact_mod_cast this
  have hn24 : |(n : ℝ)| ≤ 2 ^ 24 := by exact_mod_cast dle
  have D0 : 0 < |(n : ℝ)| := by linarith
  -- the longest side
  have sA : (144 : ℝ) ≤ ((bx : ℝ) - cx) ^ 2 + ((by' : ℝ) - cy) ^ 2 := by exact_mod_cast h.sA
  have sB : (144 : ℝ) ≤ ((cx : ℝ) - ax) ^ 2 + ((cy : ℝ) - ay) ^ 2 := by exact_mod_cast h.sB
  have sC : (144 : ℝ) ≤ ((ax : ℝ) - bx) ^ 2 + ((ay : ℝ) - by') ^ 2 := by exact_mod_cast h.sC
  obtain ⟨l, l1, l2, hl, dA, dB, dC⟩ : ∃ l : ℝ, 1 ≤ l ∧ l ≤ 2 ^ 12 ∧
      (l ^ 2 ≤ ((bx : ℝ) - cx) ^ 2 + ((by' : ℝ) - cy) ^ 2 ∨ l ^ 2 ≤ ((cx : ℝ) - ax) ^ 2 + ((cy : ℝ) - ay) ^ 2 ∨
        l ^ 2 ≤ ((ax : ℝ) - bx) ^ 2 + ((ay : ℝ) - by') ^ 2) ∧
      (|(bx : ℝ) - cx| ≤ l ∧ |(by' : ℝ) - cy| ≤ l) ∧ (|(cx : ℝ) - ax| ≤ l ∧ |(cy : ℝ) - ay| ≤ l) ∧ (|(ax : ℝ) - bx| ≤ l ∧ |(ay : ℝ) - by'| ≤ l) := by
    have small : ∀ {p q : ℤ}, |p| ≤ 1023 → |q| ≤ 1023 → ((p : ℝ) - q) ^ 2 ≤ 2046 ^ 2 := by
      intro p q hp hq
      have : |(p : ℝ) - q| ≤ 2046 := by exact_mod_cast abs_sub_small hp hq
      exact sq_le_sq' (abs_le.mp this).1 (abs_le.mp this).2
    have bA := add_le_add (small h.bbx h.bcx) (small h.bby h.bcy)
    have bB := add_le_add (small h.bcx h.bax) (small h.bcy h.bay)
    have bC := add_le_add (small h.bax h.bbx) (small h.bay h.bby)
    have xA := abs_le_sq_sum ((bx : ℝ) - cx) ((by' : ℝ) - cy)
    have xB := abs_le_sq_sum ((cx : ℝ) - ax) ((cy : ℝ) - ay)
    have xC := abs_le_sq_sum ((ax : ℝ) - bx) ((ay : ℝ) - by')
    generalize ((bx : ℝ) - cx) ^ 2 + ((by' : ℝ) - cy) ^ 2 = A at *
    generalize ((cx : ℝ) - ax) ^ 2 + ((cy : ℝ) - ay) ^ 2 = B at *
    generalize ((ax : ℝ) - bx) ^ 2 + ((ay : ℝ) - by') ^ 2 = C at *
    have hm : max (max A B) C = A ∨ max (max A B) C = B ∨ max (max A B) C = C := by
      rcases max_choice (max A B) C with e | e
      · rcases max_choice A B with e' | e'
        · exact Or.inl (e.trans e')
        · exact Or.inr (Or.inl (e.trans e'))
      · exact Or.inr (Or.inr e)
    have mA : A ≤ max (max A B) C := (le_max_left _ _).trans (le_max_left _ _)
    have mB : B ≤ max (max A B) C := (le_max_right _ _).trans (le_max_left _ _)
    have mC : C ≤ max (max A B) C := le_max_right _ _
    have mU : max (max A B) C ≤ 2046 ^ 2 + 2046 ^ 2 := max_le (max_le bA bB) bC
    generalize max (max A B) C = M at *
    have rM : ∀ {x : ℝ}, x ^ 2 ≤ M → |x| ≤ √M := fun hx => Real.abs_le_sqrt hx
    refine ⟨√M, ?_, ?_, ?_, ⟨rM (xA.1.trans mA), rM (xA.2.trans mA)⟩, ⟨rM (xB.1.trans mB), rM (xB.2.trans mB)⟩,
      ⟨rM (xC.1.trans mC), rM (xC.2.trans mC)⟩⟩
    · exact Real.le_sqrt_of_sq_le (by linarith)
    · exact Real.sqrt_le_iff.mpr ⟨by norm_num, mU.trans (by norm_num)⟩
    · rw [Real.sq_sqrt (by linarith)]
      rcases hm with e | e | e
      · exact Or.inl e.le
      · exact Or.inr (Or.inl e.le)
      · exact Or.inr (Or.inr e.le)
  -- numerators
  obtain ⟨wa, ba⟩ := lenSq_whole h.wax h.way h.bax h.bay
  obtain ⟨wb, bb⟩ := lenSq_whole h.wbx h.wby h.bbx h.bby
  obtain ⟨wc, bc⟩ := lenSq_whole h.wcx h.wcy h.bcx h.bcy
  have big : ∀ {p q : ℤ}, |p| ≤ 1023 → |q| ≤ 1023 → |p - q| ≤ 2 ^ 24 := fun hp hq => (abs_sub_small hp hq).trans (by norm_num)
  have flip : ∀ {p q : ℝ}, |p - q| ≤ l → |q - p| ≤ l := fun h => by rw [abs_sub_comm]; exact h
  have hx := num_error wa wb wc (h.wby.sub h.wcy (big h.bby h.bcy)) (h.wcy.sub h.way (big h.bcy h.bay)) (h.way.sub h.wby (big h.bay h.bby))
    ba bb bc (by push_cast; exact dA.2) (by push_cast; exact dB.2) (by push_cast; exact dC.2) l1 l2
  have hy := num_error wa wb wc (h.wcx.sub h.wbx (big h.bcx h.bbx)) (h.wax.sub h.wcx (big h.bax h.bcx)) (h.wbx.sub h.wax (big h.bbx h.bax))
    ba bb bc (by push_cast; exact flip dA.1) (by push_cast; exact flip dB.1) (by push_cast; exact flip dC.1) l1 l2
  have ex : ((ax ^ 2 + ay ^ 2 : ℤ) : ℝ) * ((by' - cy : ℤ) : ℝ) + ((bx ^ 2 + by' ^ 2 : ℤ) : ℝ) * ((cy - ay : ℤ) : ℝ) +
      ((cx ^ 2 + cy ^ 2 : ℤ) : ℝ) * ((ay - by' : ℤ) : ℝ) = cenX ax ay bx by' cx cy := by unfold cenX; push_cast; ring
  have ey : ((ax ^ 2 + ay ^ 2 : ℤ) : ℝ) * ((cx - bx : ℤ) : ℝ) + ((bx ^ 2 + by' ^ 2 : ℤ) : ℝ) * ((ax - cx : ℤ) : ℝ) +
      ((cx ^ 2 + cy ^ 2 : ℤ) : ℝ) * ((bx - ax : ℤ) : ℝ) = cenY ax ay bx by' cx cy := by unfold cenY; push_cast; ring
  rw [ex] at hx
  rw [ey] at hy
  have bX : |cenX ax ay bx by' cx cy| ≤ 4096 * |(n : ℝ)| := by
    have := h.cX
    rw [← ex]
    exact_mod_cast this
  have bY : |cenY ax ay bx by' cx cy| ≤ 4096 * |(n : ℝ)| := by
    have := h.cY
    rw [← ey]
    exact_mod_cast this
  have qx := quot_error hx dw rfl hn2 hn24 bX (by linarith) l2
  have qy := quot_error hy dw rfl hn2 hn24 bY (by linarith) l2
  -- the radius
  have hfacts := radius_facts (l := l) (by rw [hdet]; exact hn0) sA sB sC (by linarith) hl
  rw [hdet] at hfacts
  set X := cenX ax ay bx by' cx cy / (n : ℝ) with hX
  set Y := cenY ax ay bx by' cx cy / (n : ℝ) with hY
  have X1 : |X| ≤ 4096 := by rw [hX, abs_div, div_le_iff₀ D0]; exact bX
  have Y1 : |Y| ≤ 4096 := by rw [hY, abs_div, div_le_iff₀ D0]; exact bY
  obtain ⟨R6, Rl⟩ := hfacts
  have axr : |(ax : ℝ)| ≤ 1023 := by exact_mod_cast h.bax
  have ayr : |(ay : ℝ)| ≤ 1023 := by exact_mod_cast h.bay
  have R1 : √((X - ax) ^ 2 + (Y - ay) ^ 2) ≤ 7240 := by
    have t1 : |X - ax| ≤ 5119 := (abs_sub _ _).trans (by linarith)
    have t2 : |Y - ay| ≤ 5119 := (abs_sub _ _).trans (by linarith)
    have t3 := sq_le_sq' (abs_le.mp t1).1 (abs_le.mp t1).2
    have t4 := sq_le_sq' (abs_le.mp t2).1 (abs_le.mp t2).2
    exact Real.sqrt_le_iff.mpr ⟨by norm_num, by norm_num at t3 t4 ⊢; linarith⟩
  set R := √((X - ax) ^ 2 + (Y - ay) ^ 2) with hR
  have lD : l / |(n : ℝ)| ≤ R / 144 := by rw [div_le_div_iff₀ D0 (by norm_num)]; linarith
  have hδ : 1.02 * l / |(n : ℝ)| + 1 / 900 ≤ 1.02 * (R / 144) + 1 / 900 := by
    rw [mul_div_assoc]; linarith
  obtain ⟨mx, zx, gx, hmx⟩ := qx.mono hδ
  obtain ⟨my, zy, gy, hmy⟩ := qy.mono hδ
  have hc : centre32 a b c = ⟨fin mx zx, fin my zy⟩ := by
    unfold centre32 Vec.scl
    rw [← gx, ← gy]
  have mX : |(mx : ℝ)| ≤ 4200 := by
    have := abs_add_le X ((mx : ℝ) - X)
    rw [add_sub_cancel] at this
    linarith
  have mY : |(my : ℝ)| ≤ 4200 := by
    have := abs_add_le Y ((my : ℝ) - Y)
    rw [add_sub_cancel] at this
    linarith
  have mXq : |mx| ≤ 4200 := by exact_mod_cast mX
  have mYq : |my| ≤ 4200 := by exact_mod_cast mY
  obtain ⟨z1, w1⟩ := h.wax
  obtain ⟨z2, w2⟩ := h.way
  have bq : ∀ {p : ℤ}, |p| ≤ 1023 → |(p : ℚ)| ≤ 2 ^ 21 := by
    intro p hp
    have : |p| ≤ 2 ^ 21 := hp.trans (by norm_num)
    exact_mod_cast this
  obtain ⟨r, zr, gr, -, hr⟩ := getLength_error (l := ⟨a, centre32 a b c⟩) (x1 := ax) (y1 := ay) (x2 := mx) (y2 := my)
    (by show a = _; rw [← w1, ← w2]) hc (bq h.bax) (bq h.bay) (mXq.trans (by norm_num)) (mYq.trans (by norm_num))
  have nr : norm2 (mx - ax) (my - ay) = √(((mx : ℝ) - ax) ^ 2 + ((my : ℝ) - ay) ^ 2) := by
    unfold norm2; push_cast; rfl
  rw [nr] at hr
  have t1 := plane_triangle (X - ax) (Y - ay) (mx - X) (my - Y)
  have t2 := plane_triangle (mx - ax) (my - ay) (X - mx) (Y - my)
  rw [show X - (ax : ℝ) + (mx - X) = mx - ax by ring, show Y - (ay : ℝ) + (my - Y) = my - ay by ring, ← hR] at t1
  rw [show (mx : ℝ) - ax + (X - mx) = X - ax by ring, show (my : ℝ) - ay + (Y - my) = Y - ay by ring, ← hR, abs_sub_comm X, abs_sub_comm Y] at t2
  have hr' := abs_le.mp hr
  generalize √(((mx : ℝ) - ax) ^ 2 + ((my : ℝ) - ay) ^ 2) = N at *
  norm_num at hr' R6
  have r1 : (5.8 : ℝ) ≤ r := by norm_num; linarith [hr'.1]
  have r2 : (r : ℝ) ≤ 7350 := by linarith [hr'.2]
  refine ⟨mx, my, r, zx, zy, zr, hc, mXq, mYq, gr, ?_, ?_⟩
  · have : ((5.8 : ℚ) : ℝ) ≤ r := by norm_num at r1 ⊢; exact r1
    exact_mod_cast this
  · exact_mod_cast r2

/-- An arc with finite centre, radius and angles. -/
structure GoodArc (arc : CirArc F32) (mx my r s t d : ℚ) : Prop where
  stable : arc.unstable = false
  centre : ∃ z w, arc.centre = ⟨fin mx z, fin my w⟩
  radius : ∃ z, arc.r = fin r z
  start : ∃ z, arc.startAngle = fin s z
  total : ∃ z, arc.totalAngle = fin t z
  dir : ∃ z, arc.dir = fin d z
  dir1 : d = 1 ∨ d = -1
  mxB : |mx| ≤ 4200
  myB : |my| ≤ 4200
  r0 : 5.8 ≤ r
  r1 : r ≤ 7350
  sB : |s| ≤ piQ
  t0 : -(1 / 2 ^ 18) ≤ t
  t1 : t ≤ 6.2832

theorem angleRV_in [GoLibm F64] (hl : Spec.ArcLaws) {v : Vec F32} {x y : ℤ} {mx my : ℚ} {z w : Bool} (hx : Wh v.x x) (hy : Wh v.y y)
    (bx : |x| ≤ 1023) (by' : |y| ≤ 1023) (hmx : |mx| ≤ 4200) (hmy : |my| ≤ 4200) :
    ∃ q b, v.angleRV (D := F64) ⟨fin mx z, fin my w⟩ = fin q b ∧ |q| ≤ piQ := by
  have diff : ∀ {u : F32} {n : ℤ} {m : ℚ} (c : Bool), Wh u n → |n| ≤ 1023 → |m| ≤ 4200 → ∃ q b, u -. (fin m c : F32) = fin q b ∧ |q| ≤ 2 ^ 100 := by
    rintro u n m c ⟨b, rfl⟩ hn hm
    have hn' : |(n : ℚ)| ≤ 1023 := by exact_mod_cast hn
    have hb : |(n : ℚ) + -m| ≤ 6000 := (abs_add_le _ _).trans (by rw [abs_neg]; linarith)
    obtain ⟨q, e, g, hq⟩ := op_error (q := (n : ℚ) + -m) hb (by norm_num)
      (signbit (fin (n : ℚ) b : F32) && signbit (Fl.neg (fin m c) : F32))
    refine ⟨q, e, g, ?_⟩
    have := abs_add_le ((n : ℚ) + -m) (q - ((n : ℚ) + -m))
    rw [add_sub_cancel] at this
    exact this.trans ((add_le_add hb hq).trans (by norm_num))
  obtain ⟨q1, b1, g1, h1⟩ := diff w hy by' hmy
  obtain ⟨q2, b2, g2, h2⟩ := diff z hx bx hmx
  unfold Vec.angleRV
  rw [g1, g2]
  exact atan2_in hl h1 h2 _ _

theorem arc_new [GoLibm F64] (hl : Spec.ArcLaws) (h : ArcPts a b c ax ay bx by' cx cy) {fuel : ℕ} (hf : 3 ≤ fuel) :
    ∃ (arc : CirArc F32) (mx my r s t d : ℚ), CirArc.new (D := F64) fuel a b c = .ok arc ∧ GoodArc arc mx my r s t d := by
  obtain ⟨mx, my, r, zx, zy, zr, hc, bX, bY, hr, r0, r1⟩ := centre_in h
  obtain ⟨s, zs, gs, hs⟩ := angleRV_in hl (z := zx) (w := zy) h.wax h.way h.bax h.bay bX bY
  obtain ⟨e0, ze, ge, he⟩ := angleRV_in hl (z := zx) (w := zy) h.wcx h.wcy h.bcx h.bcy bX bY
  obtain ⟨e, z, gu, e1, e2, e3⟩ := unwind_in zs ze hs he hf
  have hns := not_straight h
  have p1 : piQ ≤ 3.14159275 := by unfold piQ; norm_num
  have p2 : 3.1415927 ≤ piQ := by unfold piQ; norm_num
  have hsub : |e + -s| ≤ 7 := by
    rw [abs_le]; norm_num at e2 ⊢; constructor <;> linarith
  obtain ⟨t, zt, gt, ht⟩ := op_error (q := e + -s) hsub (by norm_num) (signbit (fin e z : F32) && signbit (Fl.neg (fin s zs) : F32))
  have gt' : (fin e z : F32) -. fin s zs = fin t zt := gt
  have ht' := abs_le.mp ht
  have hsub2 : |2 * piQ + -t| ≤ 15 := by
    rw [abs_le]; norm_num at e2 ht' ⊢; constructor <;> linarith [ht'.1, ht'.2]
  obtain ⟨t', zt', gt2, ht2⟩ := op_error (q := 2 * piQ + -t) hsub2 (by norm_num) (signbit (fin (2 * piQ) false : F32) && signbit (Fl.neg (fin t zt) : F32))
  have gt2' : (lit (2 * piConst) : F32) -. fin t zt = fin t' zt' := by rw [lit_two_pi]; exact gt2
  have ht2' := abs_le.mp ht2
  have hnew : CirArc.new (D := F64) fuel a b c =
      (CirArc.unwind (a.angleRV (D := F64) (centre32 a b c)) fuel (c.angleRV (D := F64) (centre32 a b c))).bind fun endAngle =>
        if (⟨(c.sub a).y, fneg (c.sub a).x⟩ : Vec F32).dot (b.sub a) <. lit 0 then
          .ok ⟨centre32 a b c, a.angleRV (D := F64) (centre32 a b c), lit (2 * piConst) -. (endAngle -. a.angleRV (D := F64) (centre32 a b c)),
            fneg (lit 1), a.dst (D := F64) (centre32 a b c), Vec.isStraightLine (D := F64) a b c⟩
        else
          .ok ⟨centre32 a b c, a.angleRV (D := F64) (centre32 a b c), endAngle -. a.angleRV (D := F64) (centre32 a b c),
            lit 1, a.dst (D := F64) (centre32 a b c), Vec.isStraightLine (D := F64) a b c⟩ := rfl
  rw [hnew, hc, gs, ge, gu, hns]
  rw [hc] at hr
  rw [hr]
  simp only [Except.bind]
  rw [gt', gt2']
  norm_num at ht' ht2' e2 p1 p2
  split
  · refine ⟨_, mx, my, r, s, t', -1, rfl, ⟨rfl, ⟨_, _, rfl⟩, ⟨_, rfl⟩, ⟨_, rfl⟩, ⟨_, rfl⟩, ?_, Or.inr rfl, bX, bY, r0, r1, hs, ?_, ?_⟩⟩
    · exact ⟨false, show (fneg (lit 1) : F32) = fin (-1) false by rw [one_lit32]; rfl⟩
    · norm_num; linarith [ht2'.1, ht'.2]
    · norm_num; linarith [ht2'.2, ht'.1]
  · refine ⟨_, mx, my, r, s, t, 1, rfl, ⟨rfl, ⟨_, _, rfl⟩, ⟨_, rfl⟩, ⟨_, rfl⟩, ⟨_, rfl⟩, ?_, Or.inl rfl, bX, bY, r0, r1, hs, ?_, ?_⟩⟩
    · exact ⟨false, one_lit32⟩
    · norm_num; linarith [ht'.1]
    · norm_num; linarith [ht'.2]

end GosuPP
