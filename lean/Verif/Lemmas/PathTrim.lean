import Verif.Lemmas.PathIEEE

/-! Rounding errors of points on lines, and where trimmed lines end. -/

namespace GosuPP
open Go Fl
open GosuPP.Fl (NN0)

theorem e24 : pow2 (-24) = 1 / 2 ^ 24 := by rw [show (-24 : ℤ) = -((24 : ℕ) : ℤ) from rfl, pow2_eq, zpow_neg]; norm_num
theorem e150 : pow2 (-150) = 1 / 2 ^ 150 := by rw [show (-150 : ℤ) = -((150 : ℕ) : ℤ) from rfl, pow2_eq, zpow_neg]; norm_num

theorem rnd32_error (q : ℚ) : |rnd fmt32 q - q| ≤ |q| / 2 ^ 24 + 1 / 2 ^ 150 := by
  have h := rnd_error_rel (f := fmt32) q
  rw [show -((fmt32.p : ℕ) : ℤ) = -24 from rfl, show fmt32.emin - 1 = -150 from rfl, e24, e150] at h
  linarith [h, show |q| * (1 / 2 ^ 24) = |q| / 2 ^ 24 by ring]

theorem ofRat32_fin {q : ℚ} (h : |q| ≤ 2 ^ 120) (z : Bool) : ∃ c, ofRat fmt32 q z = fin (rnd fmt32 q) c := by
  have e : (2 : ℚ) ^ 120 = pow2 120 := by rw [show (120 : ℤ) = ((120 : ℕ) : ℤ) from rfl, pow2_eq]; norm_cast
  rw [e] at h
  have hr : Rep fmt32 (pow2 120) := Go.rep_pow2 (by decide)
  have h1 : |rnd fmt32 q| ≤ pow2 120 := by
    rw [abs_le] at h ⊢
    exact ⟨le_rnd hr.neg h.1, rnd_le hr h.2⟩
  unfold ofRat
  simp only
  rw [if_neg (not_le.mpr (_root_.lt_of_le_of_lt h1 (pow2_lt.mpr (by decide))))]
  exact ⟨_, rfl⟩

/-- One coordinate of a point of a line, inside or beyond it. -/
theorem lerp_coord {a b q B M : ℚ} {za zb zq : Bool} (ha : |a| ≤ B) (hb : |b| ≤ B) (hq0 : 0 ≤ q)
    (hq1 : q ≤ 2 ^ 80) (hM : 2 * B ≤ M) (hMq : |b - a| * q ≤ M) (hM0 : 1 / 2 ^ 20 ≤ M) (hM1 : M ≤ 2 ^ 100) :
    ∃ w c, ((fin b zb : F32) -. fin a za) *. fin q zq +. fin a za = fin w c ∧ |w - (a + q * (b - a))| ≤ M / 2 ^ 22 := by
  have hx : |b + -a| ≤ M := by
    have := abs_sub b a
    rw [← sub_eq_add_neg]
    linarith [abs_sub b a]
  have hMm : (2:ℚ) ^ 100 ≤ 2 ^ 120 := by norm_num
  obtain ⟨c1, h1⟩ := ofRat32_fin (q := b + -a) (by linarith) (signbit (fin b zb : F32) && signbit (neg (fin a za) : F32))
  have g1 : (fin b zb : F32) -. fin a za = fin (rnd fmt32 (b + -a)) c1 := h1
  have r1 := rnd32_error (b + -a)
  have k1 : |(rnd fmt32 (b + -a) - (b + -a)) * q| ≤ M / 2 ^ 24 + 1 / 2 ^ 70 := by
    rw [abs_mul, abs_of_nonneg hq0]
    calc _ ≤ (|b + -a| / 2 ^ 24 + 1 / 2 ^ 150) * q := mul_le_mul_of_nonneg_right r1 hq0
      _ = |b - a| * q / 2 ^ 24 + q / 2 ^ 150 := by rw [sub_eq_add_neg]; ring
      _ ≤ M / 2 ^ 24 + 2 ^ 80 / 2 ^ 150 := by gcongr
      _ = _ := by norm_num
  have sm : (1:ℚ) / 2 ^ 70 ≤ M / 2 ^ 50 := by
    rw [le_div_iff₀ (by positivity)]
    have : (1:ℚ) / 2 ^ 70 * 2 ^ 50 ≤ 1 / 2 ^ 20 := by norm_num
    linarith
  have sm' : (1:ℚ) / 2 ^ 150 ≤ 1 / 2 ^ 70 := by norm_num
  generalize rnd fmt32 (b + -a) = d at g1 k1
  have k2 : |d * q| ≤ M + M / 2 ^ 24 + 1 / 2 ^ 70 := by
    have e : d * q = (d - (b + -a)) * q + (b - a) * q := by ring
    rw [e]
    refine (abs_add_le _ _).trans ?_
    rw [abs_mul (b - a), abs_of_nonneg hq0]
    linarith
  have M0 : 0 < M := by have : (0:ℚ) < 1 / 2 ^ 20 := by norm_num
                        linarith
  have n24 : M / 2 ^ 24 ≤ M / 1000 := by apply div_le_div_of_nonneg_left M0.le (by norm_num) (by norm_num)
  have n60 : M / 2 ^ 50 ≤ M / 1000000000 := by apply div_le_div_of_nonneg_left M0.le (by norm_num) (by norm_num)
  obtain ⟨c2, h2⟩ := ofRat32_fin (q := d * q) (by linarith) (Bool.xor (signbit (fin d c1 : F32)) (signbit (fin q zq : F32)))
  have g2 : (fin d c1 : F32) *. fin q zq = fin (rnd fmt32 (d * q)) c2 := h2
  have r2 := rnd32_error (d * q)
  generalize rnd fmt32 (d * q) = y at g2 r2
  have k3 : |y - d * q| ≤ (M + M / 500) / 2 ^ 24 + 1 / 2 ^ 150 := by
    refine r2.trans ?_
    have : |d * q| ≤ M + M / 500 := by linarith
    gcongr
  have n2 : (M + M / 500) / 2 ^ 24 ≤ M / 1000 := by
    rw [div_le_iff₀ (by norm_num)]
    nlinarith
  have k4 : |y + a| ≤ 2 * M := by
    have e : y + a = (y - d * q) + d * q + a := by ring
    rw [e]
    have := abs_add_three (y - d * q) (d * q) a
    linarith
  obtain ⟨c3, h3⟩ := ofRat32_fin (q := y + a) (by linarith) (signbit (fin y c2 : F32) && signbit (fin a za : F32))
  have g3 : (fin y c2 : F32) +. fin a za = fin (rnd fmt32 (y + a)) c3 := h3
  have r3 := rnd32_error (y + a)
  refine ⟨rnd fmt32 (y + a), c3, by rw [g1, g2, g3], ?_⟩
  have e : rnd fmt32 (y + a) - (a + q * (b - a)) = (rnd fmt32 (y + a) - (y + a)) + (y - d * q) + (d - (b + -a)) * q := by ring
  rw [e]
  refine (abs_add_three _ _ _).trans ?_
  have k5 : |rnd fmt32 (y + a) - (y + a)| ≤ (M + M * (6 / 10)) / 2 ^ 24 + 1 / 2 ^ 150 := by
    refine r3.trans ?_
    have : |y + a| ≤ M + M * (6 / 10) := by
      have e : y + a = (y - d * q) + d * q + a := by ring
      rw [e]
      have := abs_add_three (y - d * q) (d * q) a
      linarith
    gcongr
  have e22 : M / 2 ^ 22 = 4 * (M / 2 ^ 24) := by ring
  have e1 : (M + M / 500) / 2 ^ 24 = M / 2 ^ 24 * (501 / 500) := by ring
  have e2 : (M + M * (6 / 10)) / 2 ^ 24 = M / 2 ^ 24 * (16 / 10) := by ring
  have e3 : M / 2 ^ 50 = M / 2 ^ 24 / 2 ^ 26 := by ring
  rw [e1] at k3
  rw [e2] at k5
  rw [e3] at sm
  have : M / 2 ^ 24 / 2 ^ 26 ≤ M / 2 ^ 24 / 100 := by
    apply div_le_div_of_nonneg_left (by positivity) (by norm_num) (by norm_num)
  rw [e22]
  have : 0 < M / 2 ^ 24 := by positivity
  linarith

/-! ### Lengths of lines -/

theorem sqrtPos_pow2 {f : Fmt} (hp : 1 ≤ f.p) {e : ℤ} (he : f.emin ≤ e) : pow2 e ≤ sqrtPos f (pow2 (2 * e)) := by
  have hl : ilog2 (pow2 (2 * e)) = 2 * e := ilog2_unique le_rfl (pow2_lt.mpr (by omega))
  unfold sqrtPos
  simp only [hl]
  rw [show 2 * e / 2 = e by omega]
  have hm : max (e + 1 - (f.p : ℤ)) f.emin ≤ e := by omega
  generalize max (e + 1 - (f.p : ℤ)) f.emin = m at hm
  obtain ⟨n, rfl⟩ : ∃ n : ℕ, e = m + n := ⟨(e - m).toNat, by omega⟩
  have hpm := pow2_pos m
  have hs : (2 ^ n : ℕ) ≤ Nat.sqrt (⌊pow2 (2 * (m + n)) / (pow2 m * pow2 m)⌋).toNat := by
    have : pow2 (2 * (m + n)) / (pow2 m * pow2 m) = ((2 ^ n * 2 ^ n : ℕ) : ℚ) := by
      rw [show 2 * (m + (n : ℤ)) = m + m + ((n + n : ℕ) : ℤ) by push_cast; ring, pow2_add, pow2_add, pow2_natCast]
      field_simp
      push_cast
      ring
    rw [this]
    simp only [Int.floor_natCast, Int.toNat_natCast]
    rw [Nat.sqrt_eq]
  have key : pow2 (m + n) = ((2 ^ n : ℕ) : ℚ) * pow2 m := by rw [pow2_add, pow2_natCast]; ring
  have hs' : ((2 ^ n : ℕ) : ℚ) ≤ (Nat.sqrt (⌊pow2 (2 * (m + n)) / (pow2 m * pow2 m)⌋).toNat : ℚ) := by exact_mod_cast hs
  generalize (Nat.sqrt (⌊pow2 (2 * (m + n)) / (pow2 m * pow2 m)⌋).toNat) = s at hs'
  rw [key]
  split
  · exact mul_le_mul_of_nonneg_right hs' hpm.le
  · split
    · exact mul_le_mul_of_nonneg_right (by linarith) hpm.le
    · split
      · exact mul_le_mul_of_nonneg_right hs' hpm.le
      · exact mul_le_mul_of_nonneg_right (by linarith) hpm.le

/-- A square root in single precision is at least a power of two below it. -/
theorem math32_sqrt_ge {x : F32} {e : ℤ} (he : -149 ≤ e) (h : Fl.le (fin (pow2 (2 * e)) false) x = true) (he2 : e ≤ 60) :
    Fl.le (fin (pow2 e) false) (Math32.sqrt x) = true := by
  have h1 := cvt_mono (g := fmt64) h
  have r1 : cvt fmt64 (fin (pow2 (2 * e)) false : F32) = fin (pow2 (2 * e)) false := by
    show ofRat fmt64 _ _ = _
    rw [ofRat_of_rep (f := fmt64) (Go.rep_pow2 (by show (-1074 : ℤ) ≤ _; omega))
      (by rw [abs_of_pos (pow2_pos _)]; exact pow2_lt.mpr (by show _ < (1024 : ℤ); omega))]
    simp [pow2_ne]
  rw [r1] at h1
  have h2 := sqrt_mono (f := fmt64) (by decide) (nonNeg_fin.mpr (pow2_pos _).le) h1
  have h3 : Fl.le (fin (pow2 e) false : F64) (Fl.sqrt (fin (pow2 (2 * e)) false : F64)) = true := by
    have hn : ¬ pow2 (2 * e) < 0 := not_lt.mpr (pow2_pos _).le
    have := sqrtPos_pow2 (f := fmt64) (by decide) (e := e) (by show (-1074 : ℤ) ≤ _; omega)
    simpa [Fl.sqrt, pow2_ne, hn, Fl.le] using this
  have h4 := cvt_mono (g := fmt32) (Fl.le_trans h3 h2)
  have r2 : cvt fmt32 (fin (pow2 e) false : F64) = fin (pow2 e) false := by
    show ofRat fmt32 _ _ = _
    rw [ofRat_of_rep (f := fmt32) (Go.rep_pow2 (by show (-149 : ℤ) ≤ _; omega))
      (by rw [abs_of_pos (pow2_pos _)]; exact pow2_lt.mpr (by show _ < (128 : ℤ); omega))]
    simp [pow2_ne]
  rwa [r2] at h4

theorem sq_ge {a b : ℚ} {za zb : Bool} {e : ℤ} (he : -70 ≤ e) (he2 : e ≤ 60) (ha : |a| ≤ 2 ^ 60) (hb : |b| ≤ 2 ^ 60)
    (h : pow2 e ≤ |b - a|) :
    Fl.le (fin (pow2 (2 * e)) false) (((fin b zb : F32) -. fin a za) *. ((fin b zb : F32) -. fin a za)) = true := by
  have hx : |b + -a| ≤ 2 ^ 120 := by
    rw [← sub_eq_add_neg]
    have : (2:ℚ) ^ 60 + 2 ^ 60 ≤ 2 ^ 120 := by norm_num
    linarith [abs_sub b a]
  obtain ⟨c1, h1⟩ := ofRat32_fin hx (signbit (fin b zb : F32) && signbit (neg (fin a za) : F32))
  have g1 : (fin b zb : F32) -. fin a za = fin (rnd fmt32 (b + -a)) c1 := h1
  rw [g1]
  have hr : Rep fmt32 (pow2 e) := Go.rep_pow2 (by show (-149 : ℤ) ≤ _; omega)
  have hd : pow2 e ≤ |rnd fmt32 (b + -a)| := by
    rw [sub_eq_add_neg] at h
    rw [le_abs] at h ⊢
    rcases h with h | h
    · exact .inl (le_rnd hr h)
    · right
      have := rnd_le (f := fmt32) hr.neg (q := b + -a) (by linarith)
      linarith
  generalize rnd fmt32 (b + -a) = d at hd
  have hdd : pow2 (2 * e) ≤ d * d := by
    rw [show 2 * e = e + e by ring, pow2_add, ← abs_mul_abs_self d]
    exact mul_le_mul hd hd (pow2_pos e).le (abs_nonneg d)
  have hm := ofRat_mono (f := fmt32) hdd false (Bool.xor (signbit (fin d c1 : F32)) (signbit (fin d c1 : F32)))
  rw [ofRat_of_rep (f := fmt32) (Go.rep_pow2 (by show (-149 : ℤ) ≤ _; omega))
    (by rw [abs_of_pos (pow2_pos _)]; exact pow2_lt.mpr (by show _ < (128 : ℤ); omega))] at hm
  simp only [pow2_ne, decide_false, Bool.false_and] at hm
  exact hm

theorem sq_nonneg' {x : F32} (h : Fin x) : NonNeg (x *. x) := by
  obtain ⟨v, b, rfl⟩ := h
  have := ofRat_mono (f := fmt32) (mul_self_nonneg v) false (Bool.xor (signbit (fin v b : F32)) (signbit (fin v b : F32)))
  rw [ofRat_zero] at this
  exact this

theorem le_add_left' {x y : F32} (hw : WF y) (hx : NonNeg x) (hy : NonNeg y) : Fl.le y (add x y) = true := by
  have h0 : NonNeg (add (fin 0 false) y) := add_nonneg (by rfl) hy
  have h := add_mono hx (Fl.le_refl (le_nn hy).2) (le_nn h0).2 (le_nn (add_nonneg hx hy)).2
  refine Fl.le_trans ?_ h
  cases y with
  | nan => simp [NonNeg, Fl.le] at hy
  | inf s => cases s <;> rfl
  | fin v b => exact (eq_iff_le.mp (zero_add_fin ⟨v, b, rfl⟩ hw false)).2

/-- Lengths of lines are at least half of the distances of the coordinates, unless these are tiny. -/
theorem getLength_ge {l : Linear F32} {x1 y1 x2 y2 n : ℚ} {a b c d z : Bool}
    (h1 : l.p1 = ⟨fin x1 a, fin y1 b⟩) (h2 : l.p2 = ⟨fin x2 c, fin y2 d⟩)
    (b1 : |x1| ≤ 2 ^ 59) (b2 : |y1| ≤ 2 ^ 59) (b3 : |x2| ≤ 2 ^ 59) (b4 : |y2| ≤ 2 ^ 59)
    (hn : l.getLength (D := F64) = fin n z) :
    (|x2 - x1| ≤ 2 * n ∨ |x2 - x1| ≤ 1 / 2 ^ 60) ∧ (|y2 - y1| ≤ 2 * n ∨ |y2 - y1| ≤ 1 / 2 ^ 60) := by
  have e60 : pow2 (-60) = 1 / 2 ^ 60 := by rw [show (-60 : ℤ) = -((60 : ℕ) : ℤ) from rfl, pow2_eq, zpow_neg]; norm_num
  have p60 : pow2 60 = 2 ^ 60 := by rw [show (60 : ℤ) = ((60 : ℕ) : ℤ) from rfl, pow2_eq]; norm_cast
  have hl : (2:ℚ) ^ 59 ≤ 2 ^ 60 := by norm_num
  have fx : Fin ((fin x2 c : F32) -. fin x1 a) := by
    obtain ⟨w, h⟩ := ofRat32_fin (q := x2 + -x1) (by
      rw [← sub_eq_add_neg]
      have : (2:ℚ) ^ 59 + 2 ^ 59 ≤ 2 ^ 120 := by norm_num
      linarith [abs_sub x2 x1]) (signbit (fin x2 c : F32) && signbit (neg (fin x1 a) : F32))
    exact ⟨_, _, h⟩
  have fy : Fin ((fin y2 d : F32) -. fin y1 b) := by
    obtain ⟨w, h⟩ := ofRat32_fin (q := y2 + -y1) (by
      rw [← sub_eq_add_neg]
      have : (2:ℚ) ^ 59 + 2 ^ 59 ≤ 2 ^ 120 := by norm_num
      linarith [abs_sub y2 y1]) (signbit (fin y2 d : F32) && signbit (neg (fin y1 b) : F32))
    exact ⟨_, _, h⟩
  have hg : l.getLength (D := F64) = Math32.sqrt (((fin x2 c : F32) -. fin x1 a) *. ((fin x2 c : F32) -. fin x1 a) +.
      ((fin y2 d : F32) -. fin y1 b) *. ((fin y2 d : F32) -. fin y1 b)) := by
    unfold Linear.getLength Vec.dst
    rw [h1, h2]
  rw [hg] at hn
  have wfm : ∀ x : F32, Fin x → WF (x *. x) := by
    rintro x ⟨v, b, rfl⟩
    exact ofRat_wf _ _
  have main : ∀ q : ℚ, |q| ≤ 2 ^ 60 → (∀ e : ℤ, -70 ≤ e → e ≤ 60 → pow2 e ≤ |q| → pow2 e ≤ n) → |q| ≤ 2 * n ∨ |q| ≤ 1 / 2 ^ 60 := by
    intro q hq hk
    rcases le_or_gt |q| (1 / 2 ^ 60) with h | h
    · exact .inr h
    · left
      have hq0 : 0 < |q| := _root_.lt_trans (by positivity) h
      obtain ⟨s1, s2⟩ := ilog2_spec hq0
      have l1 : -60 < ilog2 |q| + 1 := by
        rw [← e60] at h
        exact pow2_lt.mp (_root_.lt_trans h s2)
      have l2 : ilog2 |q| ≤ 60 := by
        rw [← p60] at hq
        exact pow2_le.mp (s1.trans hq)
      have := hk (ilog2 |q|) (by omega) l2 s1
      have e2 : pow2 (ilog2 |q| + 1) = pow2 (ilog2 |q|) * 2 := by rw [pow2_add]; rfl
      linarith
  have p59 : (2:ℚ) ^ 59 + 2 ^ 59 ≤ 2 ^ 60 := by norm_num
  constructor
  · apply main _ (by linarith [abs_sub x2 x1])
    intro e he1 he2 hq
    have k1 := sq_ge (za := a) (zb := c) he1 he2 (b1.trans hl) (b3.trans hl) hq
    have k2 := math32_sqrt_ge (by omega) (Fl.le_trans k1 (le_add_right (wfm _ fx) (sq_nonneg' fx) (sq_nonneg' fy))) he2
    have k3 : Fl.le (fin (pow2 e) false : F32) (fin n z) = true := by rw [← hn]; exact k2
    simpa [Fl.le] using k3
  · apply main _ (by linarith [abs_sub y2 y1])
    intro e he1 he2 hq
    have k1 := sq_ge (za := b) (zb := d) he1 he2 (b2.trans hl) (b4.trans hl) hq
    have k2 := math32_sqrt_ge (by omega) (Fl.le_trans k1 (le_add_left' (wfm _ fy) (sq_nonneg' fx) (sq_nonneg' fy))) he2
    have k3 : Fl.le (fin (pow2 e) false : F32) (fin n z) = true := by rw [← hn]; exact k2
    simpa [Fl.le] using k3

/-! ### Trimming -/

/-- The fraction of a line that is kept. -/
theorem trim_ratio {n v : ℚ} {zn zv : Bool} {j : ℤ} (hn : WF (fin n zn : F32)) (hn0 : 1 / 2 ^ 48 ≤ n) (hn1 : n ≤ 2 ^ 40)
    (hj0 : -9 ≤ j) (hj1 : j ≤ 30) (hv0 : -pow2 j ≤ v) (hv1 : v ≤ n) :
    ∃ q z, ((fin n zn : F32) -. down (fin v zv : F64)) /. fin n zn = fin q z ∧ 0 ≤ q ∧
      q * n ≤ (n + pow2 j) * (1 + 1 / 2 ^ 22) ∧ |q * n - (n - v)| ≤ (n + pow2 j) / 2 ^ 21 := by
  have hD := pow2_pos j
  have hD1 : pow2 j ≤ 2 ^ 30 := by
    have := pow2_mono hj1
    rwa [show (30 : ℤ) = ((30 : ℕ) : ℤ) from rfl, pow2_nat] at this
  have hrj : Rep fmt32 (pow2 j) := Go.rep_pow2 (by show (-149 : ℤ) ≤ _; omega)
  have s40 : (2:ℚ) ^ 40 + 2 ^ 30 ≤ 2 ^ 120 := by norm_num
  have hvb : |v| ≤ 2 ^ 120 := by
    rw [abs_le]
    have : (2:ℚ) ^ 30 ≤ 2 ^ 120 := by norm_num
    have : (2:ℚ) ^ 40 ≤ 2 ^ 120 := by norm_num
    constructor <;> linarith
  obtain ⟨c1, h1⟩ := ofRat32_fin hvb zv
  have g1 : (down (fin v zv : F64) : F32) = fin (rnd fmt32 v) c1 := h1
  have d0 : -pow2 j ≤ rnd fmt32 v := le_rnd hrj.neg hv0
  have d1 : rnd fmt32 v ≤ n := rnd_le hn.1 hv1
  have d2 := rnd32_error v
  have d3 : |v| ≤ n + pow2 j := by
    rw [abs_le]
    have : (0:ℚ) ≤ n := _root_.le_trans (by positivity) hn0
    constructor <;> linarith
  rw [g1]
  generalize rnd fmt32 v = w at d0 d1 d2
  have n0 : 0 < n := _root_.lt_of_lt_of_le (by positivity) hn0
  have hb : |n + -w| ≤ 2 ^ 120 := by rw [abs_of_nonneg (by linarith)]; linarith
  obtain ⟨c2, h2⟩ := ofRat32_fin hb (signbit (fin n zn : F32) && signbit (neg (fin w c1) : F32))
  have g2 : (fin n zn : F32) -. fin w c1 = fin (rnd fmt32 (n + -w)) c2 := h2
  rw [g2]
  have r0 : 0 ≤ rnd fmt32 (n + -w) := le_rnd Rep.zero (by linarith)
  have r1 := rnd32_error (n + -w)
  rw [abs_of_nonneg (show 0 ≤ n + -w by linarith)] at r1
  have r2 : rnd fmt32 (n + -w) ≤ (n + pow2 j) + (n + pow2 j) / 2 ^ 24 + 1 / 2 ^ 150 := by
    have := (abs_le.mp r1).2
    have : (n + -w) / 2 ^ 24 ≤ (n + pow2 j) / 2 ^ 24 := by gcongr; linarith
    linarith
  generalize rnd fmt32 (n + -w) = r at r0 r1 r2
  have qb : r / n ≤ 2 ^ 80 := by
    rw [div_le_iff₀ n0]
    have t1 : (n + pow2 j) / 2 ^ 24 ≤ n + pow2 j := div_le_self (by linarith) (by norm_num)
    have t2 : (2:ℚ) * (2 ^ 30) + 1 ≤ (2 ^ 80 - 2) * (1 / 2 ^ 48) := by norm_num
    have t3 : (2 ^ 80 - 2) * (1 / 2 ^ 48) ≤ (2 ^ 80 - 2) * n := mul_le_mul_of_nonneg_left hn0 (by norm_num)
    have t4 : (1:ℚ) / 2 ^ 150 ≤ 1 := by norm_num
    linarith
  have q0 : 0 ≤ r / n := by positivity
  have s60 : (2:ℚ) ^ 80 ≤ 2 ^ 120 := by norm_num
  obtain ⟨c3, h3⟩ := ofRat32_fin (q := r / n) (by rw [abs_of_nonneg q0]; linarith) (Bool.xor (signbit (fin r c2 : F32)) (signbit (fin n zn : F32)))
  have g3 : (fin r c2 : F32) /. fin n zn = fin (rnd fmt32 (r / n)) c3 := by
    show Fl.div (fin r c2 : F32) (fin n zn) = _
    rw [← h3]
    simp [Fl.div, n0.ne']
  refine ⟨rnd fmt32 (r / n), c3, g3, le_rnd Rep.zero q0, ?_⟩
  have r3a := rnd32_error (r / n)
  rw [abs_of_nonneg q0] at r3a
  have r4a : |rnd fmt32 (r / n) * n - r| ≤ r / 2 ^ 24 + n / 2 ^ 150 := by
    have e : rnd fmt32 (r / n) * n - r = (rnd fmt32 (r / n) - r / n) * n := by field_simp
    rw [e, abs_mul, abs_of_pos n0]
    calc |rnd fmt32 (r / n) - r / n| * n ≤ (r / n / 2 ^ 24 + 1 / 2 ^ 150) * n := mul_le_mul_of_nonneg_right r3a n0.le
      _ = _ := by field_simp
  have r3 := (abs_le.mp r3a).2
  have r4 : rnd fmt32 (r / n) * n ≤ r + r / 2 ^ 24 + n / 2 ^ 150 := by
    have : rnd fmt32 (r / n) ≤ r / n + r / n / 2 ^ 24 + 1 / 2 ^ 150 := by linarith
    calc rnd fmt32 (r / n) * n ≤ (r / n + r / n / 2 ^ 24 + 1 / 2 ^ 150) * n := mul_le_mul_of_nonneg_right this n0.le
      _ = _ := by field_simp
  have e1 : (1:ℚ) / 2 ^ 150 ≤ n / 2 ^ 100 := by
    rw [le_div_iff₀ (by positivity)]
    have : (1:ℚ) / 2 ^ 150 * 2 ^ 100 ≤ 1 / 2 ^ 48 := by norm_num
    linarith
  have e2 : n / 2 ^ 100 ≤ (n + pow2 j) / 2 ^ 30 := by
    calc n / 2 ^ 100 ≤ n / 2 ^ 30 := div_le_div_of_nonneg_left n0.le (by norm_num) (by norm_num)
      _ ≤ _ := by gcongr; linarith
  have e3 : n / 2 ^ 150 ≤ (n + pow2 j) / 2 ^ 30 := by
    calc n / 2 ^ 150 ≤ n / 2 ^ 30 := div_le_div_of_nonneg_left n0.le (by norm_num) (by norm_num)
      _ ≤ _ := by gcongr; linarith
  have nK : n + -w ≤ n + pow2 j := by linarith
  generalize n + pow2 j = K at *
  have K0 : 0 < K := by
    by_contra hc
    have : K / 2 ^ 30 ≤ 0 := div_nonpos_of_nonpos_of_nonneg (by linarith) (by norm_num)
    have : 0 < n / 2 ^ 100 := by positivity
    linarith
  have r5 : r ≤ K * (1 + 1 / 2 ^ 24 + 1 / 2 ^ 30) := by
    have : K * (1 + 1 / 2 ^ 24 + 1 / 2 ^ 30) = K + K / 2 ^ 24 + K / 2 ^ 30 := by ring
    rw [this]; linarith
  have r6 : r / 2 ^ 24 ≤ K * (1 + 1 / 2 ^ 24 + 1 / 2 ^ 30) / 2 ^ 24 := by gcongr
  have : K * (1 + 1 / 2 ^ 24 + 1 / 2 ^ 30) + K * (1 + 1 / 2 ^ 24 + 1 / 2 ^ 30) / 2 ^ 24 + K / 2 ^ 30 ≤ K * (1 + 1 / 2 ^ 22) := by
    have : K * (1 + 1 / 2 ^ 24 + 1 / 2 ^ 30) + K * (1 + 1 / 2 ^ 24 + 1 / 2 ^ 30) / 2 ^ 24 + K / 2 ^ 30 =
      K * ((1 + 1 / 2 ^ 24 + 1 / 2 ^ 30) + (1 + 1 / 2 ^ 24 + 1 / 2 ^ 30) / 2 ^ 24 + 1 / 2 ^ 30) := by ring
    rw [this]
    apply mul_le_mul_of_nonneg_left _ K0.le
    norm_num
  refine ⟨by linarith, ?_⟩
  generalize rnd fmt32 (r / n) * n = Q at r4a
  have s1 : (n + -w) / 2 ^ 24 ≤ K / 2 ^ 24 := by gcongr
  have s2 : |v| / 2 ^ 24 ≤ K / 2 ^ 24 := by gcongr
  have s3 : r / 2 ^ 24 ≤ K / 2 ^ 23 := by
    have : r ≤ 2 * K := r5.trans (by
      rw [_root_.mul_comm 2 K]
      exact mul_le_mul_of_nonneg_left (by norm_num) K0.le)
    linarith [show K / 2 ^ 23 = 2 * K / 2 ^ 24 by ring, div_le_div_of_nonneg_right this (show (0:ℚ) ≤ 2 ^ 24 by norm_num)]
  have s4 : K / 2 ^ 24 * 4 + K / 2 ^ 30 * 3 ≤ K / 2 ^ 21 := by
    have t : (4 / 2 ^ 24 + 3 / 2 ^ 30 : ℚ) ≤ 1 / 2 ^ 21 := by norm_num
    have := mul_le_mul_of_nonneg_left t K0.le
    linarith [show K / 2 ^ 24 * 4 + K / 2 ^ 30 * 3 = K * (4 / 2 ^ 24 + 3 / 2 ^ 30) by ring, show K / 2 ^ 21 = K * (1 / 2 ^ 21) by ring]
  have s5 : K / 2 ^ 23 = K / 2 ^ 24 * 2 := by ring
  rw [abs_le] at *
  constructor <;> linarith [r4a.1, r4a.2, r1.1, r1.2, d2.1, d2.2]

theorem e53 : pow2 (-53) = 1 / 2 ^ 53 := by rw [show (-53 : ℤ) = -((53 : ℕ) : ℤ) from rfl, pow2_eq, zpow_neg]; norm_num

theorem rnd64_error (q : ℚ) : |rnd fmt64 q - q| ≤ |q| / 2 ^ 53 + 1 / 2 ^ 53 := by
  have h := rnd_error_rel (f := fmt64) q
  rw [show -((fmt64.p : ℕ) : ℤ) = -53 from rfl, show fmt64.emin - 1 = -1075 from rfl, e53] at h
  have : pow2 (-1075) ≤ pow2 (-53) := pow2_mono (by omega)
  rw [e53] at this
  linarith [h, show |q| * (1 / 2 ^ 53) = |q| / 2 ^ 53 by ring]

theorem ofRat64_fin {q : ℚ} (h : |q| ≤ 2 ^ 120) (z : Bool) : ∃ c, ofRat fmt64 q z = fin (rnd fmt64 q) c := by
  have e : (2 : ℚ) ^ 120 = pow2 120 := by rw [show (120 : ℤ) = ((120 : ℕ) : ℤ) from rfl, pow2_eq]; norm_cast
  rw [e] at h
  have hr : Rep fmt64 (pow2 120) := Go.rep_pow2 (by decide)
  have h1 : |rnd fmt64 q| ≤ pow2 120 := by
    rw [abs_le] at h ⊢
    exact ⟨le_rnd hr.neg h.1, rnd_le hr h.2⟩
  unfold ofRat
  simp only
  rw [if_neg (not_le.mpr (_root_.lt_of_le_of_lt h1 (pow2_lt.mpr (by decide))))]
  exact ⟨_, rfl⟩

/-- The lines that trimming leaves: the ones there were, and one whose end has been moved. -/
theorem trimRev_mem (ls : List (Linear F32)) {v : ℚ} {z : Bool} {j : ℤ} (hw : WF (fin v z : F64)) (hj0 : -9 ≤ j) (hj1 : j ≤ 30)
    (hv0 : -pow2 j ≤ v) (hv1 : v ≤ 2 ^ 40)
    (hl : ∀ l ∈ ls, ∃ n zn, l.getLength (D := F64) = fin n zn ∧ 0 ≤ n ∧ n ≤ 2 ^ 40) :
    ∀ l ∈ MultiCurve.trimRev ls (fin v z : F64), l ∈ ls ∨ ∃ raw ∈ ls, ∃ n zn v' z',
      raw.getLength (D := F64) = fin n zn ∧ -pow2 j ≤ v' ∧ v' ≤ n ∧ raw.p1.eq raw.p2 = false ∧
      l = ⟨raw.p1, raw.pointAt ((fin n zn -. down (fin v' z' : F64)) /. fin n zn)⟩ := by
  induction ls generalizing v z with
  | nil => intro l h; cases h
  | cons line rest ih =>
    obtain ⟨n, zn, hn, n0, n1⟩ := hl line (by simp)
    have hwn : WF (fin n zn : F32) := by rw [← hn]; exact cvt_wf
    have hD1 : pow2 j ≤ 2 ^ 30 := by
      have := pow2_mono hj1
      rwa [show (30 : ℤ) = ((30 : ℕ) : ℤ) from rfl, pow2_nat] at this
    have hD0 : 1 / 2 ^ 9 ≤ pow2 j := by
      have := pow2_mono hj0
      have e9 : pow2 (-9) = 1 / 2 ^ 9 := by rw [show (-9 : ℤ) = -((9 : ℕ) : ℤ) from rfl, pow2_eq, zpow_neg]; norm_num
      rwa [e9] at this
    obtain ⟨c, hc, c0, c1⟩ : ∃ c, (lit 0.0001 : F64) = fin c false ∧ 0 ≤ c ∧ c ≤ 1 / 4096 := by
      refine ⟨rnd fmt64 0.0001, by decide +kernel, by decide +kernel, by decide +kernel⟩
    have hb : |v + c| ≤ 2 ^ 41 := by
      rw [abs_le]
      have : (2:ℚ) ^ 30 ≤ 2 ^ 40 := by norm_num
      have : (2:ℚ) ^ 40 + 1 / 4096 ≤ 2 ^ 41 := by norm_num
      constructor <;> linarith
    have t41 : (2:ℚ) ^ 41 ≤ 2 ^ 120 := by norm_num
    obtain ⟨cb, hs⟩ := ofRat64_fin (hb.trans t41) (signbit (fin v z : F64) && signbit (fin c false : F64))
    have gs : (fin v z : F64) +. lit 0.0001 = fin (rnd fmt64 (v + c)) cb := by rw [hc]; exact hs
    have hup : (up (fin n zn : F32) : F64) = fin n zn := up_fin hwn
    unfold MultiCurve.trimRev
    rw [hn, hup, gs]
    split
    · rename_i hgt
      have hgt' : rnd fmt64 (v + c) < n := by
        change Fl.lt _ _ = true at hgt
        simpa [Fl.lt] using hgt
      have hv : v ≤ rnd fmt64 (v + c) := le_rnd hw.1 (by linarith)
      intro l hm
      rw [List.mem_cons] at hm
      rcases hm with rfl | hm
      · split
        · exact .inl (by simp)
        · rename_i hne
          exact .inr ⟨line, by simp, n, zn, v, z, hn, hv0, by linarith, by simpa using hne, rfl⟩
      · exact .inl (by simp [hm])
    · rename_i hle
      have hle' : n ≤ rnd fmt64 (v + c) := by
        have : Fl.lt (fin (rnd fmt64 (v + c)) cb : F64) (fin n zn) = false := by rw [Bool.not_eq_true] at hle; exact hle
        simpa [Fl.lt] using this
      have r := (abs_le.mp (rnd64_error (v + c))).2
      have r' : |v + c| / 2 ^ 53 ≤ 1 / 4096 := by
        calc |v + c| / 2 ^ 53 ≤ 2 ^ 41 / 2 ^ 53 := by gcongr
          _ = _ := by norm_num
      have hd0 : -(1 / 2 ^ 9) ≤ v + -n := by
        have : (1:ℚ) / 4096 + 1 / 4096 + 1 / 2 ^ 53 ≤ 1 / 2 ^ 9 := by norm_num
        linarith
      have hdb : |v + -n| ≤ 2 ^ 120 := by
        rw [abs_le]
        have : (2:ℚ) ^ 40 ≤ 2 ^ 120 := by norm_num
        have : (1:ℚ) / 2 ^ 9 ≤ 2 ^ 120 := by norm_num
        constructor <;> linarith
      obtain ⟨cd, hd⟩ := ofRat64_fin hdb (signbit (fin v z : F64) && signbit (neg (fin n zn) : F64))
      have gd : (fin v z : F64) -. fin n zn = fin (rnd fmt64 (v + -n)) cd := hd
      rw [gd]
      have hrj : Rep fmt64 (pow2 j) := Go.rep_pow2 (by show (-1074 : ℤ) ≤ _; omega)
      have hwd : WF (fin (rnd fmt64 (v + -n)) cd : F64) := by rw [← hd]; exact ofRat_wf _ _
      have l0 : -pow2 j ≤ rnd fmt64 (v + -n) := le_rnd hrj.neg (by linarith)
      have l1 : rnd fmt64 (v + -n) ≤ v := rnd_le hw.1 (by linarith)
      intro l hm
      rcases ih hwd l0 (l1.trans hv1) (fun l h => hl l (by simp [h])) l hm with h | ⟨raw, hr, h⟩
      · exact .inl (by simp [h])
      · exact .inr ⟨raw, by simp [hr], h⟩

/-! ### Sums of lengths -/

theorem foldl_bound (ls : List (Linear F32)) {m : ℤ} (hm0 : 0 ≤ m) (hm1 : m ≤ 60)
    (h : ∀ l ∈ ls, In32 0 (pow2 m) (l.getLength (D := F64))) {i : ℕ} {p : F32} (hp : In32 0 (i * pow2 m) p)
    (hi : i + ls.length ≤ 2 ^ 24) :
    In32 0 ((i + ls.length : ℕ) * pow2 m) (ls.foldl (fun acc l => acc +. l.getLength (D := F64)) p) := by
  induction ls generalizing i p with
  | nil => simpa using hp
  | cons l ls ih =>
    rw [List.foldl_cons]
    have hi' : i + 1 + ls.length ≤ 2 ^ 24 := by simp at hi; omega
    have key : In32 0 ((i + 1 : ℕ) * pow2 m) (p +. l.getLength (D := F64)) := by
      obtain ⟨v, z, rfl, v0, v1⟩ := hp
      obtain ⟨w, y, hw, w0, w1⟩ := h l (by simp)
      rw [hw]
      have hr : Rep fmt32 (((i + 1 : ℕ) : ℚ) * pow2 m) :=
        ⟨((i + 1 : ℕ) : ℤ), m, by show (-149 : ℤ) ≤ m; omega, by
          rw [abs_of_nonneg (by positivity)]
          show ((i + 1 : ℕ) : ℤ) ≤ 2 ^ 24
          exact_mod_cast (by omega : i + 1 ≤ 2 ^ 24), by push_cast; ring⟩
      have hs : v + w ≤ ((i + 1 : ℕ) : ℚ) * pow2 m := by push_cast; linarith
      have hb : |v + w| ≤ 2 ^ 120 := by
        rw [abs_of_nonneg (by linarith)]
        refine hs.trans ?_
        have t1 : ((i + 1 : ℕ) : ℚ) ≤ 2 ^ 24 := by exact_mod_cast (by omega : i + 1 ≤ 2 ^ 24)
        have t2 := pow2_mono hm1
        rw [show (60 : ℤ) = ((60 : ℕ) : ℤ) from rfl, pow2_nat] at t2
        calc ((i + 1 : ℕ) : ℚ) * pow2 m ≤ 2 ^ 24 * 2 ^ 60 := mul_le_mul t1 t2 (pow2_pos m).le (by positivity)
          _ ≤ _ := by norm_num
      obtain ⟨c, hc⟩ := ofRat32_fin hb (signbit (fin v z : F32) && signbit (fin w y : F32))
      exact ⟨_, c, hc, le_rnd Rep.zero (by linarith), rnd_le hr hs⟩
    have := ih (fun l h' => h l (by simp [h'])) key hi'
    rwa [show i + (l :: ls).length = i + 1 + ls.length by simp; omega]

theorem totalLength_bound (ls : List (Linear F32)) {m : ℤ} (hm0 : 0 ≤ m) (hm1 : m ≤ 60)
    (h : ∀ l ∈ ls, In32 0 (pow2 m) (l.getLength (D := F64))) (hi : ls.length ≤ 2 ^ 24) :
    In32 0 (ls.length * pow2 m) (MultiCurve.totalLength (D := F64) ls) := by
  have h0 : (lit 0 : F32) = fin 0 false := ofRat_zero _
  have := foldl_bound ls hm0 hm1 h (i := 0) (p := lit 0) (by rw [h0]; exact ⟨0, false, rfl, le_rfl, by simp⟩) (by simpa using hi)
  simpa [MultiCurve.totalLength] using this

theorem trimRev_length_le (ls : List (Linear F32)) (d : F64) : (MultiCurve.trimRev ls d).length ≤ ls.length := by
  induction ls generalizing d with
  | nil => simp [MultiCurve.trimRev]
  | cons l ls ih =>
    unfold MultiCurve.trimRev
    split
    · simp
    · exact (ih _).trans (by simp)

end GosuPP
