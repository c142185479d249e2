import Verif.Lemmas.DistanceIEEE
import Verif.Props.PathPositions

/-! The lengths of trimmed lines, and sums of lengths. -/

namespace GosuPP
open Go Fl

/-! ### Norms -/

theorem norm2_nonneg (x y : ℚ) : 0 ≤ norm2 x y := Real.sqrt_nonneg _

theorem norm2_sq (x y : ℚ) : norm2 x y ^ 2 = (x : ℝ) ^ 2 + (y : ℝ) ^ 2 := Real.sq_sqrt (by positivity)

theorem abs_le_norm2 (x y : ℚ) : |(x : ℝ)| ≤ norm2 x y ∧ |(y : ℝ)| ≤ norm2 x y := by
  constructor
  · apply Real.le_sqrt_of_sq_le
    rw [sq_abs]
    nlinarith [sq_nonneg (y : ℝ)]
  · apply Real.le_sqrt_of_sq_le
    rw [sq_abs]
    nlinarith [sq_nonneg (x : ℝ)]

theorem norm2_add_le (x y e1 e2 : ℚ) : norm2 (x + e1) (y + e2) ≤ norm2 x y + (|(e1 : ℝ)| + |(e2 : ℝ)|) := by
  obtain ⟨hx, hy⟩ := abs_le_norm2 x y
  have hN := norm2_nonneg x y
  have hsq := norm2_sq x y
  unfold norm2 at hN hx hy hsq ⊢
  generalize √((x : ℝ) ^ 2 + (y : ℝ) ^ 2) = N at *
  have a1 := abs_nonneg (e1 : ℝ)
  have a2 := abs_nonneg (e2 : ℝ)
  rw [Real.sqrt_le_left (by positivity)]
  push_cast
  have m1 : (x : ℝ) * e1 ≤ N * |(e1 : ℝ)| := by
    calc (x : ℝ) * e1 ≤ |(x : ℝ) * e1| := le_abs_self _
      _ = |(x : ℝ)| * |(e1 : ℝ)| := abs_mul _ _
      _ ≤ _ := mul_le_mul_of_nonneg_right hx a1
  have m2 : (y : ℝ) * e2 ≤ N * |(e2 : ℝ)| := by
    calc (y : ℝ) * e2 ≤ |(y : ℝ) * e2| := le_abs_self _
      _ = |(y : ℝ)| * |(e2 : ℝ)| := abs_mul _ _
      _ ≤ _ := mul_le_mul_of_nonneg_right hy a2
  have s1 : (e1 : ℝ) ^ 2 = |(e1 : ℝ)| ^ 2 := (sq_abs _).symm
  have s2 : (e2 : ℝ) ^ 2 = |(e2 : ℝ)| ^ 2 := (sq_abs _).symm
  have s3 := mul_nonneg a1 a2
  nlinarith

theorem norm2_near (x y x' y' η : ℚ) (hx : |x' - x| ≤ η) (hy : |y' - y| ≤ η) : |norm2 x' y' - norm2 x y| ≤ 2 * (η : ℝ) := by
  have ex : |((x' - x : ℚ) : ℝ)| ≤ η := by exact_mod_cast hx
  have ey : |((y' - y : ℚ) : ℝ)| ≤ η := by exact_mod_cast hy
  have h1 := norm2_add_le x y (x' - x) (y' - y)
  have h2 := norm2_add_le x' y' (x - x') (y - y')
  rw [add_sub_cancel, add_sub_cancel] at h1 h2
  have e1 : |((x - x' : ℚ) : ℝ)| = |((x' - x : ℚ) : ℝ)| := by push_cast; exact abs_sub_comm _ _
  have e2 : |((y - y' : ℚ) : ℝ)| = |((y' - y : ℚ) : ℝ)| := by push_cast; exact abs_sub_comm _ _
  rw [e1, e2] at h2
  rw [abs_le]
  constructor <;> linarith

theorem norm2_mul {q : ℚ} (hq : 0 ≤ q) (x y : ℚ) : norm2 (q * x) (q * y) = q * norm2 x y := by
  have hqR : (0:ℝ) ≤ q := by exact_mod_cast hq
  unfold norm2
  push_cast
  rw [show ((q : ℝ) * x) ^ 2 + ((q : ℝ) * y) ^ 2 = (q : ℝ) ^ 2 * ((x : ℝ) ^ 2 + (y : ℝ) ^ 2) by ring, Real.sqrt_mul (by positivity),
    Real.sqrt_sq hqR]

theorem norm2_le {x y B : ℚ} (hx : |x| ≤ 2 * B) (hy : |y| ≤ 2 * B) : norm2 x y ≤ 29 / 10 * (B : ℝ) := by
  have hB : 0 ≤ B := by linarith [abs_nonneg x]
  have hBR : (0:ℝ) ≤ B := by exact_mod_cast hB
  have ex : |(x : ℝ)| ≤ 2 * B := by exact_mod_cast hx
  have ey : |(y : ℝ)| ≤ 2 * B := by exact_mod_cast hy
  unfold norm2
  rw [Real.sqrt_le_left (by positivity)]
  have h1 := pow_le_pow_left₀ (abs_nonneg (x : ℝ)) ex 2
  have h2 := pow_le_pow_left₀ (abs_nonneg (y : ℝ)) ey 2
  rw [sq_abs] at h1 h2
  nlinarith

/-! ### Trimmed lines -/

/-- The length of a line within coordinates of at most `B`. -/
theorem line_length {l : Linear F32} {B : ℚ} (h1 : VB B l.p1) (h2 : VB B l.p2) (hB0 : 1 ≤ B) (hB : B ≤ 2 ^ 21) :
    ∃ n z, l.getLength (D := F64) = fin n z ∧ 0 ≤ n ∧ n ≤ 3 * B := by
  obtain ⟨x1, y1, ⟨a, b, e1⟩, bx1, by1⟩ := h1
  obtain ⟨x2, y2, ⟨c, d, e2⟩, bx2, by2⟩ := h2
  obtain ⟨n, z, hn, n0, he⟩ := getLength_error e1 e2 (bx1.trans hB) (by1.trans hB) (bx2.trans hB) (by2.trans hB)
  refine ⟨n, z, hn, n0, ?_⟩
  have hN := norm2_le (x := x2 - x1) (y := y2 - y1) (B := B) (by linarith [abs_sub x2 x1]) (by linarith [abs_sub y2 y1])
  have hN0 := norm2_nonneg (x2 - x1) (y2 - y1)
  generalize norm2 (x2 - x1) (y2 - y1) = N at *
  have hBR : (1:ℝ) ≤ B := by exact_mod_cast hB0
  have : (n : ℝ) ≤ 3 * B := by
    have := (abs_le.mp he).2
    have t : (29 / 10 * (1 + 1 / 2 ^ 21) + 1 / 2 ^ 58 : ℝ) ≤ 3 := by norm_num
    have t2 : N / 2 ^ 21 ≤ 29 / 10 * (B : ℝ) / 2 ^ 21 := by gcongr
    have t3 : (1 / 2 ^ 58 : ℝ) ≤ 1 / 2 ^ 58 * B := by
      have : (0:ℝ) ≤ 1 / 2 ^ 58 := by positivity
      nlinarith
    have t4 := mul_le_mul_of_nonneg_right t (show (0:ℝ) ≤ B by linarith)
    linarith
  exact_mod_cast this

/-- The length of a degenerate line. -/
theorem line_degenerate {l : Linear F32} {B : ℚ} (h1 : VB B l.p1) (h2 : VB B l.p2) (hB : B ≤ 2 ^ 21) (he : l.p1.eq l.p2 = true)
    {n : ℚ} {z : Bool} (hn : l.getLength (D := F64) = fin n z) : n ≤ 1 / 2 ^ 58 := by
  obtain ⟨x1, y1, ⟨a, b, e1⟩, bx1, by1⟩ := h1
  obtain ⟨x2, y2, ⟨c, d, e2⟩, bx2, by2⟩ := h2
  obtain ⟨n', z', hn', n0, hne⟩ := getLength_error e1 e2 (bx1.trans hB) (by1.trans hB) (bx2.trans hB) (by2.trans hB)
  rw [hn] at hn'
  cases hn'
  rw [e1, e2] at he
  unfold Vec.eq at he
  simp only [Bool.and_eq_true, go_eq, Fl.eq, decide_eq_true_eq] at he
  have hx := he.1
  have hy := he.2
  subst hx hy
  have : norm2 (x1 - x1) (y1 - y1) = 0 := by unfold norm2; simp
  rw [this] at hne
  have h := (abs_le.mp hne).2
  have h' : (n : ℝ) ≤ 1 / 2 ^ 58 := by linarith
  have h2 : ((n : ℚ) : ℝ) ≤ ((1 / 2 ^ 58 : ℚ) : ℝ) := by push_cast; exact h'
  exact (Rat.cast_le (K := ℝ)).mp h2

/-- The length of a trimmed or extended line. -/
theorem trimmed_length {raw : Linear F32} {k : ℕ} {j : ℤ} (hk : k ≤ 17) (hj0 : -9 ≤ j) (hj1 : j ≤ 17)
    (h1 : VB (2 ^ k) raw.p1) (h2 : VB (2 ^ k) raw.p2) {n v : ℚ} {zn zv : Bool} (hn : raw.getLength (D := F64) = fin n zn)
    (hn0 : 1 / 2 ^ 48 ≤ n) (hv0 : -pow2 j ≤ v) (hv1 : v ≤ n) :
    ∃ n' z', (⟨raw.p1, raw.pointAt ((fin n zn -. down (fin v zv : F64)) /. fin n zn)⟩ : Linear F32).getLength (D := F64) = fin n' z' ∧
      0 ≤ n' ∧ |n' - (n - v)| ≤ (2 ^ k + pow2 j) / 2 ^ 16 := by
  have hB0 : (1:ℚ) ≤ 2 ^ k := one_le_pow₀ (by norm_num)
  have hB1 : (2:ℚ) ^ k ≤ 2 ^ 17 := pow_le_pow_right₀ (by norm_num) hk
  have hD1 : pow2 j ≤ 2 ^ 17 := by
    have := pow2_mono hj1
    rwa [show (17 : ℤ) = ((17 : ℕ) : ℤ) from rfl, pow2_nat] at this
  have hD := pow2_pos j
  have t21 : (2:ℚ) ^ 17 ≤ 2 ^ 21 := by norm_num
  obtain ⟨m, zm, hm, -, hm3⟩ := line_length h1 h2 hB0 (by linarith)
  rw [hn] at hm
  cases hm
  obtain ⟨x1, y1, x2, y2, x, y, q, qe, a1, a2, a3, q0, -, -, ex, ey, bx, by'⟩ := trimmed_near (zv := zv) hk hj0 hj1 h1 h2 hn hn0
    (hm3.trans (by linarith [show (3:ℚ) * 2 ^ 17 ≤ 2 ^ 40 by norm_num])) hv0 hv1
  obtain ⟨x1', y1', ⟨a, b, e1⟩, bx1, by1⟩ := h1
  obtain ⟨x2', y2', ⟨c, d, e2⟩, bx2, by2⟩ := h2
  obtain ⟨a', b', e1'⟩ := a1
  obtain ⟨c', d', e2'⟩ := a2
  obtain ⟨f', g', e3'⟩ := a3
  rw [e1] at e1'
  rw [e2] at e2'
  cases e1'
  cases e2'
  have b6 : 6 * (2 ^ k + pow2 j) ≤ 2 ^ 21 := by linarith [show (6:ℚ) * (2 ^ 17 + 2 ^ 17) ≤ 2 ^ 21 by norm_num]
  have hN := getLength_rel e1 e2 (by linarith) (by linarith) (by linarith) (by linarith) hn hn0
  obtain ⟨n', z', hn', n'0, hN'⟩ := getLength_error
    (l := ⟨raw.p1, raw.pointAt ((fin n zn -. down (fin v zv : F64)) /. fin n zn)⟩) e1 e3'
    (by linarith) (by linarith) (by linarith) (by linarith)
  refine ⟨n', z', hn', n'0, ?_⟩
  -- the norms
  have η : |norm2 (x - x1) (y - y1) - q * norm2 (x2 - x1) (y2 - y1)| ≤ 2 * ((4 * (2 ^ k + pow2 j) / 2 ^ 22 : ℚ) : ℝ) := by
    rw [← norm2_mul q0]
    refine norm2_near _ _ _ _ _ ?_ ?_
    · rw [show x - x1 - q * (x2 - x1) = x - (x1 + q * (x2 - x1)) by ring]; exact ex
    · rw [show y - y1 - q * (y2 - y1) = y - (y1 + q * (y2 - y1)) by ring]; exact ey
  have N0 := norm2_nonneg (x2 - x1) (y2 - y1)
  have N'0 := norm2_nonneg (x - x1) (y - y1)
  have goal : |(n' : ℝ) - ((n : ℝ) - v)| ≤ ((((2:ℚ) ^ k + pow2 j) / 2 ^ 16 : ℚ) : ℝ) := by
    have qeR : |(q : ℝ) * n - (n - v)| ≤ ((n : ℝ) + (pow2 j : ℚ)) / 2 ^ 21 := by
      have h := (Rat.cast_le (K := ℝ)).mpr qe
      push_cast at h
      exact h
    have hn0R : (1:ℝ) / 2 ^ 48 ≤ n := by
      have h := (Rat.cast_le (K := ℝ)).mpr hn0
      push_cast at h
      exact h
    have hm3R : (n : ℝ) ≤ 3 * ((2 ^ k : ℚ) : ℝ) := by exact_mod_cast hm3
    have hv0R : -((pow2 j : ℚ) : ℝ) ≤ v := by exact_mod_cast hv0
    have hB0R : (1:ℝ) ≤ ((2 ^ k : ℚ) : ℝ) := by exact_mod_cast hB0
    have hDR : (0:ℝ) < ((pow2 j : ℚ) : ℝ) := by exact_mod_cast hD
    have q0R : (0:ℝ) ≤ q := by exact_mod_cast q0
    rw [Rat.cast_div, Rat.cast_mul, Rat.cast_add] at η
    rw [Rat.cast_div, Rat.cast_add]
    rw [show (((4:ℚ) : ℚ) : ℝ) = 4 by norm_num, show (((2:ℚ) ^ 22 : ℚ) : ℝ) = 2 ^ 22 by norm_num] at η
    rw [show (((2:ℚ) ^ 16 : ℚ) : ℝ) = 2 ^ 16 by norm_num]
    generalize ((2 ^ k : ℚ) : ℝ) = B at *
    generalize ((pow2 j : ℚ) : ℝ) = D at *
    generalize norm2 (x2 - x1) (y2 - y1) = N at *
    generalize norm2 (x - x1) (y - y1) = N' at *
    generalize (n : ℝ) = n at *
    generalize (n' : ℝ) = n' at *
    generalize (v : ℝ) = v at *
    generalize (q : ℝ) = q at *
    have np : 0 < n := _root_.lt_of_lt_of_le (by positivity) hn0R
    -- `q * n` is at most `2 * (n + D)`
    have qn : q * n ≤ 2 * (n + D) := by
      have := (abs_le.mp qeR).2
      have : (n + D) / 2 ^ 21 ≤ n + D := div_le_self (by linarith) (by norm_num)
      linarith
    have qn0 : 0 ≤ q * n := mul_nonneg q0R np.le
    -- `N` is near `n`
    have hN1 : N ≤ n * (1 + 1 / 2 ^ 19) := by
      have h := (abs_le.mp hN).1
      have : n / 2 ^ 20 ≤ n * (1 / 2 ^ 19) := by linarith
      linarith
    have qN : q * N ≤ q * n * (1 + 1 / 2 ^ 19) := by
      have := mul_le_mul_of_nonneg_left hN1 q0R
      linarith
    have qN0 : 0 ≤ q * N := mul_nonneg q0R N0
    have dN : |q * N - q * n| ≤ q * n / 2 ^ 20 := by
      rw [← mul_sub, abs_mul, abs_of_nonneg q0R, abs_sub_comm]
      calc q * |n - N| ≤ q * (n / 2 ^ 20) := mul_le_mul_of_nonneg_left hN q0R
        _ = _ := by ring
    have e1 : N' / 2 ^ 21 ≤ (q * N + 2 * (4 * (B + D) / 2 ^ 22)) / 2 ^ 21 := by
      apply div_le_div_of_nonneg_right _ (by positivity)
      linarith [(abs_le.mp η).2]
    have tiny : (1:ℝ) / 2 ^ 58 ≤ B / 2 ^ 58 := by gcongr
    have total : N' / 2 ^ 21 + 1 / 2 ^ 58 + 2 * (4 * (B + D) / 2 ^ 22) + q * n / 2 ^ 20 + (n + D) / 2 ^ 21 ≤ (B + D) / 2 ^ 16 := by
      have f1 : q * N ≤ 2 * (n + D) * (1 + 1 / 2 ^ 19) := qN.trans (mul_le_mul_of_nonneg_right qn (by norm_num))
      have f2 : n + D ≤ 3 * (B + D) := by linarith
      have g0 : 0 ≤ B + D := by linarith
      have f3 : q * N ≤ 7 * (B + D) := by
        have : 2 * (n + D) * (1 + 1 / 2 ^ 19) ≤ 2 * (3 * (B + D)) * (1 + 1 / 2 ^ 19) := by gcongr
        have t : (2 * 3 * (1 + 1 / 2 ^ 19) : ℝ) ≤ 7 := by norm_num
        have := mul_le_mul_of_nonneg_right t g0
        linarith
      have f4 : q * n / 2 ^ 20 ≤ 6 * (B + D) / 2 ^ 20 := div_le_div_of_nonneg_right (by linarith) (by norm_num)
      have f5 : (n + D) / 2 ^ 21 ≤ 3 * (B + D) / 2 ^ 21 := by gcongr
      have f6 : (q * N + 2 * (4 * (B + D) / 2 ^ 22)) / 2 ^ 21 ≤ (7 * (B + D) + 2 * (4 * (B + D) / 2 ^ 22)) / 2 ^ 21 := by gcongr
      have f7 : B / 2 ^ 58 ≤ (B + D) / 2 ^ 58 := by gcongr; linarith
      have t : ((7 + 2 * (4 / 2 ^ 22)) / 2 ^ 21 + 1 / 2 ^ 58 + 2 * (4 / 2 ^ 22) + 6 / 2 ^ 20 + 3 / 2 ^ 21 : ℝ) ≤ 1 / 2 ^ 16 := by norm_num
      have := mul_le_mul_of_nonneg_right t g0
      linarith
    have s1 := abs_le.mp hN'
    have s2 := abs_le.mp η
    have s3 := abs_le.mp dN
    have s4 := abs_le.mp qeR
    rw [abs_le]
    constructor <;> linarith [s1.1, s1.2, s2.1, s2.2, s3.1, s3.2, s4.1, s4.2]
  have goal' : ((|n' - (n - v)| : ℚ) : ℝ) ≤ ((((2:ℚ) ^ k + pow2 j) / 2 ^ 16 : ℚ) : ℝ) := by
    rw [Rat.cast_abs, Rat.cast_sub, Rat.cast_sub]; exact goal
  exact (Rat.cast_le (K := ℝ)).mp goal'

/-! ### Sums of lengths -/

/-- The value of a finite length. -/
def lenQ (l : Linear F32) : ℚ :=
  match l.getLength (D := F64) with
  | fin n _ => n
  | _ => 0

theorem lenQ_eq {l : Linear F32} {n : ℚ} {z : Bool} (h : l.getLength (D := F64) = fin n z) : lenQ l = n := by
  unfold lenQ; rw [h]

/-- The exact sum of the lengths. -/
def lenSum (ls : List (Linear F32)) : ℚ := (ls.map lenQ).sum

theorem lenSum_reverse (ls : List (Linear F32)) : lenSum ls.reverse = lenSum ls := by
  unfold lenSum; rw [List.map_reverse, List.sum_reverse]

theorem ofRat_fin_eq {f : Fmt} {q v : ℚ} {z c : Bool} (h : ofRat f q z = fin v c) : v = rnd f q := by
  unfold ofRat at h
  simp only at h
  split at h
  · cases h
  · cases h; rfl

/-- The float32 sum of lengths is their exact sum, up to one part in eight million for each. -/
theorem foldl_error (ls : List (Linear F32)) {p F : ℚ} {zp zF : Bool} (hw : WF (fin p zp : F32)) (hp : 0 ≤ p)
    (h : ls.foldl (fun acc l => acc +. l.getLength (D := F64)) (fin p zp : F32) = fin F zF) :
    p ≤ F ∧ (∀ l ∈ ls, ∃ n z, l.getLength (D := F64) = fin n z ∧ 0 ≤ n ∧ n ≤ F) ∧
      |F - (p + lenSum ls)| ≤ ls.length * (F / 2 ^ 23 + 1 / 2 ^ 149) := by
  induction ls generalizing p zp with
  | nil =>
    cases h
    exact ⟨le_rfl, by simp, by simp [lenSum]⟩
  | cons l ls ih =>
    obtain ⟨hf1, hf2⟩ := foldl_fin (l :: ls) _ ⟨F, zF, h⟩
    have hl := hf2 l (by simp)
    have hn0 := (getLength_fin hl).1
    obtain ⟨n, z, hn⟩ := hl
    rw [hn] at hn0
    have n0 : 0 ≤ n := nonNeg_fin.mp hn0
    have hwn : WF (fin n z : F32) := by rw [← hn]; exact cvt_wf
    rw [List.foldl_cons, hn] at h
    obtain ⟨⟨p', zp', hp'⟩, -⟩ := foldl_fin ls _ ⟨F, zF, h⟩
    have hp'' : ofRat fmt32 (p + n) (signbit (fin p zp : F32) && signbit (fin n z : F32)) = fin p' zp' := hp'
    have e := ofRat_fin_eq hp''
    have hw' : WF (fin p' zp' : F32) := by rw [← hp'']; exact ofRat_wf _ _
    rw [hp'] at h
    have h1 : p ≤ p' := by rw [e]; exact le_rnd hw.1 (by linarith)
    have h2 : n ≤ p' := by rw [e]; exact le_rnd hwn.1 (by linarith)
    obtain ⟨i1, i2, i3⟩ := ih hw' (by linarith) h
    refine ⟨h1.trans i1, ?_, ?_⟩
    · intro x hx
      rcases List.mem_cons.mp hx with rfl | hx
      · exact ⟨n, z, hn, n0, h2.trans i1⟩
      · exact i2 x hx
    · have r := rnd32_error (p + n)
      rw [← e, abs_of_nonneg (show 0 ≤ p + n by linarith), abs_le] at r
      have hs : lenSum (l :: ls) = n + lenSum ls := by unfold lenSum; rw [List.map_cons, List.sum_cons, lenQ_eq hn]
      rw [hs, List.length_cons]
      push_cast
      have b : (p + n) / 2 ^ 24 ≤ F / 2 ^ 23 + 1 / 2 ^ 150 := by
        have r1 := r.1
        have : (p + n) / 2 ^ 24 ≤ (p + n) / 2 := div_le_div_of_nonneg_left (by linarith) (by norm_num) (by norm_num)
        have t1 : p + n ≤ 2 * p' + 2 * (1 / 2 ^ 150) := by linarith
        have t2 : (p + n) / 2 ^ 24 ≤ (2 * p' + 2 * (1 / 2 ^ 150)) / 2 ^ 24 := by gcongr
        have t3 : 2 * p' / 2 ^ 24 ≤ 2 * F / 2 ^ 24 := by gcongr
        have t4 : (2 * (1 / 2 ^ 150) / 2 ^ 24 : ℚ) ≤ 1 / 2 ^ 150 := by norm_num
        linarith [show (2 * p' + 2 * (1 / 2 ^ 150)) / 2 ^ 24 = 2 * p' / 2 ^ 24 + 2 * (1 / 2 ^ 150) / 2 ^ 24 by ring,
          show F / 2 ^ 23 = 2 * F / 2 ^ 24 by ring]
      have t5 : (1 / 2 ^ 150 + 1 / 2 ^ 150 : ℚ) = 1 / 2 ^ 149 := by norm_num
      have i3' := abs_le.mp i3
      rw [abs_le]
      rw [add_mul, one_mul]
      constructor <;> linarith [i3'.1, i3'.2, r.1, r.2]

/-- What trimming does. -/
theorem trimRev_spec32 (ls : List (Linear F32)) {v W : ℚ} {z : Bool} (hw : WF (fin v z : F64)) (hW0 : 1 ≤ W) (hW1 : W ≤ 2 ^ 40)
    (hv : |v| ≤ W) (hl : ∀ l ∈ ls, ∃ n zn, l.getLength (D := F64) = fin n zn ∧ 0 ≤ n ∧ n ≤ W) :
    (MultiCurve.trimRev ls (fin v z : F64) = [] ∧ (ls = [] ∨ lenSum ls ≤ v + 1 / 10000 + ls.length * (W / 2 ^ 50))) ∨
    ∃ dropped line rest v' z' n zn, ls = dropped ++ line :: rest ∧ line.getLength (D := F64) = fin n zn ∧
      |v' - (v - lenSum dropped)| ≤ dropped.length * (W / 2 ^ 50) ∧ v' ≤ n ∧ |v'| ≤ W ∧
      (dropped = [] ∨ -(1 / 10000 + W / 2 ^ 50) ≤ v') ∧
      MultiCurve.trimRev ls (fin v z : F64) =
        (if line.p1.eq line.p2 then line
         else ⟨line.p1, line.pointAt ((fin n zn -. down (fin v' z' : F64)) /. fin n zn)⟩) :: rest := by
  induction ls generalizing v z with
  | nil => exact .inl ⟨rfl, .inl rfl⟩
  | cons line rest ih =>
    obtain ⟨n, zn, hn, n0, n1⟩ := hl line (by simp)
    have hwn : WF (fin n zn : F32) := by rw [← hn]; exact cvt_wf
    obtain ⟨c, hc, c0, c1⟩ : ∃ c, (lit 0.0001 : F64) = fin c false ∧ 0 ≤ c ∧ c ≤ 1 / 10000 + 1 / 2 ^ 53 := by
      refine ⟨rnd fmt64 0.0001, by decide +kernel, by decide +kernel, by decide +kernel⟩
    obtain ⟨v1, v2⟩ := abs_le.mp hv
    have t53 : (1:ℚ) / 10000 + 1 / 2 ^ 53 ≤ 1 := by norm_num
    have hb : |v + c| ≤ W + 1 := by
      rw [abs_le]
      constructor <;> linarith
    have t41 : (2:ℚ) ^ 40 + 1 ≤ 2 ^ 120 := by norm_num
    obtain ⟨cb, hs⟩ := ofRat64_fin (hb.trans (by linarith)) (signbit (fin v z : F64) && signbit (fin c false : F64))
    have gs : (fin v z : F64) +. lit 0.0001 = fin (rnd fmt64 (v + c)) cb := by rw [hc]; exact hs
    have hup : (up (fin n zn : F32) : F64) = fin n zn := up_fin hwn
    unfold MultiCurve.trimRev
    rw [hn, hup, gs]
    split
    · rename_i hgt
      have hgt' : rnd fmt64 (v + c) < n := by
        change Fl.lt _ _ = true at hgt
        simpa [Fl.lt] using hgt
      have hv' : v ≤ rnd fmt64 (v + c) := le_rnd hw.1 (by linarith)
      exact .inr ⟨[], line, rest, v, z, n, zn, rfl, hn, by simp [lenSum], by linarith, hv, .inl rfl, rfl⟩
    · rename_i hle
      have hle' : n ≤ rnd fmt64 (v + c) := by
        have : Fl.lt (fin (rnd fmt64 (v + c)) cb : F64) (fin n zn) = false := by rw [Bool.not_eq_true] at hle; exact hle
        simpa [Fl.lt] using this
      have r := (abs_le.mp (rnd64_error (v + c))).2
      have r' : |v + c| / 2 ^ 53 ≤ (W + 1) / 2 ^ 53 := by gcongr
      have W53 : (1:ℚ) / 2 ^ 53 ≤ W / 2 ^ 53 := by gcongr
      have e50 : W / 2 ^ 50 = 8 * (W / 2 ^ 53) := by ring
      have e1 : (W + 1) / 2 ^ 53 = W / 2 ^ 53 + 1 / 2 ^ 53 := by ring
      have cmp : n ≤ v + 1 / 10000 + 4 * (W / 2 ^ 53) := by linarith
      have big : W / 2 ^ 53 ≤ 1 / 100 := by
        calc W / 2 ^ 53 ≤ 2 ^ 40 / 2 ^ 53 := by gcongr
          _ ≤ _ := by norm_num
      have hdb : |v + -n| ≤ 2 * W := by
        rw [abs_le]
        constructor <;> linarith
      obtain ⟨cd, hd⟩ := ofRat64_fin (hdb.trans (by linarith [show (2:ℚ) * 2 ^ 40 ≤ 2 ^ 120 by norm_num]))
        (signbit (fin v z : F64) && signbit (neg (fin n zn) : F64))
      have gd : (fin v z : F64) -. fin n zn = fin (rnd fmt64 (v + -n)) cd := hd
      rw [gd]
      have hwd : WF (fin (rnd fmt64 (v + -n)) cd : F64) := by rw [← hd]; exact ofRat_wf _ _
      have l1 : rnd fmt64 (v + -n) ≤ v := rnd_le hw.1 (by linarith)
      have rd := rnd64_error (v + -n)
      have rd' : |v + -n| / 2 ^ 53 ≤ 2 * W / 2 ^ 53 := by gcongr
      have e2 : 2 * W / 2 ^ 53 = 2 * (W / 2 ^ 53) := by ring
      rw [abs_le] at rd
      generalize rnd fmt64 (v + -n) = u at *
      have u0 : -(1 / 10000 + W / 2 ^ 50) ≤ u := by linarith [rd.1]
      have hu : |u| ≤ W := by
        rw [abs_le]
        constructor <;> linarith
      have hsum : ∀ ds, lenSum (line :: ds) = n + lenSum ds := by
        intro ds; unfold lenSum; rw [List.map_cons, List.sum_cons, lenQ_eq hn]
      rcases ih hwd hu (fun l h => hl l (by simp [h])) with ⟨h1, h2⟩ | ⟨ds, ln, rs, v', z', m, zm, h1, h2, h3, h4, h5, h6, h7⟩
      · left
        refine ⟨h1, .inr ?_⟩
        rw [hsum, List.length_cons]
        push_cast
        rw [add_mul, one_mul]
        rcases h2 with rfl | h2
        · simp only [lenSum, List.map_nil, List.sum_nil, List.length_nil, Nat.cast_zero, zero_mul]
          linarith
        · linarith [rd.2]
      · right
        refine ⟨line :: ds, ln, rs, v', z', m, zm, by rw [h1]; rfl, h2, ?_, h4, h5, .inr ?_, h7⟩
        · rw [hsum, List.length_cons]
          push_cast
          rw [add_mul, one_mul]
          rw [abs_le] at h3 ⊢
          constructor <;> linarith [h3.1, h3.2, rd.1, rd.2]
        · rcases h6 with rfl | h6
          · simp only [lenSum, List.map_nil, List.sum_nil, List.length_nil, Nat.cast_zero, zero_mul, sub_zero] at h3
            have : v' = u := by
              have := abs_nonpos_iff.mp h3
              linarith
            rw [this]; exact u0
          · exact h6

end GosuPP
