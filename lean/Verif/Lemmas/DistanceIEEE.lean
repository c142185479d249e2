import Verif.Lemmas.PathTrim
import Verif.Go.Real

/-! How accurate square roots and distances are in IEEE arithmetic. -/

namespace Go.Fl
open Go

theorem sqrtPos_error {f : Fmt} (hp : 1 ≤ f.p) {v : ℚ} (hv : 0 < v) :
    |((sqrtPos f v : ℚ) : ℝ) - √(v : ℝ)| ≤ √(v : ℝ) * ((pow2 (-(f.p : ℤ)) : ℚ) : ℝ) + ((pow2 (f.emin - 1) : ℚ) : ℝ) := by
  have hs0 : (0:ℝ) ≤ √(v : ℝ) := Real.sqrt_nonneg _
  have hvR : (0:ℝ) < (v : ℝ) := by exact_mod_cast hv
  have hsq : √(v : ℝ) * √(v : ℝ) = v := Real.mul_self_sqrt hvR.le
  obtain ⟨k, hk⟩ : ∃ k : ℤ, k = ilog2 v / 2 := ⟨_, rfl⟩
  obtain ⟨e, he⟩ : ∃ e : ℤ, e = max (k + 1 - f.p) f.emin := ⟨_, rfl⟩
  have hpe := pow2_pos e
  have hpp : 0 < pow2 e * pow2 e := by positivity
  -- the root is at least `2 ^ k`
  have hk1 : ((pow2 k : ℚ) : ℝ) ≤ √(v : ℝ) := by
    apply Real.le_sqrt_of_sq_le
    have h1 : pow2 k * pow2 k ≤ v := by
      rw [← pow2_add]
      exact _root_.le_trans (pow2_le.mpr (by omega)) (ilog2_spec hv).1
    rw [sq]
    exact_mod_cast h1
  -- the ulp
  have hulp : pow2 e / 2 ≤ pow2 k * pow2 (-(f.p : ℤ)) + pow2 (f.emin - 1) := by
    have h2 : pow2 e / 2 = pow2 (e - 1) := by
      rw [sub_eq_add_neg, pow2_add, show pow2 (-1) = 1 / 2 from rfl]; ring
    rw [h2, ← pow2_add]
    have p1 := pow2_pos (k + -(f.p : ℤ))
    have p2 := pow2_pos (f.emin - 1)
    rcases _root_.le_total (k + 1 - (f.p : ℤ)) f.emin with h | h
    · rw [max_eq_right h] at he
      rw [he]; linarith
    · rw [max_eq_left h] at he
      rw [show e - 1 = k + -(f.p : ℤ) by omega]; linarith
  -- the integer square root
  obtain ⟨N, hN⟩ : ∃ N : ℕ, (N : ℤ) = ⌊v / (pow2 e * pow2 e)⌋ :=
    ⟨(⌊v / (pow2 e * pow2 e)⌋).toNat, Int.toNat_of_nonneg (Int.floor_nonneg.mpr (by positivity))⟩
  obtain ⟨s, hs⟩ : ∃ s : ℕ, s = Nat.sqrt N := ⟨_, rfl⟩
  have hN1 : (N : ℚ) ≤ v / (pow2 e * pow2 e) := by
    have := Int.floor_le (v / (pow2 e * pow2 e))
    rw [← hN] at this
    exact_mod_cast this
  have hN2 : v / (pow2 e * pow2 e) < N + 1 := by
    have := Int.lt_floor_add_one (v / (pow2 e * pow2 e))
    rw [← hN] at this
    exact_mod_cast this
  have s1 : (s : ℚ) * s ≤ N := by rw [hs]; exact_mod_cast Nat.sqrt_le N
  have s2 : (N : ℚ) + 1 ≤ (s + 1) * (s + 1) := by rw [hs]; exact_mod_cast Nat.lt_succ_sqrt N
  have lo : ((s : ℚ) * pow2 e) * (s * pow2 e) ≤ v := by
    have : (s : ℚ) * s ≤ v / (pow2 e * pow2 e) := s1.trans hN1
    rw [le_div_iff₀ hpp] at this
    linarith
  have hi : v ≤ (((s : ℚ) + 1) * pow2 e) * ((s + 1) * pow2 e) := by
    have : v / (pow2 e * pow2 e) ≤ (s + 1) * (s + 1) := hN2.le.trans s2
    rw [div_le_iff₀ hpp] at this
    linarith
  have ge_of : ∀ a : ℚ, a * a ≤ v → ((a : ℚ) : ℝ) ≤ √(v : ℝ) := by
    intro a h
    apply Real.le_sqrt_of_sq_le
    rw [sq]
    exact_mod_cast h
  have le_of : ∀ a : ℚ, 0 ≤ a → v ≤ a * a → √(v : ℝ) ≤ ((a : ℚ) : ℝ) := by
    intro a h0 h
    rw [Real.sqrt_le_left (by exact_mod_cast h0), sq]
    exact_mod_cast h
  have L := ge_of _ lo
  have H := le_of _ (by positivity) hi
  have key : |((sqrtPos f v : ℚ) : ℝ) - √(v : ℝ)| ≤ ((pow2 e / 2 : ℚ) : ℝ) := by
    have hdef : sqrtPos f v = (let h : ℚ := ((s : ℚ) + 1 / 2) * pow2 e
        if v < h * h then s * pow2 e
        else if h * h < v then (s + 1) * pow2 e
        else if s % 2 = 0 then s * pow2 e else (s + 1) * pow2 e) := by
      have e1 : (⌊v / (pow2 e * pow2 e)⌋).toNat = N := by rw [← hN]; rfl
      unfold sqrtPos
      rw [← hk]
      simp only
      rw [← he, e1, ← hs]
    rw [hdef]
    simp only
    have down : v ≤ ((s : ℚ) + 1 / 2) * pow2 e * (((s : ℚ) + 1 / 2) * pow2 e) →
        |((s * pow2 e : ℚ) : ℝ) - √(v : ℝ)| ≤ ((pow2 e / 2 : ℚ) : ℝ) := by
      intro h
      have := le_of _ (by positivity) h
      rw [abs_le]
      push_cast at *
      have hpR : (0:ℝ) < (pow2 e : ℚ) := by exact_mod_cast hpe
      constructor <;> nlinarith
    have up : ((s : ℚ) + 1 / 2) * pow2 e * (((s : ℚ) + 1 / 2) * pow2 e) ≤ v →
        |(((s + 1) * pow2 e : ℚ) : ℝ) - √(v : ℝ)| ≤ ((pow2 e / 2 : ℚ) : ℝ) := by
      intro h
      have := ge_of _ h
      rw [abs_le]
      push_cast at *
      have hpR : (0:ℝ) < (pow2 e : ℚ) := by exact_mod_cast hpe
      constructor <;> nlinarith
    split
    · rename_i h; exact down h.le
    · rename_i h
      split
      · rename_i h'; exact up h'.le
      · rename_i h'
        split
        · exact down (not_lt.mp h')
        · exact up (not_lt.mp h)
  refine key.trans ?_
  have h3 : ((pow2 e / 2 : ℚ) : ℝ) ≤ ((pow2 k : ℚ) : ℝ) * ((pow2 (-(f.p : ℤ)) : ℚ) : ℝ) + ((pow2 (f.emin - 1) : ℚ) : ℝ) := by
    exact_mod_cast hulp
  have h4 : (0:ℝ) ≤ ((pow2 (-(f.p : ℤ)) : ℚ) : ℝ) := by exact_mod_cast (pow2_pos _).le
  have := mul_le_mul_of_nonneg_right hk1 h4
  linarith

end Go.Fl

namespace GosuPP
open Go Fl

/-- The float32 square root. -/
theorem math32_sqrt_error {v : ℚ} {z : Bool} (hw : WF (fin v z : F32)) (h0 : 0 ≤ v) :
    ∃ n c, Math32.sqrt (D := F64) (fin v z : F32) = fin n c ∧ 0 ≤ n ∧ |(n : ℝ) - √(v : ℝ)| ≤ √(v : ℝ) / 2 ^ 23 + 1 / 2 ^ 140 := by
  have hup : (up (fin v z : F32) : F64) = fin v z := up_fin hw
  have hs0 : (0:ℝ) ≤ √(v : ℝ) := Real.sqrt_nonneg _
  have hpos140 : (0:ℝ) ≤ 1 / 2 ^ 140 := by positivity
  rcases eq_or_lt_of_le h0 with h | h
  · subst h
    refine ⟨0, z, ?_, le_rfl, ?_⟩
    · unfold Math32.sqrt
      rw [hup]
      show Fl.cvt fmt32 (Fl.sqrt (fin 0 z : F64)) = _
      simp only [Fl.sqrt, if_true, Fl.cvt]
      rw [ofRat_zero]
    · simp
  · have hvb : v < pow2 128 := (le_abs_self v).trans_lt hw.2.1
    have e1 := sqrtPos_error (f := fmt64) (by decide) h
    have e53' : ((pow2 (-((fmt64.p : ℕ) : ℤ)) : ℚ) : ℝ) = 1 / 2 ^ 53 := by
      rw [show -((fmt64.p : ℕ) : ℤ) = -53 from rfl, e53]; push_cast; rfl
    have e1074 : ((pow2 (fmt64.emin - 1) : ℚ) : ℝ) ≤ 1 / 2 ^ 150 := by
      have : pow2 (fmt64.emin - 1) ≤ pow2 (-150) := pow2_mono (by decide)
      rw [e150] at this
      have h := (Rat.cast_le (K := ℝ)).mpr this
      push_cast at h
      exact h
    rw [e53'] at e1
    set r := sqrtPos fmt64 v with hr
    have hr0 : 0 ≤ r := sqrtPos_nonneg _ _
    -- the root is not too large for float32
    have hroot : √(v : ℝ) ≤ 2 ^ 64 := by
      rw [Real.sqrt_le_left (by positivity)]
      have : v ≤ 2 ^ 128 := by
        have := hvb.le
        rwa [show (128 : ℤ) = ((128 : ℕ) : ℤ) from rfl, pow2_nat] at this
      calc (v : ℝ) ≤ 2 ^ 128 := by exact_mod_cast this
        _ = (2 ^ 64) ^ 2 := by norm_num
    have hr1 : (r : ℝ) ≤ 2 ^ 65 := by
      rw [abs_le] at e1
      have := e1.2
      have h3 : √(v : ℝ) * (1 / 2 ^ 53) ≤ 2 ^ 64 * (1 / 2 ^ 53) := mul_le_mul_of_nonneg_right hroot (by positivity)
      have h4 : (1:ℝ) / 2 ^ 150 ≤ 1 := by norm_num
      have h5 : (2:ℝ) ^ 64 * (1 / 2 ^ 53) + 2 ^ 64 + 1 ≤ 2 ^ 65 := by norm_num
      linarith
    have hr1' : |r| ≤ 2 ^ 120 := by
      rw [abs_of_nonneg hr0]
      have : r ≤ 2 ^ 65 := by exact_mod_cast hr1
      exact this.trans (by norm_num)
    obtain ⟨c, hc⟩ := ofRat32_fin hr1' false
    refine ⟨rnd fmt32 r, c, ?_, le_rnd Rep.zero hr0, ?_⟩
    · unfold Math32.sqrt
      rw [hup]
      show Fl.cvt fmt32 (Fl.sqrt (fin v z : F64)) = _
      simp only [Fl.sqrt, if_neg h.ne', if_neg (not_lt.mpr h.le), Fl.cvt]
      rw [← hr]
      exact hc
    · have e2 := rnd32_error r
      rw [abs_of_nonneg hr0] at e2
      have e2' : |((rnd fmt32 r : ℚ) : ℝ) - r| ≤ (r : ℝ) / 2 ^ 24 + 1 / 2 ^ 150 := by
        have h := (Rat.cast_le (K := ℝ)).mpr e2
        push_cast at h
        exact h
      rw [abs_le] at *
      have h9 : (1:ℝ) / 2 ^ 150 ≤ 1 / 2 ^ 142 := by
        apply one_div_le_one_div_of_le <;> norm_num
      have h10 : (1:ℝ) / 2 ^ 142 * 4 = 1 / 2 ^ 140 := by norm_num
      have h11 : (0:ℝ) ≤ 1 / 2 ^ 142 := by positivity
      have a1 : (r : ℝ) / 2 ^ 24 ≤ (√(v : ℝ) * (1 + 1 / 2 ^ 53) + 1 / 2 ^ 142) / 2 ^ 24 := by
        apply div_le_div_of_nonneg_right _ (by positivity)
        linarith [e1.2]
      have a2 : (√(v : ℝ) * (1 + 1 / 2 ^ 53) + 1 / 2 ^ 142) / 2 ^ 24 = √(v : ℝ) * ((1 + 1 / 2 ^ 53) / 2 ^ 24) + 1 / 2 ^ 142 / 2 ^ 24 := by ring
      have a3 : (1:ℝ) / 2 ^ 142 / 2 ^ 24 ≤ 1 / 2 ^ 142 := div_le_self h11 (by norm_num)
      have a4 : √(v : ℝ) * ((1 + 1 / 2 ^ 53) / 2 ^ 24) + √(v : ℝ) * (1 / 2 ^ 53) ≤ √(v : ℝ) / 2 ^ 23 := by
        rw [← mul_add, div_eq_mul_one_div]
        exact mul_le_mul_of_nonneg_left (by norm_num) hs0
      constructor <;> linarith [e1.1, e1.2, e2'.1, e2'.2]

/-- The distance of two points. -/
noncomputable def norm2 (x y : ℚ) : ℝ := √((x : ℝ) ^ 2 + (y : ℝ) ^ 2)

theorem sq_error {a b B : ℚ} {za zb : Bool} (ha : |a| ≤ B) (hb : |b| ≤ B) (hB : B ≤ 2 ^ 21) :
    ∃ X c, ((fin b zb : F32) -. fin a za) *. ((fin b zb : F32) -. fin a za) = fin X c ∧
      (1 - 1 / 2 ^ 24) ^ 3 * (b - a) ^ 2 - 1 / 2 ^ 125 ≤ X ∧ X ≤ (1 + 1 / 2 ^ 24) ^ 3 * (b - a) ^ 2 + 1 / 2 ^ 125 ∧ 0 ≤ X := by
  have hd : |b + -a| ≤ 2 ^ 22 := by
    rw [← sub_eq_add_neg]
    have := abs_sub b a
    linarith
  obtain ⟨c1, g1⟩ := ofRat32_fin (q := b + -a) (hd.trans (by norm_num)) (signbit (fin b zb : F32) && signbit (neg (fin a za) : F32))
  have g1' : (fin b zb : F32) -. fin a za = fin (rnd fmt32 (b + -a)) c1 := g1
  rw [g1']
  have r1 := rnd32_error (b + -a)
  rw [← sub_eq_add_neg] at *
  clear g1 g1'
  generalize b - a = d at hd r1 ⊢
  generalize rnd fmt32 d = w at r1 ⊢
  have t150 : (1:ℚ) / 2 ^ 150 * 2 ^ 24 = 1 / 2 ^ 126 := by norm_num
  have p150 : (0:ℚ) ≤ 1 / 2 ^ 150 := by positivity
  have hwabs : |w| ≤ |d| * (1 + 1 / 2 ^ 24) + 1 / 2 ^ 150 := by
    have := abs_sub_abs_le_abs_sub w d
    linarith [show |d| * (1 + 1 / 2 ^ 24) = |d| + |d| / 2 ^ 24 by ring]
  have hwlow : |d| * (1 - 1 / 2 ^ 24) - 1 / 2 ^ 150 ≤ |w| := by
    have := abs_sub_abs_le_abs_sub d w
    rw [abs_sub_comm] at this
    linarith [show |d| * (1 - 1 / 2 ^ 24) = |d| - |d| / 2 ^ 24 by ring]
  have hd0 := abs_nonneg d
  have hw0 := abs_nonneg w
  -- the square before rounding
  have sqw : w * w = |w| * |w| := (abs_mul_abs_self w).symm
  have sqd : d ^ 2 = |d| * |d| := by rw [sq, abs_mul_abs_self]
  have up1 : w * w ≤ (1 + 1 / 2 ^ 24) ^ 2 * d ^ 2 + 1 / 2 ^ 126 := by
    rw [sqw, sqd]
    have h1 : |w| * |w| ≤ (|d| * (1 + 1 / 2 ^ 24) + 1 / 2 ^ 150) * (|d| * (1 + 1 / 2 ^ 24) + 1 / 2 ^ 150) :=
      mul_self_le_mul_self hw0 hwabs
    have h2 : 2 * (|d| * (1 + 1 / 2 ^ 24)) + 1 / 2 ^ 150 ≤ 2 ^ 24 := by
      have : |d| * (1 + 1 / 2 ^ 24) ≤ 2 ^ 22 * (1 + 1 / 2 ^ 24) := mul_le_mul_of_nonneg_right hd (by norm_num)
      have h3 : (2:ℚ) * (2 ^ 22 * (1 + 1 / 2 ^ 24)) + 1 / 2 ^ 150 ≤ 2 ^ 24 := by norm_num
      linarith
    have h3 := mul_le_mul_of_nonneg_left h2 p150
    rw [t150] at h3
    linarith [show (|d| * (1 + 1 / 2 ^ 24) + 1 / 2 ^ 150) * (|d| * (1 + 1 / 2 ^ 24) + 1 / 2 ^ 150) =
      (1 + 1 / 2 ^ 24) ^ 2 * (|d| * |d|) + 1 / 2 ^ 150 * (2 * (|d| * (1 + 1 / 2 ^ 24)) + 1 / 2 ^ 150) by ring]
  have lo1 : (1 - 1 / 2 ^ 24) ^ 2 * d ^ 2 - 1 / 2 ^ 126 ≤ w * w := by
    rw [sqw, sqd]
    have h2 : 2 * (|d| * (1 - 1 / 2 ^ 24)) ≤ 2 ^ 24 := by
      have : |d| * (1 - 1 / 2 ^ 24) ≤ 2 ^ 22 * (1 - 1 / 2 ^ 24) := mul_le_mul_of_nonneg_right hd (by norm_num)
      have h3 : (2:ℚ) * (2 ^ 22 * (1 - 1 / 2 ^ 24)) ≤ 2 ^ 24 := by norm_num
      linarith
    have h3 := mul_le_mul_of_nonneg_left h2 p150
    rw [t150] at h3
    have h129 : (1:ℚ) / 2 ^ 150 * (1 / 2 ^ 150) ≤ 1 / 2 ^ 126 := by norm_num
    rcases _root_.le_total (1 / 2 ^ 150) (|d| * (1 - 1 / 2 ^ 24)) with h | h
    · have h1 := mul_self_le_mul_self (sub_nonneg.mpr h) hwlow
      have p2 : (0:ℚ) ≤ 1 / 2 ^ 150 * (1 / 2 ^ 150) := by positivity
      linarith [show (|d| * (1 - 1 / 2 ^ 24) - 1 / 2 ^ 150) * (|d| * (1 - 1 / 2 ^ 24) - 1 / 2 ^ 150) =
        (1 - 1 / 2 ^ 24) ^ 2 * (|d| * |d|) - 1 / 2 ^ 150 * (2 * (|d| * (1 - 1 / 2 ^ 24))) + 1 / 2 ^ 150 * (1 / 2 ^ 150) by ring]
    · have h1 := mul_self_le_mul_self (mul_nonneg hd0 (by norm_num : (0:ℚ) ≤ 1 - 1 / 2 ^ 24)) h
      have : 0 ≤ |w| * |w| := mul_self_nonneg _
      linarith [show |d| * (1 - 1 / 2 ^ 24) * (|d| * (1 - 1 / 2 ^ 24)) = (1 - 1 / 2 ^ 24) ^ 2 * (|d| * |d|) by ring]
  have dsq0 : 0 ≤ d ^ 2 := sq_nonneg d
  have dsq1 : d ^ 2 ≤ 2 ^ 44 := by
    rw [sqd]
    have := mul_self_le_mul_self hd0 hd
    linarith [show (2:ℚ) ^ 22 * 2 ^ 22 = 2 ^ 44 by norm_num]
  have ww0 : 0 ≤ w * w := mul_self_nonneg w
  have ww1 : |w * w| ≤ 2 ^ 120 := by
    rw [abs_of_nonneg ww0]
    have : (1 + 1 / 2 ^ 24 : ℚ) ^ 2 * d ^ 2 ≤ (1 + 1 / 2 ^ 24) ^ 2 * 2 ^ 44 := mul_le_mul_of_nonneg_left dsq1 (by norm_num)
    have h3 : (1 + 1 / 2 ^ 24 : ℚ) ^ 2 * 2 ^ 44 + 1 / 2 ^ 126 ≤ 2 ^ 120 := by norm_num
    linarith
  obtain ⟨c2, g2⟩ := ofRat32_fin ww1 (Bool.xor (signbit (fin w c1 : F32)) (signbit (fin w c1 : F32)))
  refine ⟨rnd fmt32 (w * w), c2, g2, ?_, ?_, le_rnd Rep.zero ww0⟩
  all_goals
    have r2 := rnd32_error (w * w)
    rw [abs_of_nonneg ww0, abs_le] at r2
    have t1 : (1:ℚ) / 2 ^ 126 * (1 + 1 / 2 ^ 24) + 1 / 2 ^ 150 ≤ 1 / 2 ^ 125 := by norm_num
  · have h1 := mul_le_mul_of_nonneg_left lo1 (by norm_num : (0:ℚ) ≤ 1 - 1 / 2 ^ 24)
    have t2 : (1:ℚ) / 2 ^ 126 * (1 - 1 / 2 ^ 24) + 1 / 2 ^ 150 ≤ 1 / 2 ^ 125 := by norm_num
    linarith [r2.1, show (1 - 1 / 2 ^ 24 : ℚ) * ((1 - 1 / 2 ^ 24) ^ 2 * d ^ 2 - 1 / 2 ^ 126) =
      (1 - 1 / 2 ^ 24) ^ 3 * d ^ 2 - 1 / 2 ^ 126 * (1 - 1 / 2 ^ 24) by ring, show (1 - 1 / 2 ^ 24 : ℚ) * (w * w) = w * w - w * w / 2 ^ 24 by ring]
  · have h1 := mul_le_mul_of_nonneg_left up1 (by norm_num : (0:ℚ) ≤ 1 + 1 / 2 ^ 24)
    linarith [r2.2, show (1 + 1 / 2 ^ 24 : ℚ) * ((1 + 1 / 2 ^ 24) ^ 2 * d ^ 2 + 1 / 2 ^ 126) =
      (1 + 1 / 2 ^ 24) ^ 3 * d ^ 2 + 1 / 2 ^ 126 * (1 + 1 / 2 ^ 24) by ring, show (1 + 1 / 2 ^ 24 : ℚ) * (w * w) = w * w + w * w / 2 ^ 24 by ring]

/-- The square of a length in float32. -/
theorem getLength_square {l : Linear F32} {x1 y1 x2 y2 : ℚ} {a b c d : Bool} (h1 : l.p1 = ⟨fin x1 a, fin y1 b⟩)
    (h2 : l.p2 = ⟨fin x2 c, fin y2 d⟩) (b1 : |x1| ≤ 2 ^ 21) (b2 : |y1| ≤ 2 ^ 21) (b3 : |x2| ≤ 2 ^ 21) (b4 : |y2| ≤ 2 ^ 21) :
    ∃ (n v s : ℚ) (z : Bool), l.getLength (D := F64) = fin n z ∧ 0 ≤ n ∧ 0 ≤ s ∧ 0 ≤ v ∧ norm2 (x2 - x1) (y2 - y1) = √(s : ℝ) ∧
      (1 - 1 / 2 ^ 24) ^ 4 * s - 1 / 2 ^ 122 ≤ v ∧ v ≤ (1 + 1 / 2 ^ 24) ^ 4 * s + 1 / 2 ^ 122 ∧
      |(n : ℝ) - √(v : ℝ)| ≤ √(v : ℝ) / 2 ^ 23 + 1 / 2 ^ 140 := by
  obtain ⟨X, cx, gx, xlo, xhi, x0⟩ := sq_error (za := a) (zb := c) b1 b3 le_rfl
  obtain ⟨Y, cy, gy, ylo, yhi, y0⟩ := sq_error (za := b) (zb := d) b2 b4 le_rfl
  obtain ⟨s, hs⟩ : ∃ s : ℚ, s = (x2 - x1) ^ 2 + (y2 - y1) ^ 2 := ⟨_, rfl⟩
  have s0 : 0 ≤ s := by rw [hs]; positivity
  have d1 : (x2 - x1) ^ 2 ≤ 2 ^ 44 := by
    have := abs_sub x2 x1
    have h := mul_self_le_mul_self (abs_nonneg (x2 - x1)) (show |x2 - x1| ≤ 2 ^ 22 by linarith)
    rw [abs_mul_abs_self] at h
    linarith [show (2:ℚ) ^ 22 * 2 ^ 22 = 2 ^ 44 by norm_num, show (x2 - x1) ^ 2 = (x2 - x1) * (x2 - x1) by ring]
  have d2 : (y2 - y1) ^ 2 ≤ 2 ^ 44 := by
    have := abs_sub y2 y1
    have h := mul_self_le_mul_self (abs_nonneg (y2 - y1)) (show |y2 - y1| ≤ 2 ^ 22 by linarith)
    rw [abs_mul_abs_self] at h
    linarith [show (2:ℚ) ^ 22 * 2 ^ 22 = 2 ^ 44 by norm_num, show (y2 - y1) ^ 2 = (y2 - y1) * (y2 - y1) by ring]
  have s1 : s ≤ 2 ^ 45 := by rw [hs]; linarith [show (2:ℚ) ^ 44 + 2 ^ 44 = 2 ^ 45 by norm_num]
  have sumlo : (1 - 1 / 2 ^ 24) ^ 3 * s - 1 / 2 ^ 124 ≤ X + Y := by rw [hs]; linarith [show (1:ℚ) / 2 ^ 125 + 1 / 2 ^ 125 = 1 / 2 ^ 124 by norm_num]
  have sumhi : X + Y ≤ (1 + 1 / 2 ^ 24) ^ 3 * s + 1 / 2 ^ 124 := by rw [hs]; linarith [show (1:ℚ) / 2 ^ 125 + 1 / 2 ^ 125 = 1 / 2 ^ 124 by norm_num]
  have xy0 : 0 ≤ X + Y := by linarith
  have xy1 : |X + Y| ≤ 2 ^ 120 := by
    rw [abs_of_nonneg xy0]
    have : (1 + 1 / 2 ^ 24 : ℚ) ^ 3 * s ≤ (1 + 1 / 2 ^ 24) ^ 3 * 2 ^ 45 := mul_le_mul_of_nonneg_left s1 (by norm_num)
    have h3 : (1 + 1 / 2 ^ 24 : ℚ) ^ 3 * 2 ^ 45 + 1 / 2 ^ 124 ≤ 2 ^ 120 := by norm_num
    linarith
  obtain ⟨c3, g3⟩ := ofRat32_fin xy1 (signbit (fin X cx : F32) && signbit (fin Y cy : F32))
  have g3' : (fin X cx : F32) +. fin Y cy = fin (rnd fmt32 (X + Y)) c3 := g3
  have hw : WF (fin (rnd fmt32 (X + Y)) c3 : F32) := by rw [← g3]; exact ofRat_wf _ _
  have hv0 : 0 ≤ rnd fmt32 (X + Y) := le_rnd Rep.zero xy0
  have r3 := rnd32_error (X + Y)
  rw [abs_of_nonneg xy0, abs_le] at r3
  clear g3
  generalize rnd fmt32 (X + Y) = v at *
  have vlo : (1 - 1 / 2 ^ 24) ^ 4 * s - 1 / 2 ^ 122 ≤ v := by
    have h := mul_le_mul_of_nonneg_left sumlo (by norm_num : (0:ℚ) ≤ 1 - 1 / 2 ^ 24)
    have t : (1:ℚ) / 2 ^ 124 * (1 - 1 / 2 ^ 24) + 1 / 2 ^ 150 ≤ 1 / 2 ^ 122 := by norm_num
    linarith [r3.1, show (1 - 1 / 2 ^ 24 : ℚ) * ((1 - 1 / 2 ^ 24) ^ 3 * s - 1 / 2 ^ 124) =
      (1 - 1 / 2 ^ 24) ^ 4 * s - 1 / 2 ^ 124 * (1 - 1 / 2 ^ 24) by ring, show (1 - 1 / 2 ^ 24 : ℚ) * (X + Y) = X + Y - (X + Y) / 2 ^ 24 by ring]
  have vhi : v ≤ (1 + 1 / 2 ^ 24) ^ 4 * s + 1 / 2 ^ 122 := by
    have h := mul_le_mul_of_nonneg_left sumhi (by norm_num : (0:ℚ) ≤ 1 + 1 / 2 ^ 24)
    have t : (1:ℚ) / 2 ^ 124 * (1 + 1 / 2 ^ 24) + 1 / 2 ^ 150 ≤ 1 / 2 ^ 122 := by norm_num
    linarith [r3.2, show (1 + 1 / 2 ^ 24 : ℚ) * ((1 + 1 / 2 ^ 24) ^ 3 * s + 1 / 2 ^ 124) =
      (1 + 1 / 2 ^ 24) ^ 4 * s + 1 / 2 ^ 124 * (1 + 1 / 2 ^ 24) by ring, show (1 + 1 / 2 ^ 24 : ℚ) * (X + Y) = X + Y + (X + Y) / 2 ^ 24 by ring]
  obtain ⟨n, z, hn, hn0, hne⟩ := math32_sqrt_error hw hv0
  refine ⟨n, v, s, z, ?_, hn0, s0, hv0, ?_, vlo, vhi, hne⟩
  · unfold Linear.getLength Vec.dst
    rw [h1, h2]
    simp only
    rw [gx, gy, g3', hn]
  · rw [hs]; unfold norm2; push_cast; rfl

/-- The length of a line is the distance of its end points, up to one part in two million. -/
theorem getLength_error {l : Linear F32} {x1 y1 x2 y2 : ℚ} {a b c d : Bool} (h1 : l.p1 = ⟨fin x1 a, fin y1 b⟩)
    (h2 : l.p2 = ⟨fin x2 c, fin y2 d⟩) (b1 : |x1| ≤ 2 ^ 21) (b2 : |y1| ≤ 2 ^ 21) (b3 : |x2| ≤ 2 ^ 21) (b4 : |y2| ≤ 2 ^ 21) :
    ∃ n z, l.getLength (D := F64) = fin n z ∧ 0 ≤ n ∧
      |(n : ℝ) - norm2 (x2 - x1) (y2 - y1)| ≤ norm2 (x2 - x1) (y2 - y1) / 2 ^ 21 + 1 / 2 ^ 58 := by
  obtain ⟨n, v, s, z, hn, hn0, s0, hv0, hN, vlo, vhi, hne⟩ := getLength_square h1 h2 b1 b2 b3 b4
  refine ⟨n, z, hn, hn0, ?_⟩
  · -- the roots
    rw [hN]
    have sR0 : (0:ℝ) ≤ (s : ℝ) := by exact_mod_cast s0
    have N0 : (0:ℝ) ≤ √(s : ℝ) := Real.sqrt_nonneg _
    have Nsq : √(s : ℝ) ^ 2 = s := Real.sq_sqrt sR0
    have vloR : (1 - 1 / 2 ^ 24) ^ 4 * (s : ℝ) - 1 / 2 ^ 122 ≤ v := by
      have h := (Rat.cast_le (K := ℝ)).mpr vlo
      push_cast at h
      exact h
    have vhiR : (v : ℝ) ≤ (1 + 1 / 2 ^ 24) ^ 4 * (s : ℝ) + 1 / 2 ^ 122 := by
      have h := (Rat.cast_le (K := ℝ)).mpr vhi
      push_cast at h
      exact h
    have up1 : √(v : ℝ) ≤ (1 + 1 / 2 ^ 24) ^ 2 * √(s : ℝ) + 1 / 2 ^ 61 := by
      rw [Real.sqrt_le_left (by positivity)]
      have : (0:ℝ) ≤ (1 + 1 / 2 ^ 24) ^ 2 * √(s : ℝ) * (1 / 2 ^ 61) := by positivity
      calc (v : ℝ) ≤ (1 + 1 / 2 ^ 24) ^ 4 * (s : ℝ) + 1 / 2 ^ 122 := vhiR
        _ = (1 + 1 / 2 ^ 24) ^ 4 * √(s : ℝ) ^ 2 + (1 / 2 ^ 61) ^ 2 := by rw [Nsq]; norm_num
        _ ≤ ((1 + 1 / 2 ^ 24) ^ 2 * √(s : ℝ) + 1 / 2 ^ 61) ^ 2 := by
          linarith [show ((1 + 1 / 2 ^ 24 : ℝ) ^ 2 * √(s : ℝ) + 1 / 2 ^ 61) ^ 2 =
            (1 + 1 / 2 ^ 24) ^ 4 * √(s : ℝ) ^ 2 + (1 / 2 ^ 61) ^ 2 + 2 * ((1 + 1 / 2 ^ 24) ^ 2 * √(s : ℝ) * (1 / 2 ^ 61)) by ring]
    have lo1 : (1 - 1 / 2 ^ 24) ^ 2 * √(s : ℝ) - 1 / 2 ^ 61 ≤ √(v : ℝ) := by
      rcases _root_.le_total (1 / 2 ^ 61) ((1 - 1 / 2 ^ 24) ^ 2 * √(s : ℝ)) with h | h
      · apply Real.le_sqrt_of_sq_le
        refine _root_.le_trans ?_ vloR
        have h2 := mul_le_mul_of_nonneg_right h (by positivity : (0:ℝ) ≤ 1 / 2 ^ 61)
        calc ((1 - 1 / 2 ^ 24) ^ 2 * √(s : ℝ) - 1 / 2 ^ 61) ^ 2 = (1 - 1 / 2 ^ 24) ^ 4 * √(s : ℝ) ^ 2 + 1 / 2 ^ 61 * (1 / 2 ^ 61)
              - 2 * ((1 - 1 / 2 ^ 24) ^ 2 * √(s : ℝ) * (1 / 2 ^ 61)) := by ring
          _ ≤ (1 - 1 / 2 ^ 24) ^ 4 * √(s : ℝ) ^ 2 - 1 / 2 ^ 61 * (1 / 2 ^ 61) := by linarith
          _ = (1 - 1 / 2 ^ 24) ^ 4 * (s : ℝ) - 1 / 2 ^ 122 := by rw [Nsq]; norm_num
      · have := Real.sqrt_nonneg (v : ℝ)
        linarith
    rw [abs_le] at hne ⊢
    have t1 : ((1 + 1 / 2 ^ 24) ^ 2 * (1 + 1 / 2 ^ 23) : ℝ) ≤ 1 + 1 / 2 ^ 21 := by norm_num
    have t2 : (1 - 1 / 2 ^ 21 : ℝ) ≤ (1 - 1 / 2 ^ 24) ^ 2 * (1 - 1 / 2 ^ 23) := by norm_num
    have t3 : (1 / 2 ^ 61 * (1 + 1 / 2 ^ 23) + 1 / 2 ^ 140 : ℝ) ≤ 1 / 2 ^ 58 := by norm_num
    have t3' : (1 / 2 ^ 61 * (1 - 1 / 2 ^ 23) + 1 / 2 ^ 140 : ℝ) ≤ 1 / 2 ^ 58 := by norm_num
    have m1 := mul_le_mul_of_nonneg_right t1 N0
    have m2 := mul_le_mul_of_nonneg_right t2 N0
    have m3 := mul_le_mul_of_nonneg_right up1 (by norm_num : (0:ℝ) ≤ 1 + 1 / 2 ^ 23)
    have m4 := mul_le_mul_of_nonneg_right lo1 (by norm_num : (0:ℝ) ≤ 1 - 1 / 2 ^ 23)
    have q1 := hne.1
    have q2 := hne.2
    generalize √(v : ℝ) = r at *
    generalize √(s : ℝ) = N at *
    constructor <;> linarith

private theorem le_of_sq_le_sq' {a b : ℝ} (h : a ^ 2 ≤ b ^ 2) (hb : 0 ≤ b) : a ≤ b := abs_le_of_sq_le_sq' h hb |>.2

/-- A length that is not tiny is the distance of the end points, up to one part in a million. -/
theorem getLength_rel {l : Linear F32} {x1 y1 x2 y2 n : ℚ} {a b c d z : Bool} (h1 : l.p1 = ⟨fin x1 a, fin y1 b⟩)
    (h2 : l.p2 = ⟨fin x2 c, fin y2 d⟩) (b1 : |x1| ≤ 2 ^ 21) (b2 : |y1| ≤ 2 ^ 21) (b3 : |x2| ≤ 2 ^ 21) (b4 : |y2| ≤ 2 ^ 21)
    (hn : l.getLength (D := F64) = fin n z) (hn0 : 1 / 2 ^ 48 ≤ n) :
    |(n : ℝ) - norm2 (x2 - x1) (y2 - y1)| ≤ n / 2 ^ 20 := by
  obtain ⟨n', v, s, z', hn', -, s0, hv0, hN, vlo, vhi, hne⟩ := getLength_square h1 h2 b1 b2 b3 b4
  rw [hn] at hn'
  cases hn'
  rw [hN]
  have sR0 : (0:ℝ) ≤ (s : ℝ) := by exact_mod_cast s0
  have vR0 : (0:ℝ) ≤ (v : ℝ) := by exact_mod_cast hv0
  have N0 : (0:ℝ) ≤ √(s : ℝ) := Real.sqrt_nonneg _
  have Nsq : √(s : ℝ) ^ 2 = s := Real.sq_sqrt sR0
  have r0 : (0:ℝ) ≤ √(v : ℝ) := Real.sqrt_nonneg _
  have rsq : √(v : ℝ) ^ 2 = v := Real.sq_sqrt vR0
  have hn0R : (1:ℝ) / 2 ^ 48 ≤ n := by
    have h := (Rat.cast_le (K := ℝ)).mpr hn0
    push_cast at h
    exact h
  have vloR : (1 - 1 / 2 ^ 24) ^ 4 * (s : ℝ) - 1 / 2 ^ 122 ≤ v := by
    have h := (Rat.cast_le (K := ℝ)).mpr vlo
    push_cast at h
    exact h
  have vhiR : (v : ℝ) ≤ (1 + 1 / 2 ^ 24) ^ 4 * (s : ℝ) + 1 / 2 ^ 122 := by
    have h := (Rat.cast_le (K := ℝ)).mpr vhi
    push_cast at h
    exact h
  rw [← Nsq, ← rsq] at vloR vhiR
  generalize √(v : ℝ) = r at *
  generalize √(s : ℝ) = N at *
  generalize (n : ℝ) = n at *
  have e := abs_le.mp hne
  have r49 : (1:ℝ) / 2 ^ 49 ≤ r := by
    have : r / 2 ^ 23 ≤ r * (1 / 2) := by linarith
    linarith [e.2, show (1:ℝ) / 2 ^ 48 - 1 / 2 ^ 140 ≥ 3 / 2 * (1 / 2 ^ 49) by norm_num]
  have small : (1:ℝ) / 2 ^ 122 ≤ r ^ 2 * (1 / 2 ^ 24) := by
    have := mul_le_mul r49 r49 (by positivity) r0
    have t : (1:ℝ) / 2 ^ 122 = 1 / 2 ^ 49 * (1 / 2 ^ 49) * (1 / 2 ^ 24) := by norm_num
    rw [t, sq]
    exact mul_le_mul_of_nonneg_right this (by positivity)
  have tiny : (1:ℝ) / 2 ^ 140 ≤ r * (1 / 2 ^ 91) := by
    have := mul_le_mul_of_nonneg_right r49 (show (0:ℝ) ≤ 1 / 2 ^ 91 by positivity)
    linarith [show (1:ℝ) / 2 ^ 49 * (1 / 2 ^ 91) = 1 / 2 ^ 140 by norm_num]
  have rsq0 : 0 ≤ r ^ 2 := sq_nonneg r
  have up : N ≤ r * (1 + 1 / 2 ^ 22) := by
    apply le_of_sq_le_sq' _ (by positivity)
    have t : (1 + 1 / 2 ^ 24 : ℝ) ≤ (1 - 1 / 2 ^ 24) ^ 4 * (1 + 1 / 2 ^ 22) ^ 2 := by norm_num
    have t' := mul_le_mul_of_nonneg_left t rsq0
    have : (1 - 1 / 2 ^ 24) ^ 4 * N ^ 2 ≤ (1 - 1 / 2 ^ 24) ^ 4 * (r * (1 + 1 / 2 ^ 22)) ^ 2 := by
      calc (1 - 1 / 2 ^ 24) ^ 4 * N ^ 2 ≤ r ^ 2 * (1 + 1 / 2 ^ 24) := by linarith
        _ ≤ _ := t'
        _ = _ := by ring
    exact le_of_mul_le_mul_left this (by norm_num)
  have lo : r * (1 - 1 / 2 ^ 22) ≤ N := by
    apply le_of_sq_le_sq' _ N0
    have t : (1 + 1 / 2 ^ 24) ^ 4 * (1 - 1 / 2 ^ 22) ^ 2 ≤ (1 - 1 / 2 ^ 24 : ℝ) := by norm_num
    have t' := mul_le_mul_of_nonneg_left t rsq0
    have : (1 + 1 / 2 ^ 24) ^ 4 * (r * (1 - 1 / 2 ^ 22)) ^ 2 ≤ (1 + 1 / 2 ^ 24) ^ 4 * N ^ 2 := by
      calc (1 + 1 / 2 ^ 24) ^ 4 * (r * (1 - 1 / 2 ^ 22)) ^ 2 = r ^ 2 * ((1 + 1 / 2 ^ 24) ^ 4 * (1 - 1 / 2 ^ 22) ^ 2) := by ring
        _ ≤ r ^ 2 * (1 - 1 / 2 ^ 24) := t'
        _ ≤ _ := by linarith
    exact le_of_mul_le_mul_left this (by norm_num)
  rw [abs_le]
  have q1 : r * (1 - 1 / 2 ^ 23 - 1 / 2 ^ 91) ≤ n := by linarith [e.1]
  have q2 := mul_le_mul_of_nonneg_right q1 (show (0:ℝ) ≤ 1 / 2 ^ 20 by positivity)
  have t : (1 / 2 ^ 22 + 1 / 2 ^ 23 + 1 / 2 ^ 91 : ℝ) ≤ (1 - 1 / 2 ^ 23 - 1 / 2 ^ 91) * (1 / 2 ^ 20) := by norm_num
  have t' := mul_le_mul_of_nonneg_left t r0
  constructor <;> linarith [e.1, e.2]

end GosuPP
