import Verif.Lemmas.Bounds

/-! Intervals of doubles. -/

namespace GosuPP
open Go Fl

/-- A rational that is a finite double. -/
def Nice (q : ℚ) : Prop := Rep fmt64 q ∧ |q| < pow2 1024

theorem nice_int {n : ℤ} (h : |n| ≤ 2 ^ 53) : Nice (n : ℚ) := by
  refine ⟨Go.rep_int (by decide) h, ?_⟩
  have : ((|n| : ℤ) : ℚ) ≤ ((2 ^ 53 : ℤ) : ℚ) := by exact_mod_cast h
  rw [Int.cast_abs] at this
  refine _root_.lt_of_le_of_lt this ?_
  have e : ((2 ^ 53 : ℤ) : ℚ) = pow2 53 := by rw [pow2_eq]; norm_num
  rw [e, pow2_lt]
  norm_num

theorem nice_nat (n : ℕ) (h : n ≤ 2 ^ 53) : Nice (n : ℚ) := by
  have := nice_int (n := (n : ℤ)) (by rw [abs_of_nonneg (by positivity)]; exact_mod_cast h)
  exact_mod_cast this

theorem nice_pow (k : ℕ) (h : k < 1024) : Nice (2 ^ k : ℚ) := by
  have e : (2 ^ k : ℚ) = pow2 (k : ℤ) := by rw [pow2_eq]; norm_cast
  rw [e]
  refine ⟨Go.rep_pow2 (f := fmt64) (by show (-1074 : ℤ) ≤ k; omega), ?_⟩
  rw [abs_of_pos (pow2_pos _), pow2_lt]
  exact_mod_cast h

theorem Nice.neg {q : ℚ} (h : Nice q) : Nice (-q) := ⟨h.1.neg, by rw [abs_neg]; exact h.2⟩

theorem nice_zero : Nice 0 := by have := nice_nat 0 (by norm_num); exact_mod_cast this
theorem nice_one : Nice 1 := by have := nice_nat 1 (by norm_num); exact_mod_cast this

/-- A finite double between `a` and `b`. -/
def In (a b : ℚ) (x : F64) : Prop := ∃ v z, x = fin v z ∧ a ≤ v ∧ v ≤ b

variable {a b c d a' b' : ℚ} {x y : F64}

theorem In.mono (h : In a b x) (ha : a' ≤ a) (hb : b ≤ b') : In a' b' x := by
  obtain ⟨v, z, rfl, h1, h2⟩ := h
  exact ⟨v, z, rfl, ha.trans h1, h2.trans hb⟩

theorem In.nn (h : In a b x) : NN x := by
  obtain ⟨v, z, rfl, -, -⟩ := h
  simp [NN]

theorem in_ofRat {q : ℚ} (z : Bool) (ha : Nice a) (hb : Nice b) (h1 : a ≤ q) (h2 : q ≤ b) :
    In a b (ofRat fmt64 q z) := by
  have r1 : a ≤ rnd fmt64 q := le_rnd ha.1 h1
  have r2 : rnd fmt64 q ≤ b := rnd_le hb.1 h2
  have hlt : |rnd fmt64 q| < pow2 1024 := by
    rw [abs_lt]
    exact ⟨_root_.lt_of_lt_of_le (by have := (abs_lt.mp ha.2).1; exact this) r1,
      _root_.lt_of_le_of_lt r2 (abs_lt.mp hb.2).2⟩
  unfold ofRat
  simp only
  rw [if_neg (by show ¬ pow2 1024 ≤ _; exact not_le.mpr hlt)]
  exact ⟨_, _, rfl, r1, r2⟩

theorem in_lit {q : ℚ} (ha : Nice a) (hb : Nice b) (h1 : a ≤ q) (h2 : q ≤ b) : In a b (lit q : F64) :=
  in_ofRat _ ha hb h1 h2

theorem in_ofInt {n : ℤ} (ha : Nice a) (hb : Nice b) (h1 : a ≤ n) (h2 : n ≤ b) : In a b (ofInt n : F64) :=
  in_ofRat _ ha hb h1 h2

theorem In.add (hx : In a b x) (hy : In c d y) (ha : Nice a') (hb : Nice b') (h1 : a' ≤ a + c) (h2 : b + d ≤ b') :
    In a' b' (x +. y) := by
  obtain ⟨v, z, rfl, v1, v2⟩ := hx
  obtain ⟨w, t, rfl, w1, w2⟩ := hy
  exact in_ofRat _ ha hb (by linarith) (by linarith)

theorem In.sub (hx : In a b x) (hy : In c d y) (ha : Nice a') (hb : Nice b') (h1 : a' ≤ a - d) (h2 : b - c ≤ b') :
    In a' b' (x -. y) := by
  obtain ⟨v, z, rfl, v1, v2⟩ := hx
  obtain ⟨w, t, rfl, w1, w2⟩ := hy
  exact in_ofRat _ ha hb (by linarith) (by linarith)

/-- Products of non-negative numbers. -/
theorem In.mul (hx : In a b x) (hy : In c d y) (ha0 : 0 ≤ a) (hc0 : 0 ≤ c) (ha : Nice a') (hb : Nice b')
    (h1 : a' ≤ a * c) (h2 : b * d ≤ b') : In a' b' (x *. y) := by
  obtain ⟨v, z, rfl, v1, v2⟩ := hx
  obtain ⟨w, t, rfl, w1, w2⟩ := hy
  refine in_ofRat _ ha hb (h1.trans ?_) (_root_.le_trans ?_ h2)
  · exact mul_le_mul v1 w1 hc0 (ha0.trans v1)
  · exact mul_le_mul v2 w2 (hc0.trans w1) (ha0.trans (v1.trans v2))

/-- A non-negative number times a number between a negative and a positive bound. -/
theorem In.scale (hx : In a b x) (hy : In c d y) (ha0 : 0 ≤ a) (hc0 : c ≤ 0) (hd0 : 0 ≤ d) (ha : Nice a')
    (hb : Nice b') (h1 : a' ≤ b * c) (h2 : b * d ≤ b') : In a' b' (x *. y) := by
  obtain ⟨v, z, rfl, v1, v2⟩ := hx
  obtain ⟨w, t, rfl, w1, w2⟩ := hy
  have hv : 0 ≤ v := ha0.trans v1
  refine in_ofRat _ ha hb (h1.trans ?_) (_root_.le_trans ?_ h2)
  · calc b * c ≤ v * c := mul_le_mul_of_nonpos_right v2 hc0
      _ ≤ v * w := mul_le_mul_of_nonneg_left w1 hv
  · calc v * w ≤ v * d := mul_le_mul_of_nonneg_left w2 hv
      _ ≤ b * d := mul_le_mul_of_nonneg_right v2 hd0

/-- Quotients of a non-negative and a positive number. -/
theorem In.div (hx : In a b x) (hy : In c d y) (ha0 : 0 ≤ a) (hc0 : 0 < c) (hb : Nice b') (h2 : b / c ≤ b') :
    In 0 b' (x /. y) := by
  obtain ⟨v, z, rfl, v1, v2⟩ := hx
  obtain ⟨w, t, rfl, w1, w2⟩ := hy
  have hv : 0 ≤ v := ha0.trans v1
  have hw : 0 < w := _root_.lt_of_lt_of_le hc0 w1
  show In 0 b' (Fl.div (fin v z) (fin w t))
  unfold Fl.div
  simp only
  rw [if_neg hw.ne']
  refine in_ofRat _ nice_zero hb (_root_.div_nonneg hv hw.le) (_root_.le_trans ?_ h2)
  calc v / w ≤ v / c := div_le_div_of_nonneg_left hv hc0 w1
    _ ≤ b / c := div_le_div_of_nonneg_right v2 hc0.le

/-- Quotients of a number and a larger one. -/
theorem In.div_le (hx : In 0 b x) (hy : In c d y) (hc0 : 0 < c) (h : (x <=. y) = true) : In 0 1 (x /. y) := by
  obtain ⟨v, z, rfl, v1, v2⟩ := hx
  obtain ⟨w, t, rfl, w1, w2⟩ := hy
  have hw : 0 < w := _root_.lt_of_lt_of_le hc0 w1
  show In 0 1 (Fl.div (fin v z) (fin w t))
  have h' : v ≤ w := by simpa [go_le, Fl.le] using h
  unfold Fl.div
  simp only
  rw [if_neg hw.ne']
  refine in_ofRat _ nice_zero nice_one (_root_.div_nonneg v1 hw.le) ?_
  rw [div_le_one hw]
  exact h'

theorem fin_le_fin {v w : ℚ} {z t : Bool} : ((fin v z : F64) <=. fin w t) = true ↔ v ≤ w := by
  simp [go_le, Fl.le]

theorem In.fmax (hx : In a b x) (hy : In c d y) : In (max a c) (max b d) (fmax x y) := by
  obtain ⟨v, z, rfl, v1, v2⟩ := hx
  obtain ⟨w, t, rfl, w1, w2⟩ := hy
  obtain ⟨h1, h2, h3⟩ := fmax_spec (f := fmt64) (x := fin v z) (y := fin w t) (by simp [NN]) (by simp [NN])
  rcases h3 with e | e <;> rw [e] at h1 h2 ⊢
  · have : w ≤ v := by simpa [Fl.le] using h2
    exact ⟨v, z, rfl, max_le v1 (w1.trans this), v2.trans (le_max_left _ _)⟩
  · have : v ≤ w := by simpa [Fl.le] using h1
    exact ⟨w, t, rfl, max_le (v1.trans this) w1, w2.trans (le_max_right _ _)⟩

theorem In.fmin (hx : In a b x) (hy : In c d y) : In (min a c) (min b d) (fmin x y) := by
  obtain ⟨v, z, rfl, v1, v2⟩ := hx
  obtain ⟨w, t, rfl, w1, w2⟩ := hy
  obtain ⟨h1, h2, h3⟩ := fmin_spec (f := fmt64) (x := fin v z) (y := fin w t) (by simp [NN]) (by simp [NN])
  rcases h3 with e | e <;> rw [e] at h1 h2 ⊢
  · have : v ≤ w := by simpa [Fl.le] using h2
    exact ⟨v, z, rfl, (min_le_left _ _).trans v1, le_min v2 (this.trans w2)⟩
  · have : w ≤ v := by simpa [Fl.le] using h1
    exact ⟨w, t, rfl, (min_le_right _ _).trans w1, le_min (this.trans v2) w2⟩

theorem In.of_le {lo hi : ℚ} (h1 : ((lit lo : F64) <=. x) = true) (h2 : (x <=. (lit hi : F64)) = true)
    (hl : Nice lo) (hh : Nice hi) : In lo hi x := by
  obtain ⟨v, z, e, v1, v2⟩ := in_lit (q := lo) hl hl le_rfl le_rfl
  obtain ⟨w, t, e', w1, w2⟩ := in_lit (q := hi) hh hh le_rfl le_rfl
  rw [e] at h1
  rw [e'] at h2
  cases x with
  | nan => cases h1
  | inf s => cases s <;> [cases h2; cases h1]
  | fin u s =>
    rw [fin_le_fin] at h1 h2
    exact ⟨u, s, rfl, v1.trans h1, h2.trans w2⟩

theorem In.le_lit {hi : ℚ} (h : In a hi x) (hh : Nice hi) : (x <=. (lit hi : F64)) = true := by
  obtain ⟨w, t, e', w1, w2⟩ := in_lit (q := hi) hh hh le_rfl le_rfl
  obtain ⟨v, z, rfl, v1, v2⟩ := h
  rw [e', fin_le_fin]
  exact v2.trans w1

theorem In.lit_le {lo : ℚ} (h : In lo b x) (hh : Nice lo) : ((lit lo : F64) <=. x) = true := by
  obtain ⟨w, t, e', w1, w2⟩ := in_lit (q := lo) hh hh le_rfl le_rfl
  obtain ⟨v, z, rfl, v1, v2⟩ := h
  rw [e', fin_le_fin]
  exact w2.trans v1

end GosuPP
