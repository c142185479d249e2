import Verif.Lemmas.CurveIEEE

/-!
# The IEEE square root is monotone, and some facts about sums and products of non-negative values
-/

namespace Go.Fl
open Go GoFloat
variable {f : Fmt}

private def sres (s : Nat) (e : Int) (v : ℚ) : ℚ :=
  let h : ℚ := ((s : ℚ) + 1 / 2) * pow2 e
  if v < h * h then s * pow2 e
  else if h * h < v then (s + 1) * pow2 e
  else if s % 2 = 0 then s * pow2 e else (s + 1) * pow2 e

private theorem sres_ge (s : Nat) (e : Int) (v : ℚ) : s * pow2 e ≤ sres s e v := by
  have := pow2_pos e
  unfold sres
  simp only
  split
  · rfl
  · split
    · nlinarith
    · split
      · rfl
      · nlinarith

private theorem sres_le (s : Nat) (e : Int) (v : ℚ) : sres s e v ≤ (s + 1) * pow2 e := by
  have := pow2_pos e
  unfold sres
  simp only
  split
  · nlinarith
  · split
    · rfl
    · split
      · nlinarith
      · rfl

private theorem sres_mono (s : Nat) (e : Int) {v w : ℚ} (h : v ≤ w) : sres s e v ≤ sres s e w := by
  have h1 := sres_ge s e w
  have h2 := sres_le s e v
  by_cases hv : v < ((s : ℚ) + 1 / 2) * pow2 e * (((s : ℚ) + 1 / 2) * pow2 e)
  · have : sres s e v = s * pow2 e := by unfold sres; simp only; rw [if_pos hv]
    rw [this]; exact h1
  · by_cases hw : ((s : ℚ) + 1 / 2) * pow2 e * (((s : ℚ) + 1 / 2) * pow2 e) < w
    · have : sres s e w = (s + 1) * pow2 e := by
        unfold sres; simp only; rw [if_neg (by linarith), if_pos hw]
      rw [this]; exact h2
    · have : v = w := by linarith
      rw [this]

private def sint (e : Int) (v : ℚ) : Nat := Nat.sqrt (⌊v / (pow2 e * pow2 e)⌋).toNat

private def sexp (f : Fmt) (v : ℚ) : Int := max (ilog2 v / 2 + 1 - f.p) f.emin

private theorem sqrtPos_eq (v : ℚ) : sqrtPos f v = sres (sint (sexp f v) v) (sexp f v) v := rfl

private theorem sint_mono (e : Int) {v w : ℚ} (h : v ≤ w) : sint e v ≤ sint e w := by
  unfold sint
  apply Nat.sqrt_le_sqrt
  apply Int.toNat_le_toNat
  apply Int.floor_le_floor
  have := pow2_pos e
  exact div_le_div_of_nonneg_right h (by positivity)

private theorem sint_sq (e : Int) {v : ℚ} (h : 0 < v) : (sint e v : ℚ) * sint e v * (pow2 e * pow2 e) ≤ v := by
  have hp := pow2_pos e
  have hpp : 0 < pow2 e * pow2 e := by positivity
  have h0 : 0 ≤ v / (pow2 e * pow2 e) := by positivity
  have h1 : sint e v * sint e v ≤ (⌊v / (pow2 e * pow2 e)⌋).toNat := Nat.sqrt_le _
  have h2 : ((⌊v / (pow2 e * pow2 e)⌋).toNat : ℤ) = ⌊v / (pow2 e * pow2 e)⌋ :=
    Int.toNat_of_nonneg (Int.floor_nonneg.mpr h0)
  have h3 : (sint e v : ℚ) * sint e v ≤ v / (pow2 e * pow2 e) := by
    refine _root_.le_trans ?_ (Int.floor_le _)
    rw [← h2]
    exact_mod_cast h1
  rwa [le_div_iff₀ hpp] at h3

private theorem sint_lower (e : Int) (n : Nat) {v : ℚ} (h : (n : ℚ) * n * (pow2 e * pow2 e) ≤ v) : n ≤ sint e v := by
  have hp := pow2_pos e
  have hpp : 0 < pow2 e * pow2 e := by positivity
  rw [← le_div_iff₀ hpp] at h
  unfold sint
  rw [Nat.le_sqrt]
  have : ((n * n : Nat) : ℤ) ≤ ⌊v / (pow2 e * pow2 e)⌋ := by
    rw [Int.le_floor]; push_cast; exact h
  omega

private theorem sexp_mono {v w : ℚ} (hv : 0 < v) (h : v ≤ w) : sexp f v ≤ sexp f w := by
  have := ilog2_mono hv h
  unfold sexp
  omega

theorem sqrtPos_mono (hp : 1 ≤ f.p) {v w : ℚ} (hv : 0 < v) (h : v ≤ w) : sqrtPos f v ≤ sqrtPos f w := by
  rw [sqrtPos_eq, sqrtPos_eq]
  rcases lt_or_eq_of_le (sexp_mono (f := f) hv h) with he | he
  · have hw : 0 < w := _root_.lt_of_lt_of_le hv h
    -- the exponent of `w` is not the minimum
    obtain ⟨k, hk⟩ : ∃ k : Int, k = ilog2 w / 2 := ⟨_, rfl⟩
    have hk' : sexp f w = k + 1 - f.p := by unfold sexp at *; omega
    have hlv : ilog2 v < 2 * k := by
      unfold sexp at he
      have := ilog2_mono hv h
      omega
    have h1 : v < pow2 k * pow2 k := by
      rw [← pow2_add]
      exact _root_.lt_of_lt_of_le (ilog2_spec hv).2 (pow2_le.mpr (by omega))
    have h2 : pow2 k * pow2 k ≤ w := by
      rw [← pow2_add]
      exact _root_.le_trans (pow2_le.mpr (by omega)) (ilog2_spec hw).1
    -- upper bound for the root of `v`
    have hb1 : sres (sint (sexp f v) v) (sexp f v) v ≤ pow2 k := by
      refine _root_.le_trans (sres_le _ _ _) ?_
      obtain ⟨n, hn⟩ : ∃ n : Nat, k = sexp f v + (n : Int) := ⟨(k - sexp f v).toNat, by omega⟩
      generalize sexp f v = e at *
      have hpe := pow2_pos e
      have hs := sint_sq e hv
      have hkk : pow2 k = ((2 ^ n : Nat) : ℚ) * pow2 e := by rw [hn, pow2_add, pow2_natCast, _root_.mul_comm]
      rw [hkk] at h1 ⊢
      have : (sint e v : ℚ) * sint e v < ((2 ^ n : Nat) : ℚ) * ((2 ^ n : Nat) : ℚ) := by
        have h3 : (sint e v : ℚ) * sint e v * (pow2 e * pow2 e) <
            ((2 ^ n : Nat) : ℚ) * ((2 ^ n : Nat) : ℚ) * (pow2 e * pow2 e) := by nlinarith
        exact lt_of_mul_lt_mul_right h3 (by positivity)
      have h4 : sint e v * sint e v < 2 ^ n * 2 ^ n := by exact_mod_cast this
      have h5 : sint e v < 2 ^ n := Nat.mul_self_lt_mul_self_iff.mp h4
      have h6 : ((sint e v : ℚ) + 1) ≤ ((2 ^ n : Nat) : ℚ) := by exact_mod_cast h5
      exact _root_.mul_le_mul_of_nonneg_right h6 hpe.le
    have hb2 : pow2 k ≤ sres (sint (sexp f w) w) (sexp f w) w := by
      refine _root_.le_trans ?_ (sres_ge _ _ _)
      obtain ⟨n, hn⟩ : ∃ n : Nat, k = sexp f w + (n : Int) := ⟨(k - sexp f w).toNat, by omega⟩
      generalize sexp f w = e at *
      have hpe := pow2_pos e
      have hkk : pow2 k = ((2 ^ n : Nat) : ℚ) * pow2 e := by rw [hn, pow2_add, pow2_natCast, _root_.mul_comm]
      rw [hkk] at h2 ⊢
      have h5 : 2 ^ n ≤ sint e w := sint_lower e (2 ^ n) (by nlinarith)
      exact _root_.mul_le_mul_of_nonneg_right (by exact_mod_cast h5) hpe.le
    exact _root_.le_trans hb1 hb2
  · rw [← he]
    generalize sexp f v = e
    have hpe := pow2_pos e
    rcases lt_or_eq_of_le (sint_mono e h) with hs | hs
    · refine _root_.le_trans (sres_le _ _ _) (_root_.le_trans ?_ (sres_ge _ _ _))
      have : (sint e v : ℚ) + 1 ≤ sint e w := by exact_mod_cast hs
      exact _root_.mul_le_mul_of_nonneg_right this hpe.le
    · rw [← hs]; exact sres_mono _ _ h

theorem sqrt_mono (hp : 1 ≤ f.p) {x y : Fl f} (hx : NonNeg x) (h : le x y = true) :
    le (sqrt x) (sqrt y) = true := by
  cases x with
  | nan => simp [NonNeg, le] at hx
  | inf s =>
    cases s
    · have : y = inf false := by cases y <;> simp_all [le]
      subst this; rfl
    · simp [NonNeg, le] at hx
  | fin v b =>
    have hv : 0 ≤ v := nonNeg_fin.mp hx
    cases y with
    | nan => simp [le] at h
    | inf s =>
      have : s = false := by cases s <;> simp_all [le]
      subst this
      simp only [sqrt]
      split
      · rfl
      · split
        · linarith
        · rfl
    | fin w c =>
      have hvw : v ≤ w := by simpa [le] using h
      simp only [sqrt]
      by_cases h0 : v = 0
      · rw [if_pos h0]
        split
        · rename_i hw; rw [le_ofRat_iff_fin, h0, hw]
        · rw [if_neg (by linarith), le_ofRat_iff_fin, h0]; exact sqrtPos_nonneg f w
      · have hv' : 0 < v := lt_of_le_of_ne hv (Ne.symm h0)
        rw [if_neg h0, if_neg (by linarith), if_neg (by linarith), if_neg (by linarith), le_ofRat_iff_fin]
        exact sqrtPos_mono hp hv' hvw

/-! ### Sums and products -/

theorem le_add_right [f.Ok] {x y : Fl f} (hw : WF x) (hx : NonNeg x) (hy : NonNeg y) :
    le x (add x y) = true := by
  have hs := add_nonneg hx hy
  have h0 : NonNeg (add x (fin 0 false)) := add_nonneg hx (by rfl)
  have h := add_mono (le_refl (le_nn hx).2) hy (le_nn h0).2 (le_nn hs).2
  refine le_trans ?_ h
  cases x with
  | nan => simp [NonNeg, le] at hx
  | inf s => cases s <;> rfl
  | fin v b =>
    have e : add (fin v b : Fl f) (fin 0 false) = ofRat f (v + 0) _ := rfl
    rw [e, add_zero, ofRat_of_rep hw.1 hw.2.1]
    simp [le]

theorem mul_one_wf [f.Ok] {v : ℚ} {b : Bool} (hw : WF (fin v b : Fl f)) (c : Bool) :
    ∃ d, mul (fin v b : Fl f) (fin 1 c) = fin v d := by
  have e : mul (fin v b : Fl f) (fin 1 c) = ofRat f (v * 1) _ := rfl
  rw [e, mul_one, ofRat_of_rep hw.1 hw.2.1]
  exact ⟨_, rfl⟩

theorem mul_fin_fin_nn {x y : Fl f} (hx : Fin x) (hy : Fin y) : NN (mul x y) := by
  obtain ⟨v, a, rfl⟩ := hx
  obtain ⟨w, b, rfl⟩ := hy
  exact ofRat_nn _ _

theorem Fin.of_le {x y : Fl f} (hx : NonNeg x) (h : le x y = true) (hy : Fin y) : Fin x := by
  obtain ⟨w, b, rfl⟩ := hy
  cases x with
  | nan => simp [NonNeg, le] at hx
  | inf s => cases s <;> simp_all [NonNeg, le]
  | fin v a => exact ⟨_, _, rfl⟩

theorem fmax_wf {x y : Fl f} (hx : WF x) (hy : WF y) : WF (fmax x y) := by
  unfold fmax
  split
  · trivial
  · split
    · trivial
    · split
      · split <;> assumption
      · split <;> assumption

theorem fmax_nn_right [f.Ok] {x y : Fl f} (h : NN (fmax x y)) (hy : NN y) : le y (fmax x y) = true := by
  by_cases hx : NN x
  · exact (fmax_spec hx hy).2.1
  · have hx : x = nan := by simpa [NN] using hx
    subst hx
    unfold fmax at h ⊢
    split
    · exact top_le hy
    · rename_i h'
      rw [if_neg h'] at h
      exact absurd rfl h

end Go.Fl
