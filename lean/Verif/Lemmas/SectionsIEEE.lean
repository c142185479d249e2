import Verif.Lemmas.Sections
import Verif.Lemmas.Bounds
import Verif.Go.Real

/-! Multiples of 400 in exact arithmetic and in `float64`. -/

namespace GosuPP
open Go

/-- In exact arithmetic every time is on the grid. -/
theorem realGrid : Grid ℝ (fun _ => True) (fun t => ⌈t / 400⌉) (fun x k => x = 400 * k) where
  start {t} _ := by
    simp only [RealArith.mul, RealArith.ceil, RealArith.div, RealArith.lit]
    push_cast
    ring
  lt {x k t} h _ := by
    subst h
    rw [Bool.eq_iff_iff, RealArith.lt, decide_eq_true_iff, Int.lt_ceil, lt_div_iff₀ (by norm_num), mul_comm]
  next {x k t} h _ _ := by
    subst h
    simp only [RealArith.add, RealArith.lit]
    push_cast
    ring

open Fl

/-- A double of size at least `2 ^ e` is a multiple of `2 ^ (e - 52)`. -/
theorem rep_multiple {v : ℚ} (h : Rep fmt64 v) {e : ℤ} (he : pow2 e ≤ |v|) :
    ∃ n : ℤ, v = n * pow2 (e - 52) := by
  obtain ⟨m, k, -, hm, rfl⟩ := h
  by_cases hk : e - 52 ≤ k
  · obtain ⟨n, hn, -⟩ := pow2_int (sub_nonneg.mpr hk)
    refine ⟨m * n, ?_⟩
    push_cast
    rw [← hn, mul_assoc, ← pow2_add]
    congr 2
    ring
  · have hk : k + 53 ≤ e := by omega
    have hmq : |(m : ℚ)| ≤ pow2 53 := by
      have : ((|m| : ℤ) : ℚ) ≤ ((2 ^ 53 : ℤ) : ℚ) := by exact_mod_cast hm
      rw [Int.cast_abs] at this
      refine this.trans (le_of_eq ?_)
      rw [pow2_eq]
      norm_num
    have h1 : |(m : ℚ) * pow2 k| ≤ pow2 e := by
      rw [abs_mul, abs_of_pos (pow2_pos k)]
      calc |(m : ℚ)| * pow2 k ≤ pow2 53 * pow2 k := mul_le_mul_of_nonneg_right hmq (pow2_pos k).le
        _ = pow2 (k + 53) := by rw [_root_.mul_comm, ← pow2_add]
        _ ≤ pow2 e := pow2_mono hk
    have h2 : |(m : ℚ) * pow2 k| = pow2 e := le_antisymm h1 he
    have h3 : pow2 e = ((2 ^ 52 : ℤ) : ℚ) * pow2 (e - 52) := by
      have : ((2 ^ 52 : ℤ) : ℚ) = pow2 52 := by rw [pow2_eq]; norm_num
      rw [this, ← pow2_add]
      congr 1
      ring
    rcases abs_eq (pow2_pos e).le |>.mp h2 with h | h
    · exact ⟨2 ^ 52, by rw [h, h3]⟩
    · exact ⟨-2 ^ 52, by rw [h, h3]; push_cast; ring⟩

theorem pow2_succ' (a : ℤ) (n : ℕ) : pow2 (a + n) = 2 ^ n * pow2 a := by
  rw [pow2_add, pow2_natCast]
  push_cast
  ring

/-- Dividing a double by 400 does not round down to the end of a section. -/
theorem rnd_div_gt {v : ℚ} (h : Rep fmt64 v) (hb : |v| ≤ pow2 56) (hl : pow2 (-900) ≤ |v|) {k : ℤ}
    (hk : (k : ℚ) < v / 400) (hk2 : |k| ≤ 2 ^ 48) : (k : ℚ) < rnd fmt64 (v / 400) := by
  by_contra hn
  have hrep : Rep fmt64 (k : ℚ) := rep_int (by decide) (hk2.trans (by norm_num))
  have he : rnd fmt64 (v / 400) = k := le_antisymm (not_lt.mp hn) (le_rnd hrep hk.le)
  have hv0 : 0 < |v| := _root_.lt_of_lt_of_le (pow2_pos _) hl
  have hq0 : v / 400 ≠ 0 := by
    have : v ≠ 0 := abs_pos.mp hv0
    exact div_ne_zero this (by norm_num)
  have hq : 0 < |v / 400| := abs_pos.mpr hq0
  have herr := rnd_error (f := fmt64) hq0
  obtain ⟨j1, j2⟩ := ilog2_spec hq
  generalize hj : ilog2 |v / 400| = j at *
  have habs : |v / 400| = |v| / 400 := by rw [abs_div]; norm_num
  rw [habs] at j1 j2
  have p48 : pow2 56 = 256 * pow2 48 := by rw [show (56 : ℤ) = 48 + (8 : ℕ) from rfl, pow2_succ']; norm_num
  have jlt : j < 48 := by
    rw [← pow2_lt]
    have h1 : |v| / 400 ≤ pow2 56 / 400 := by gcongr
    have := pow2_pos 48
    rw [p48] at h1
    linarith
  have jgt : -910 ≤ j := by
    by_contra hc
    have : pow2 (j + 1) ≤ pow2 (-910) := pow2_mono (by omega)
    have p910 : pow2 (-900) = 1024 * pow2 (-910) := by
      rw [show (-900 : ℤ) = -910 + (10 : ℕ) from rfl, pow2_succ']; norm_num
    rw [p910] at hl
    have := pow2_pos (-910)
    linarith
  have hulp : ulpExp fmt64 |v / 400| = j - 52 := by
    unfold ulpExp
    rw [hj]
    show max (j + 1 - 53) (-1074) = j - 52
    omega
  rw [hulp, he, abs_sub_comm, abs_of_pos (sub_pos.mpr hk)] at herr
  -- `v` and `400 k` are multiples of `2 ^ (j - 44)`
  have p8 : pow2 (j + 8) = 256 * pow2 j := by rw [show j + 8 = j + (8 : ℕ) from rfl, pow2_succ']; norm_num
  have hvj : pow2 (j + 8) ≤ |v| := by
    have := pow2_pos j
    rw [p8]
    linarith
  obtain ⟨n, hn'⟩ := rep_multiple h hvj
  have e8 : j + 8 - 52 = j - 44 := by ring
  rw [e8] at hn'
  obtain ⟨w, hw, -⟩ := pow2_int (e := 4 - (j - 44)) (by omega)
  have h16 : (16 : ℚ) = w * pow2 (j - 44) := by
    rw [← hw, ← pow2_add, show (4 - (j - 44) + (j - 44) : ℤ) = 4 by ring, pow2_eq]
    norm_num
  have hdiff : v - 400 * k = ((n - 25 * w * k : ℤ) : ℚ) * pow2 (j - 44) := by
    rw [hn', show (400 : ℚ) = 25 * 16 by norm_num]
    conv_lhs => rw [h16]
    push_cast
    ring
  have hpos : 0 < v - 400 * k := by
    rw [lt_div_iff₀ (by norm_num)] at hk
    linarith
  have hN : 1 ≤ n - 25 * w * k := by
    rw [hdiff] at hpos
    have : (0 : ℚ) < ((n - 25 * w * k : ℤ) : ℚ) := (mul_pos_iff_of_pos_right (pow2_pos (j - 44))).mp hpos
    exact_mod_cast this
  have hge : pow2 (j - 44) ≤ v - 400 * k := by
    rw [hdiff]
    have : (1 : ℚ) ≤ ((n - 25 * w * k : ℤ) : ℚ) := by exact_mod_cast hN
    nlinarith [pow2_pos (j - 44)]
  have p44 : pow2 (j - 44) = 256 * pow2 (j - 52) := by
    rw [show j - 44 = j - 52 + (8 : ℕ) by push_cast; ring, pow2_succ']; norm_num
  have := pow2_pos (j - 52)
  have hx : v - 400 * k = 400 * (v / 400 - k) := by ring
  rw [hx, p44] at hge
  linarith

theorem ceil_rnd_div {v : ℚ} (h : Rep fmt64 v) (hb : |v| ≤ pow2 56) (hl : v = 0 ∨ pow2 (-900) ≤ |v|) :
    ⌈rnd fmt64 (v / 400)⌉ = ⌈v / 400⌉ ∧ |⌈v / 400⌉| ≤ 2 ^ 48 - 1 := by
  have p56 : pow2 56 = 2 ^ 56 := by rw [pow2_eq]; norm_num
  rw [p56, abs_le] at hb
  have hc : |⌈v / 400⌉| ≤ 2 ^ 48 - 1 := by
    rw [abs_le]
    constructor
    · have : ((-(2 ^ 48 - 1 : ℤ) : ℤ) : ℚ) < ⌈v / 400⌉ + 1 := by
        have := Int.le_ceil (v / 400)
        push_cast
        linarith [hb.1]
      have : -(2 ^ 48 - 1 : ℤ) < ⌈v / 400⌉ + 1 := by exact_mod_cast this
      omega
    · rw [Int.ceil_le]
      push_cast
      linarith [hb.2]
  refine ⟨?_, hc⟩
  rcases hl with rfl | hl
  · simp [rnd_zero]
  have hc' := abs_le.mp hc
  have hrep : ∀ k : ℤ, |k| ≤ 2 ^ 48 → Rep fmt64 (k : ℚ) := fun k hk =>
    rep_int (by decide) (hk.trans (by norm_num))
  refine le_antisymm ?_ ?_
  · rw [Int.ceil_le]
    exact rnd_le (hrep _ (hc.trans (by norm_num))) (Int.le_ceil _)
  · rw [← Int.sub_one_lt_iff, Int.lt_ceil]
    have hk : |⌈v / 400⌉ - 1| ≤ 2 ^ 48 := by rw [abs_le]; constructor <;> omega
    refine rnd_div_gt h (by rw [p56, abs_le]; exact hb) hl ?_ hk
    have := Int.ceil_lt_add_one (v / 400)
    push_cast
    linarith

theorem ceil_fin (f : Fmt) (v : ℚ) (b : Bool) : ∃ c, (Fl.ceil (fin v b : Fl f)) = fin ((⌈v⌉ : ℤ) : ℚ) c := by
  unfold Fl.ceil Fl.neg Fl.floor
  simp only
  by_cases hv : v = 0
  · subst hv
    simp
  · rw [if_neg (by simpa using hv)]
    refine ⟨decide (((⌊-v⌋ : ℤ) : ℚ) = 0) && !false, ?_⟩
    simp only [Int.floor_neg]
    push_cast
    rw [neg_neg]

/-- Times that are exact multiples of an ulp of moderate size. -/
def Moderate (t : F64) : Prop :=
  ∃ v b, t = fin v b ∧ Rep fmt64 v ∧ |v| ≤ pow2 56 ∧ (v = 0 ∨ pow2 (-900) ≤ |v|)

/-- The section of a `float64` time. -/
def sectionOf : F64 → ℤ
  | .fin v _ => ⌈v / 400⌉
  | _ => 0

/-- `x` is the multiple `400 k`. -/
def AtEnd (x : F64) (k : ℤ) : Prop := (∃ b, x = fin (400 * k) b) ∧ |k| ≤ 2 ^ 48

theorem lit400 : (lit 400 : F64) = fin 400 false := by
  rw [go_lit]
  have h : Rep fmt64 (400 : ℚ) := by
    have := Go.rep_int (f := fmt64) (n := 400) (by decide) (by norm_num)
    exact_mod_cast this
  have hb : |(400 : ℚ)| < pow2 (1024 : ℤ) := by
    have : pow2 (10 : ℤ) < pow2 (1024 : ℤ) := pow2_lt.mpr (by norm_num)
    have h10 : pow2 (10 : ℤ) = 1024 := by rw [pow2_eq]; norm_num
    rw [h10] at this
    rw [abs_of_pos (by norm_num)]
    linarith
  rw [ofRat_of_rep h hb]
  rfl

theorem small_lt {q : ℚ} {e : ℤ} (h : |q| ≤ pow2 e) (he : e < 1024) : |q| < pow2 fmt64.emax :=
  _root_.lt_of_le_of_lt h (pow2_lt.mpr he)

theorem multiple_rep {k : ℤ} (h : |k| ≤ 2 ^ 48) : Rep fmt64 (400 * k : ℚ) := by
  refine ⟨25 * k, 4, by decide, ?_, ?_⟩
  · rw [abs_mul]
    show |(25 : ℤ)| * |k| ≤ 2 ^ 53
    have : |(25 : ℤ)| = 25 := rfl
    rw [this]
    have : (25 : ℤ) * |k| ≤ 25 * 2 ^ 48 := by omega
    refine this.trans (by norm_num)
  · have : pow2 4 = 16 := by rw [pow2_eq]; norm_num
    rw [this]
    push_cast
    ring

theorem multiple_small {k : ℤ} (h : |k| ≤ 2 ^ 48) : |(400 * k : ℚ)| ≤ pow2 57 := by
  have h1 : |(k : ℚ)| ≤ 2 ^ 48 := by
    have : ((|k| : ℤ) : ℚ) ≤ ((2 ^ 48 : ℤ) : ℚ) := by exact_mod_cast h
    rw [Int.cast_abs] at this
    exact_mod_cast this
  have h2 : pow2 57 = 2 ^ 57 := by rw [pow2_eq]; norm_num
  rw [abs_mul, abs_of_pos (by norm_num), h2]
  linarith

/-- In `float64` every moderate time is on the grid. -/
theorem ieeeGrid : Grid F64 Moderate sectionOf AtEnd where
  start {t} h := by
    obtain ⟨v, b, rfl, hr, hb, hl⟩ := h
    obtain ⟨h1, h2⟩ := ceil_rnd_div hr hb hl
    rw [lit400, go_div, go_mul]
    have hq : |v / 400| ≤ pow2 56 := by
      rw [abs_div, abs_of_pos (by norm_num : (0:ℚ) < 400)]
      have := abs_nonneg v
      linarith
    have hd : ∃ c, Fl.div (fin v b : F64) (fin 400 false) = fin (rnd fmt64 (v / 400)) c := by
      unfold Fl.div ofRat
      simp only
      rw [if_neg (by norm_num), if_neg]
      · exact ⟨_, rfl⟩
      · have h56 : Rep fmt64 (pow2 56) := Go.rep_pow2 (by decide)
        have : |rnd fmt64 (v / 400)| ≤ pow2 56 := by
          rw [abs_le] at hq ⊢
          exact ⟨le_rnd h56.neg hq.1, rnd_le h56 hq.2⟩
        exact not_le.mpr (small_lt this (by norm_num))
    obtain ⟨c, hc⟩ := hd
    rw [hc]
    obtain ⟨c2, hc2⟩ := ceil_fin fmt64 (rnd fmt64 (v / 400)) c
    have hg : (GoFloat.ceil (fin (rnd fmt64 (v / 400)) c : F64)) = fin ((⌈v / 400⌉ : ℤ) : ℚ) c2 := by
      rw [← h1]; exact hc2
    rw [hg]
    refine ⟨?_, h2.trans (by norm_num)⟩
    show ∃ b, ofRat fmt64 _ _ = _
    rw [_root_.mul_comm]
    have hk : |⌈v / 400⌉| ≤ 2 ^ 48 := h2.trans (by norm_num)
    rw [ofRat_of_rep (multiple_rep hk) (small_lt (multiple_small hk) (by norm_num))]
    exact ⟨_, rfl⟩
  lt {x k t} hx ht := by
    obtain ⟨v, b, rfl, hr, hb, hl⟩ := ht
    obtain ⟨⟨c, rfl⟩, hk⟩ := hx
    rw [go_lt, Bool.eq_iff_iff, lt_fin_iff, decide_eq_true_iff]
    unfold sectionOf
    rw [Int.lt_ceil, lt_div_iff₀ (by norm_num), _root_.mul_comm]
  next {x k t} hx ht hlt := by
    obtain ⟨v, b, rfl, hr, hb, hl⟩ := ht
    obtain ⟨⟨c, rfl⟩, hk⟩ := hx
    obtain ⟨-, h2⟩ := ceil_rnd_div hr hb hl
    have hlt : k < ⌈v / 400⌉ := hlt
    have hk1 : |k + 1| ≤ 2 ^ 48 := by
      rw [abs_le] at hk h2 ⊢
      constructor <;> omega
    refine ⟨?_, hk1⟩
    rw [lit400, go_add]
    show ∃ b, ofRat fmt64 _ _ = _
    have e : (400 * k + 400 : ℚ) = 400 * ((k + 1 : ℤ) : ℚ) := by push_cast; ring
    rw [e, ofRat_of_rep (multiple_rep hk1) (small_lt (multiple_small hk1) (by norm_num))]
    exact ⟨_, rfl⟩

/-- A time of at most `2 ^ 53` ms, zero or at least `2 ^ -800` ms, on a clock of rate between 1/8
and `2 ^ 100`, is moderate. -/
theorem moderate_div {n : ℚ} (hn : |n| ≤ 2 ^ 53) (hn0 : n = 0 ∨ pow2 (-800) ≤ |n|) {s : ℚ} {b c : Bool}
    (hs : 1 / 8 ≤ s) (hs' : s ≤ pow2 100) :
    Moderate (Fl.div (fin n b) (fin s c)) ∧
      ∃ c', Fl.div (fin n b : F64) (fin s c) = fin (rnd fmt64 (n / s)) c' := by
  have hs0 : 0 < s := by linarith
  have hq : |n / s| ≤ pow2 56 := by
    rw [abs_div, abs_of_pos hs0, div_le_iff₀ hs0]
    have : pow2 56 = 2 ^ 56 := by rw [pow2_eq]; norm_num
    rw [this]
    nlinarith
  have h56 : Rep fmt64 (pow2 56) := Go.rep_pow2 (by decide)
  have hr : |rnd fmt64 (n / s)| ≤ pow2 56 := by
    rw [abs_le] at hq ⊢
    exact ⟨le_rnd h56.neg hq.1, rnd_le h56 hq.2⟩
  have hd : ∃ c', Fl.div (fin n b : F64) (fin s c) = fin (rnd fmt64 (n / s)) c' := by
    unfold Fl.div ofRat
    simp only
    rw [if_neg hs0.ne', if_neg (not_le.mpr (small_lt hr (by norm_num)))]
    exact ⟨_, rfl⟩
  refine ⟨?_, hd⟩
  obtain ⟨c', hc'⟩ := hd
  refine ⟨_, _, hc', rnd_rep _, hr, ?_⟩
  rcases hn0 with rfl | hn0
  · left; simp [rnd_zero]
  · right
    refine abs_rnd_ge ?_ (by decide)
    rw [abs_div, abs_of_pos hs0, le_div_iff₀ hs0]
    have h2 : pow2 (-900) * s ≤ pow2 (-900) * pow2 100 := mul_le_mul_of_nonneg_left hs' (pow2_pos _).le
    rw [← pow2_add] at h2
    have : (-900 + 100 : ℤ) = -800 := by norm_num
    rw [this] at h2
    exact h2.trans hn0

end GosuPP
