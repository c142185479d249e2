import Verif.Lemmas.Bezier
import Verif.Lemmas.PathTrim
import Mathlib.Tactic.Linarith
import Mathlib.Tactic.Ring

/-! Subdivision of Bezier curves in float32: midpoints stay within the square of the control points, and
second differences shrink up to rounding. -/

namespace GosuPP
open Go Fl Approximator
open GosuPP.Fl (NN0)

/-- The value of a finite number. -/
def rv : F32 → ℚ
  | fin v _ => v
  | _ => 0

/-- Halving is exact except for the smallest numbers. -/
theorem half_error {s : ℚ} (h : Rep fmt32 s) : |rnd fmt32 (s * (1 / 2)) - s * (1 / 2)| ≤ 1 / 2 ^ 148 := by
  obtain ⟨m, e, he, hm, rfl⟩ := h
  have hp : (0:ℚ) < 1 / 2 ^ 148 := by positivity
  rcases _root_.lt_or_eq_of_le he with hlt | heq
  · have : Rep fmt32 ((m : ℚ) * pow2 e * (1 / 2)) := by
      refine ⟨m, e - 1, by omega, hm, ?_⟩
      have h2 : pow2 e = pow2 (e - 1) * 2 := by
        rw [show (2:ℚ) = pow2 1 from rfl, ← pow2_add]
        congr 1
        omega
      rw [h2]
      ring
    rw [rnd_of_rep this, sub_self, abs_zero]
    exact hp.le
  · have r := rnd32_error ((m : ℚ) * pow2 e * (1 / 2))
    have e149 : pow2 e = 1 / 2 ^ 149 := by
      rw [← heq, show fmt32.emin = -((149 : ℕ) : ℤ) from rfl, pow2_eq, zpow_neg]
      norm_num
    have hm' : |(m : ℚ)| ≤ 2 ^ 24 := by exact_mod_cast hm
    have hb : |(m : ℚ) * pow2 e * (1 / 2)| ≤ 2 ^ 24 * (1 / 2 ^ 149) * (1 / 2) := by
      rw [abs_mul, abs_mul, e149, abs_of_pos (by positivity : (0:ℚ) < 1 / 2 ^ 149), abs_of_pos (by norm_num : (0:ℚ) < 1 / 2)]
      have := mul_le_mul_of_nonneg_right hm' (by positivity : (0:ℚ) ≤ 1 / 2 ^ 149)
      linarith
    refine r.trans ?_
    have h1 := div_le_div_of_nonneg_right hb (by positivity : (0:ℚ) ≤ 2 ^ 24)
    refine (add_le_add_left h1 _).trans ?_
    norm_num

theorem half_lit : (lit 0.5 : F32) = fin (1 / 2) false := by
  have := ofRat_of_rep (f := fmt32) (q := 1 / 2) (by
    have := Go.rep_pow2 (f := fmt32) (e := -1) (by decide)
    have e : pow2 (-1) = 1 / 2 := by rw [pow2_eq]; norm_num
    rwa [e] at this) (by rw [abs_of_pos (by norm_num)]; have : pow2 0 ≤ pow2 128 := pow2_mono (by norm_num); have e : pow2 0 = 1 := rfl; rw [show fmt32.emax = 128 from rfl]; linarith) false
  rw [decide_eq_false (by norm_num), Bool.false_and] at this
  rw [← this]
  show ofRat fmt32 0.5 false = _
  norm_num

theorem rep32_pow (k : ℕ) : Rep fmt32 (2 ^ k : ℚ) := by
  rw [← pow2_nat]
  exact Go.rep_pow2 (by show (-149 : ℤ) ≤ k; omega)

theorem pow_le_120 {k : ℕ} (hk : k ≤ 100) : (2:ℚ) ^ (k + 4) ≤ 2 ^ 120 := pow_le_pow_right₀ (by norm_num) (by omega)

theorem rnd_abs_le {k : ℕ} {q : ℚ} (h : |q| ≤ 2 ^ k) : |rnd fmt32 q| ≤ 2 ^ k := by
  rw [abs_le] at h ⊢
  exact ⟨le_rnd (rep32_pow k).neg h.1, rnd_le (rep32_pow k) h.2⟩

theorem mid_spec {k : ℕ} (hk : k ≤ 100) {a b : F32} (ha : Bd k a) (hb : Bd k b) :
    Bd k ((a +. b) *. lit 0.5) ∧ |rv ((a +. b) *. lit 0.5) - (rv a + rv b) / 2| ≤ 2 ^ k / 2 ^ 24 + 1 / 2 ^ 140 := by
  obtain ⟨v, za, rfl, hv⟩ := ha
  obtain ⟨w, zb, rfl, hw⟩ := hb
  rw [pow2_nat] at hv hw
  have hk4 := pow_le_120 hk
  have e4 : (2:ℚ) ^ (k + 4) = 16 * 2 ^ k := by rw [pow_add]; ring
  have e1 : (2:ℚ) ^ (k + 1) = 2 * 2 ^ k := by rw [pow_add]; ring
  have pk : (0:ℚ) < 2 ^ k := by positivity
  have hq : |v + w| ≤ 2 ^ (k + 1) := by
    have := abs_add_le v w
    linarith
  obtain ⟨c1, g1⟩ := ofRat32_fin (q := v + w) (by linarith) (signbit (fin v za : F32) && signbit (fin w zb : F32))
  have g1' : (fin v za : F32) +. fin w zb = fin (rnd fmt32 (v + w)) c1 := g1
  have s1 := rnd_abs_le hq
  have s2 : |rnd fmt32 (v + w) * (1 / 2)| ≤ 2 ^ k := by
    rw [abs_mul, abs_of_pos (by norm_num : (0:ℚ) < 1 / 2)]
    linarith
  obtain ⟨c2, g2⟩ := ofRat32_fin (q := rnd fmt32 (v + w) * (1 / 2)) (by linarith)
    (Bool.xor (signbit (fin (rnd fmt32 (v + w)) c1 : F32)) (signbit (fin (1 / 2) false : F32)))
  have g2' : ((fin v za : F32) +. fin w zb) *. lit 0.5 = fin (rnd fmt32 (rnd fmt32 (v + w) * (1 / 2))) c2 := by
    rw [g1', half_lit]
    exact g2
  rw [g2']
  refine ⟨⟨_, _, rfl, ?_⟩, ?_⟩
  · rw [pow2_nat]
    exact rnd_abs_le s2
  · show |rnd fmt32 (rnd fmt32 (v + w) * (1 / 2)) - (v + w) / 2| ≤ _
    have r1 := rnd32_error (v + w)
    have r2 := half_error (Go.rnd_rep (f := fmt32) (v + w))
    have r3 := div_le_div_of_nonneg_right hq (by positivity : (0:ℚ) ≤ 2 ^ 24)
    have t : (1:ℚ) / 2 ^ 150 / 2 + 1 / 2 ^ 148 ≤ 1 / 2 ^ 140 := by norm_num
    have e5 : (2:ℚ) ^ (k + 1) / 2 ^ 24 = 2 * (2 ^ k / 2 ^ 24) := by rw [e1]; ring
    rw [abs_le] at r1 r2 ⊢
    constructor <;> linarith [r1.1, r1.2, r2.1, r2.2]

/-! ### Sequences of midpoints with errors -/

/-- Second difference. -/
def dd (p : ℕ → ℚ) (k : ℕ) : ℚ := p k - 2 * p (k + 1) + p (k + 2)

/-- Rows of midpoints, each up to `δ`. -/
def Mids (δ : ℚ) (N : ℕ) (T : ℕ → ℕ → ℚ) : Prop :=
  ∀ i j, i + 1 + j ≤ N → |T (i + 1) j - (T i j + T i (j + 1)) / 2| ≤ δ

theorem dd_row {δ M : ℚ} {N : ℕ} {T : ℕ → ℕ → ℚ} (hT : Mids δ N T) (h : ∀ k, k + 2 ≤ N → |dd (T 0) k| ≤ M) (i : ℕ) :
    ∀ k, k + 2 + i ≤ N → |dd (T i) k| ≤ M + 4 * δ * i := by
  induction i with
  | zero => intro k hk; simpa using h k (by omega)
  | succ i ih =>
    intro k hk
    have h1 := abs_le.mp (ih k (by omega))
    have h2 := abs_le.mp (ih (k + 1) (by omega))
    have a1 := abs_le.mp (hT i k (by omega))
    have a2 := abs_le.mp (hT i (k + 1) (by omega))
    have a3 := abs_le.mp (hT i (k + 2) (by omega))
    unfold dd at *
    rw [abs_le]
    push_cast
    simp only [Nat.add_assoc] at *
    norm_num at *
    constructor <;> linarith [h1.1, h1.2, h2.1, h2.2, a1.1, a1.2, a2.1, a2.2, a3.1, a3.2]

theorem dd_left {δ M : ℚ} {N : ℕ} {T : ℕ → ℕ → ℚ} (hT : Mids δ N T) (h : ∀ k, k + 2 ≤ N → |dd (T 0) k| ≤ M) :
    ∀ k, k + 2 ≤ N → |dd (fun i => T i 0) k| ≤ M / 4 + δ * (k + 3) := by
  intro k hk
  have h1 := abs_le.mp (dd_row hT h k 0 (by omega))
  have a1 := abs_le.mp (hT (k + 1) 0 (by omega))
  have a2 := abs_le.mp (hT k 0 (by omega))
  have a3 := abs_le.mp (hT k 1 (by omega))
  unfold dd at *
  rw [abs_le]
  simp only [Nat.zero_add, Nat.add_assoc, Nat.reduceAdd] at *
  constructor <;> linarith [h1.1, h1.2, a1.1, a1.2, a2.1, a2.2, a3.1, a3.2]

theorem dd_right {δ M : ℚ} {N : ℕ} {T : ℕ → ℕ → ℚ} (hT : Mids δ N T) (h : ∀ k, k + 2 ≤ N → |dd (T 0) k| ≤ M) :
    ∀ k, k + 2 ≤ N → |dd (fun j => T (N - j) j) k| ≤ M / 4 + δ * ((N - (k + 2) : ℕ) + 3) := by
  intro k hk
  obtain ⟨m, rfl⟩ : ∃ m, N = k + 2 + m := ⟨N - (k + 2), by omega⟩
  have h1 := abs_le.mp (dd_row hT h m k (by omega))
  have a1 := abs_le.mp (hT (m + 1) k (by omega))
  have a2 := abs_le.mp (hT m k (by omega))
  have a3 := abs_le.mp (hT m (k + 1) (by omega))
  have e1 : k + 2 + m - k = m + 1 + 1 := by omega
  have e2 : k + 2 + m - (k + 1) = m + 1 := by omega
  have e3 : k + 2 + m - (k + 2) = m := by omega
  unfold dd at *
  rw [abs_le]
  beta_reduce
  rw [e1, e2, e3]
  simp only [Nat.add_assoc, Nat.reduceAdd] at *
  constructor <;> linarith [h1.1, h1.2, a1.1, a1.2, a2.1, a2.2, a3.1, a3.2]

/-! ### The triangle -/

/-- All points lie in the square of side `2 ^ (k + 1)` around the origin. -/
def AllIn (k : ℕ) (cps : List (Vec F32)) : Prop := ∀ p ∈ cps, VBd k p

theorem AllIn.getD {k : ℕ} {cps : List (Vec F32)} (h : AllIn k cps) {j : ℕ} (hj : j < cps.length) :
    VBd k (cps.getD j Vec.zero) := by
  rw [List.getD_eq_getElem?_getD, List.getElem?_eq_getElem hj]
  exact h _ (List.getElem_mem hj)

theorem triangle_in {k : ℕ} (hk : k ≤ 100) {cps : List (Vec F32)} (h : AllIn k cps) (i : ℕ) :
    ∀ j, i + j < cps.length → VBd k (Spec.triangle cps i j) := by
  induction i with
  | zero => intro j hj; exact h.getD (by omega)
  | succ i ih =>
    intro j hj
    have h1 := ih j (by omega)
    have h2 := ih (j + 1) (by omega)
    exact ⟨(mid_spec hk h1.1 h2.1).1, (mid_spec hk h1.2 h2.2).1⟩

theorem mids_x {k : ℕ} (hk : k ≤ 100) {cps : List (Vec F32)} (h : AllIn k cps) :
    Mids (2 ^ k / 2 ^ 24 + 1 / 2 ^ 140) (cps.length - 1) (fun i j => rv (Spec.triangle cps i j).x) := by
  intro i j hj
  exact (mid_spec hk (triangle_in hk h i j (by omega)).1 (triangle_in hk h i (j + 1) (by omega)).1).2

theorem mids_y {k : ℕ} (hk : k ≤ 100) {cps : List (Vec F32)} (h : AllIn k cps) :
    Mids (2 ^ k / 2 ^ 24 + 1 / 2 ^ 140) (cps.length - 1) (fun i j => rv (Spec.triangle cps i j).y) := by
  intro i j hj
  exact (mid_spec hk (triangle_in hk h i j (by omega)).2 (triangle_in hk h i (j + 1) (by omega)).2).2

theorem leftHalf_in {k : ℕ} (hk : k ≤ 100) {cps : List (Vec F32)} (h : AllIn k cps) : AllIn k (Spec.leftHalf cps) := by
  intro p hp
  simp only [Spec.leftHalf, List.mem_map, List.mem_range] at hp
  obtain ⟨i, hi, rfl⟩ := hp
  exact triangle_in hk h i 0 (by omega)

theorem rightHalf_in {k : ℕ} (hk : k ≤ 100) {cps : List (Vec F32)} (h : AllIn k cps) : AllIn k (Spec.rightHalf cps) := by
  intro p hp
  simp only [Spec.rightHalf, List.mem_map, List.mem_range] at hp
  obtain ⟨i, hi, rfl⟩ := hp
  exact triangle_in hk h _ i (by omega)

/-- Second differences of both coordinates are at most `M`. -/
def SmallDD (M : ℚ) (cps : List (Vec F32)) : Prop :=
  ∀ k, k + 2 ≤ cps.length - 1 → |dd (fun k => rv (cps.getD k Vec.zero).x) k| ≤ M ∧
    |dd (fun k => rv (cps.getD k Vec.zero).y) k| ≤ M

theorem smallDD_halves {k : ℕ} (hk : k ≤ 100) {M : ℚ} {cps : List (Vec F32)} (h : AllIn k cps) (hM : SmallDD M cps) :
    SmallDD (M / 4 + (2 ^ k / 2 ^ 24 + 1 / 2 ^ 140) * cps.length) (Spec.leftHalf cps) ∧
      SmallDD (M / 4 + (2 ^ k / 2 ^ 24 + 1 / 2 ^ 140) * cps.length) (Spec.rightHalf cps) := by
  have hd : (0:ℚ) ≤ 2 ^ k / 2 ^ 24 + 1 / 2 ^ 140 := by positivity
  have mx := mids_x hk h
  have my := mids_y hk h
  generalize (2 ^ k / 2 ^ 24 + 1 / 2 ^ 140 : ℚ) = δ at hd mx my ⊢
  have wk : ∀ m : ℕ, m ≤ cps.length → δ * m ≤ δ * cps.length := fun m hm =>
    mul_le_mul_of_nonneg_left (by exact_mod_cast hm) hd
  constructor
  · intro i hi
    rw [leftHalf_length] at hi
    have e : ∀ j, j ≤ i + 2 → (Spec.leftHalf cps).getD j Vec.zero = Spec.triangle cps j 0 :=
      fun j hj => leftHalf_getD cps (by omega)
    have h1 := dd_left mx (fun k hk => (hM k hk).1) i hi
    have h2 := dd_left my (fun k hk => (hM k hk).2) i hi
    have h3 := wk (i + 3) (by omega)
    push_cast at h3
    unfold dd at h1 h2 ⊢
    beta_reduce at h1 h2 ⊢
    rw [e i (by omega), e (i + 1) (by omega), e (i + 2) (by omega)]
    exact ⟨h1.trans (by linarith), h2.trans (by linarith)⟩
  · intro i hi
    rw [rightHalf_length] at hi
    have e : ∀ j, j ≤ i + 2 → (Spec.rightHalf cps).getD j Vec.zero = Spec.triangle cps (cps.length - 1 - j) j :=
      fun j hj => rightHalf_getD cps (by omega)
    have h1 := dd_right mx (fun k hk => (hM k hk).1) i hi
    have h2 := dd_right my (fun k hk => (hM k hk).2) i hi
    have h3 := wk (cps.length - 1 - (i + 2) + 3) (by omega)
    push_cast at h3
    unfold dd at h1 h2 ⊢
    beta_reduce at h1 h2 ⊢
    rw [e i (by omega), e (i + 1) (by omega), e (i + 2) (by omega)]
    exact ⟨h1.trans (by linarith), h2.trans (by linarith)⟩

/-! ### Flatness and the points put out -/

theorem two_lit32 : (lit 2 : F32) = fin 2 false := by
  have := ofRat_of_rep (f := fmt32) (q := 2) (by simpa using rep32_pow 1)
    (by rw [abs_of_pos (by norm_num)]; have : pow2 1 < pow2 128 := pow2_lt.mpr (by norm_num); exact this) false
  rw [decide_eq_false (by norm_num), Bool.false_and] at this
  exact this

theorem quarter_lit32 : (lit 0.25 : F32) = fin (1 / 4) false := by
  have := ofRat_of_rep (f := fmt32) (q := 1 / 4) (by
    have := Go.rep_pow2 (f := fmt32) (e := -2) (by decide)
    have e : pow2 (-2) = 1 / 4 := by rw [pow2_eq]; norm_num
    rwa [e] at this) (by rw [abs_of_pos (by norm_num)]; have : pow2 0 ≤ pow2 128 := pow2_mono (by norm_num); have e : pow2 0 = 1 := rfl; rw [show fmt32.emax = 128 from rfl]; linarith) false
  rw [decide_eq_false (by norm_num), Bool.false_and] at this
  rw [← this]
  show ofRat fmt32 0.25 false = _
  norm_num

theorem op_error {q B : ℚ} (h : |q| ≤ B) (hB : B ≤ 2 ^ 120) (z : Bool) :
    ∃ r c, ofRat fmt32 q z = fin r c ∧ |r - q| ≤ B / 2 ^ 24 + 1 / 2 ^ 150 := by
  obtain ⟨c, hc⟩ := ofRat32_fin (h.trans hB) z
  refine ⟨_, c, hc, (rnd32_error q).trans ?_⟩
  have := div_le_div_of_nonneg_right h (by positivity : (0:ℚ) ≤ 2 ^ 24)
  linarith

theorem bend_coord {a b c : F32} (ha : Bd ((17 : ℕ) : ℤ) a) (hb : Bd ((17 : ℕ) : ℤ) b) (hc : Bd ((17 : ℕ) : ℤ) c) :
    ∃ x z, (a -. b *. lit 2) +. c = fin x z ∧ |x - (rv a - 2 * rv b + rv c)| ≤ 71 / 1000 := by
  obtain ⟨u, zu, rfl, hu⟩ := ha
  obtain ⟨v, zv, rfl, hv⟩ := hb
  obtain ⟨w, zw, rfl, hw⟩ := hc
  rw [pow2_nat] at hu hv hw
  have hu' := abs_le.mp hu
  have hv' := abs_le.mp hv
  have hw' := abs_le.mp hw
  obtain ⟨r1, c1, g1, e1⟩ := op_error (q := v * 2) (B := 2 ^ 18) (by rw [abs_le]; constructor <;> linarith [hv'.1, hv'.2]) (by norm_num)
    (Bool.xor (signbit (fin v zv : F32)) (signbit (fin 2 false : F32)))
  have k1 : (fin v zv : F32) *. lit 2 = fin r1 c1 := by rw [two_lit32]; exact g1
  have e1' := abs_le.mp e1
  have t1 : (2:ℚ) ^ 18 / 2 ^ 24 + 1 / 2 ^ 150 ≤ 1 / 60 := by norm_num
  obtain ⟨r2, c2, g2, e2⟩ := op_error (q := u + -r1) (B := 3 * 2 ^ 17 + 1) (by rw [abs_le]; constructor <;> linarith [hv'.1, hv'.2, hu'.1, hu'.2, e1'.1, e1'.2])
    (by norm_num) (signbit (fin u zu : F32) && signbit (neg (fin r1 c1) : F32))
  have k2 : (fin u zu : F32) -. (fin v zv : F32) *. lit 2 = fin r2 c2 := by rw [k1]; exact g2
  have e2' := abs_le.mp e2
  have t2 : (3 * (2:ℚ) ^ 17 + 1) / 2 ^ 24 + 1 / 2 ^ 150 ≤ 1 / 40 := by norm_num
  obtain ⟨r3, c3, g3, e3⟩ := op_error (q := r2 + w) (B := 2 ^ 19 + 1) (by rw [abs_le]; constructor <;> linarith [hv'.1, hv'.2, hu'.1, hu'.2, hw'.1, hw'.2, e1'.1, e1'.2, e2'.1, e2'.2])
    (by norm_num) (signbit (fin r2 c2 : F32) && signbit (fin w zw : F32))
  have e3' := abs_le.mp e3
  refine ⟨r3, c3, by rw [k2]; exact g3, ?_⟩
  show |r3 - (u - 2 * v + w)| ≤ _
  have t3 : ((2:ℚ) ^ 18 / 2 ^ 24 + 1 / 2 ^ 150) + ((3 * 2 ^ 17 + 1) / 2 ^ 24 + 1 / 2 ^ 150) + ((2 ^ 19 + 1) / 2 ^ 24 + 1 / 2 ^ 150) ≤ 71 / 1000 := by norm_num
  rw [abs_le]
  constructor <;> linarith [e1'.1, e1'.2, e2'.1, e2'.2, e3'.1, e3'.2]

theorem square_small {x : ℚ} {z : Bool} (h : |x| ≤ 34 / 100) :
    ∃ y c, (fin x z : F32) *. fin x z = fin y c ∧ y ≤ 12 / 100 ∧ 0 ≤ y := by
  have hx : x * x ≤ 34 / 100 * (34 / 100) := by
    rw [← abs_mul_abs_self x]
    exact mul_self_le_mul_self (abs_nonneg x) h
  have hx0 : 0 ≤ x * x := mul_self_nonneg x
  obtain ⟨c, hc⟩ := ofRat32_fin (q := x * x) (by rw [abs_of_nonneg hx0]; exact hx.trans (by norm_num)) (Bool.xor (signbit (fin x z : F32)) (signbit (fin x z : F32)))
  refine ⟨_, c, hc, ?_, rnd_nonneg hx0⟩
  have r := rnd32_error (x * x)
  rw [abs_of_nonneg hx0] at r
  have r' := (abs_le.mp r).2
  have t : (34 / 100 * (34 / 100) : ℚ) / 2 ^ 24 + 1 / 2 ^ 150 ≤ 1 / 1000 := by norm_num
  have := div_le_div_of_nonneg_right hx (by positivity : (0:ℚ) ≤ 2 ^ 24)
  linarith

theorem flat_of_smallDD {cps : List (Vec F32)} (hin : AllIn 17 cps) (h : SmallDD (269 / 1000) cps) : Spec.flat cps := by
  intro i a b c ha hb hc
  have hi : i + 2 < cps.length := (List.getElem?_eq_some_iff.mp hc).1
  obtain ⟨hx, hy⟩ := h i (by omega)
  unfold dd at hx hy
  simp only [List.getD_eq_getElem?_getD, ha, hb, hc, Option.getD_some] at hx hy
  have ia := hin a (List.mem_of_getElem? ha)
  have ib := hin b (List.mem_of_getElem? hb)
  have ic := hin c (List.mem_of_getElem? hc)
  obtain ⟨x, zx, ex, dx⟩ := bend_coord ia.1 ib.1 ic.1
  obtain ⟨y, zy, ey, dy⟩ := bend_coord ia.2 ib.2 ic.2
  have hx' : |x| ≤ 34 / 100 := by
    rw [abs_le] at hx dx ⊢
    constructor <;> linarith [hx.1, hx.2, dx.1, dx.2]
  have hy' : |y| ≤ 34 / 100 := by
    rw [abs_le] at hy dy ⊢
    constructor <;> linarith [hy.1, hy.2, dy.1, dy.2]
  obtain ⟨p, zp, ep, p1, p0⟩ := square_small (z := zx) hx'
  obtain ⟨q, zq, eq, q1, q0⟩ := square_small (z := zy) hy'
  obtain ⟨r, zr, er, dr⟩ := op_error (q := p + q) (B := 1) (by rw [abs_le]; constructor <;> linarith) (by norm_num)
    (signbit (fin p zp : F32) && signbit (fin q zq : F32))
  have key : (Vec.add (Vec.sub a (Vec.scl b (lit 2))) c).lenSq = (fin r zr : F32) := by
    show ((a.x -. b.x *. lit 2) +. c.x) *. ((a.x -. b.x *. lit 2) +. c.x) +. ((a.y -. b.y *. lit 2) +. c.y) *. ((a.y -. b.y *. lit 2) +. c.y) = _
    rw [ex, ey, ep, eq]
    exact er
  rw [key, quarter_lit32]
  show Fl.lt (fin (1 / 4) false : F32) (fin r zr) = false
  have t : (1:ℚ) / 2 ^ 24 + 1 / 2 ^ 150 ≤ 1 / 1000 := by norm_num
  have := (abs_le.mp dr).2
  exact decide_eq_false (by linarith)

theorem pieces_length (cps : List (Vec F32)) : (Spec.pieces cps).length ≤ cps.length := by
  unfold Spec.pieces
  simp only [List.length_append, List.length_take, List.length_map, List.length_range]
  omega

theorem piece_in {k : ℕ} (hk : k ≤ 100) {a b c : F32} (ha : Bd k a) (hb : Bd k b) (hc : Bd k c) :
    Bd k (((a +. b *. lit 2) +. c) *. lit 0.25) := by
  have h2 : Bd ((k + 1 : ℕ) : ℤ) (b *. lit 2) := by
    have := Bd.mul hb (l := 1) (y := (lit 2 : F32)) ⟨2, false, two_lit32, by rw [abs_of_pos (by norm_num)]; exact le_rfl⟩
      (by show (-149 : ℤ) ≤ k + 1; omega) (by show (k : ℤ) + 1 < 128; omega)
    exact_mod_cast this
  obtain ⟨u, zu, rfl, hu⟩ := ha
  obtain ⟨v, zv, ev, hv⟩ := h2
  obtain ⟨w, zw, rfl, hw⟩ := hc
  rw [pow2_nat] at hu hv hw
  rw [ev]
  have e1 : (2:ℚ) ^ (k + 1) = 2 * 2 ^ k := by rw [pow_add]; ring
  have e2 : (2:ℚ) ^ (k + 2) = 4 * 2 ^ k := by rw [pow_add]; ring
  have hk4 := pow_le_120 hk
  have e4 : (2:ℚ) ^ (k + 4) = 16 * 2 ^ k := by rw [pow_add]; ring
  have pk : (0:ℚ) < 2 ^ k := by positivity
  have r3 : Rep fmt32 (3 * 2 ^ k) := ⟨3, k, by show (-149 : ℤ) ≤ k; omega, by decide, by rw [pow2_nat]; norm_num⟩
  have hs : |u + v| ≤ 3 * 2 ^ k := by
    have := abs_add_le u v
    linarith
  have hs' : |rnd fmt32 (u + v)| ≤ 3 * 2 ^ k := by
    rw [abs_le] at hs ⊢
    exact ⟨le_rnd r3.neg hs.1, rnd_le r3 hs.2⟩
  obtain ⟨c1, g1⟩ := ofRat32_fin (q := u + v) (by linarith) (signbit (fin u zu : F32) && signbit (fin v zv : F32))
  have g1' : (fin u zu : F32) +. fin v zv = fin (rnd fmt32 (u + v)) c1 := g1
  rw [g1']
  have ht : |rnd fmt32 (u + v) + w| ≤ 2 ^ (k + 2) := by
    have := abs_add_le (rnd fmt32 (u + v)) w
    linarith
  obtain ⟨c2, g2⟩ := ofRat32_fin (q := rnd fmt32 (u + v) + w) (by linarith) (signbit (fin (rnd fmt32 (u + v)) c1 : F32) && signbit (fin w zw : F32))
  have g2' : (fin (rnd fmt32 (u + v)) c1 : F32) +. fin w zw = fin (rnd fmt32 (rnd fmt32 (u + v) + w)) c2 := g2
  rw [g2', quarter_lit32]
  have hr := rnd_abs_le ht
  have := Bd.mul (f := fmt32) (k := ((k + 2 : ℕ) : ℤ)) (l := -2) (x := fin (rnd fmt32 (rnd fmt32 (u + v) + w)) c2) (y := fin (1 / 4) false)
    ⟨_, _, rfl, by rw [pow2_nat]; exact hr⟩ ⟨_, _, rfl, by rw [pow2_eq, abs_of_pos (by norm_num)]; norm_num⟩
    (by show (-149 : ℤ) ≤ ((k + 2 : ℕ) : ℤ) + -2; push_cast; omega) (by show ((k + 2 : ℕ) : ℤ) + -2 < 128; push_cast; omega)
  rwa [show ((k + 2 : ℕ) : ℤ) + -2 = k by push_cast; ring] at this

theorem zero_bd (k : ℕ) : Bd (k : ℤ) (lit 0 : F32) :=
  ⟨0, false, ofRat_zero false, by rw [abs_zero]; exact (pow2_pos _).le⟩

theorem pieces_in {k : ℕ} (hk : k ≤ 100) {cps : List (Vec F32)} (h : AllIn k cps) : AllIn k (Spec.pieces cps) := by
  intro p hp
  unfold Spec.pieces at hp
  simp only [List.mem_append, List.mem_map] at hp
  rcases hp with hp | ⟨i, -, rfl⟩
  · exact h p (List.mem_of_mem_take hp)
  · have at_in : ∀ j, VBd k ((Spec.leftHalf cps ++ (Spec.rightHalf cps).tail).getD j Vec.zero) := by
      intro j
      rw [List.getD_eq_getElem?_getD]
      cases he : (Spec.leftHalf cps ++ (Spec.rightHalf cps).tail)[j]? with
      | none => exact ⟨zero_bd k, zero_bd k⟩
      | some q =>
        have := List.mem_of_getElem? he
        rw [List.mem_append] at this
        rcases this with h1 | h1
        · exact leftHalf_in hk h q h1
        · exact rightHalf_in hk h q (List.mem_of_mem_tail h1)
    have a1 := at_in (2 * i + 1)
    have a2 := at_in (2 * i + 2)
    have a3 := at_in (2 * i + 3)
    exact ⟨piece_in hk a1.1 a2.1 a3.1, piece_in hk a1.2 a2.2 a3.2⟩

/-- The bound on second differences at `d` levels above flat pieces. -/
def ddBound (k n d : ℕ) : ℚ := 4 ^ d / 10 + 4 / 3 * ((2 ^ k / 2 ^ 24 + 1 / 2 ^ 140) * n)

theorem ddBound_zero {k n : ℕ} (h : n * 2 ^ k ≤ 2 ^ 21) : ddBound k n 0 ≤ 269 / 1000 := by
  have hq : (n : ℚ) * 2 ^ k ≤ 2 ^ 21 := by exact_mod_cast h
  have hn : (n : ℚ) ≤ 2 ^ 21 := by
    have : n * 1 ≤ n * 2 ^ k := Nat.mul_le_mul_left n Nat.one_le_two_pow
    exact_mod_cast (show n ≤ 2 ^ 21 by omega)
  unfold ddBound
  have e : (2 ^ k / 2 ^ 24 + 1 / 2 ^ 140 : ℚ) * n = n * 2 ^ k / 2 ^ 24 + n / 2 ^ 140 := by ring
  rw [e]
  have h1 := div_le_div_of_nonneg_right hq (by positivity : (0:ℚ) ≤ 2 ^ 24)
  have h2 := div_le_div_of_nonneg_right hn (by positivity : (0:ℚ) ≤ 2 ^ 140)
  have t : (1:ℚ) / 10 + 4 / 3 * (2 ^ 21 / 2 ^ 24 + 2 ^ 21 / 2 ^ 140) ≤ 269 / 1000 := by norm_num
  linarith [show (4:ℚ) ^ 0 / 10 = 1 / 10 by norm_num]

theorem flattens_of_smallDD {k n : ℕ} (hk : k ≤ 17) (hn : n * 2 ^ k ≤ 2 ^ 21) (d : ℕ) :
    ∀ cps : List (Vec F32), cps.length = n → AllIn k cps → SmallDD (ddBound k n d) cps →
      ∃ l, Spec.Flattens cps l ∧ AllIn k l ∧ l.length ≤ 2 ^ d * n := by
  have in17 : ∀ cps : List (Vec F32), AllIn k cps → AllIn 17 cps := by
    intro cps h p hp
    exact ⟨(h p hp).1.mono (by omega), (h p hp).2.mono (by omega)⟩
  induction d with
  | zero =>
    intro cps hl hin h
    refine ⟨_, .flat (flat_of_smallDD (in17 _ hin) fun i hi => ?_), pieces_in (by omega) hin, by
      have := pieces_length cps
      omega⟩
    have hb := ddBound_zero hn
    exact ⟨(h i hi).1.trans hb, (h i hi).2.trans hb⟩
  | succ d ih =>
    intro cps hl hin h
    by_cases hf : Spec.flat cps
    · refine ⟨_, .flat hf, pieces_in (by omega) hin, (pieces_length cps).trans ?_⟩
      rw [hl]
      exact Nat.le_mul_of_pos_left n (by positivity)
    · obtain ⟨h1, h2⟩ := smallDD_halves (by omega : k ≤ 100) hin h
      have e : ddBound k n (d + 1) / 4 + (2 ^ k / 2 ^ 24 + 1 / 2 ^ 140) * cps.length = ddBound k n d := by
        unfold ddBound
        rw [hl, pow_succ]
        ring
      rw [e] at h1 h2
      obtain ⟨l, hl1, hl2, hl3⟩ := ih _ (by rw [leftHalf_length, hl]) (leftHalf_in (by omega) hin) h1
      obtain ⟨r, hr1, hr2, hr3⟩ := ih _ (by rw [rightHalf_length, hl]) (rightHalf_in (by omega) hin) h2
      refine ⟨_, .split hf hl1 hr1, fun p hp => ?_, ?_⟩
      · rcases List.mem_append.mp hp with h | h
        · exact hl2 p h
        · exact hr2 p h
      · rw [List.length_append, pow_succ]
        linarith

theorem rv_abs {k : ℕ} {x : F32} (h : Bd k x) : |rv x| ≤ 2 ^ k := by
  obtain ⟨v, z, rfl, hv⟩ := h
  rwa [pow2_nat] at hv

/-- Any control points within the square have second differences below the bound for this many levels. -/
theorem smallDD_start {k n : ℕ} {cps : List (Vec F32)} (h : AllIn k cps) : SmallDD (ddBound k n ((k + 7) / 2)) cps := by
  have hb : (4:ℚ) * 2 ^ k ≤ ddBound k n ((k + 7) / 2) := by
    unfold ddBound
    have h0 : (0:ℚ) ≤ 4 / 3 * ((2 ^ k / 2 ^ 24 + 1 / 2 ^ 140) * n) := by positivity
    have h1 : (2:ℚ) ^ (k + 6) ≤ 4 ^ ((k + 7) / 2) := by
      rw [show (4:ℚ) = 2 ^ 2 by norm_num, ← pow_mul]
      exact pow_le_pow_right₀ (by norm_num) (by omega)
    have e : (2:ℚ) ^ (k + 6) = 64 * 2 ^ k := by rw [pow_add]; ring
    have pk : (0:ℚ) < 2 ^ k := by positivity
    linarith
  intro i hi
  have p0 := h.getD (j := i) (by omega)
  have p1 := h.getD (j := i + 1) (by omega)
  have p2 := h.getD (j := i + 2) (by omega)
  unfold dd
  have x0 := abs_le.mp (rv_abs p0.1)
  have x1 := abs_le.mp (rv_abs p1.1)
  have x2 := abs_le.mp (rv_abs p2.1)
  have y0 := abs_le.mp (rv_abs p0.2)
  have y1 := abs_le.mp (rv_abs p1.2)
  have y2 := abs_le.mp (rv_abs p2.2)
  constructor <;> rw [abs_le] <;> constructor <;>
    linarith [x0.1, x0.2, x1.1, x1.2, x2.1, x2.2, y0.1, y0.2, y1.1, y1.2, y2.1, y2.2]

theorem flattens32 {k : ℕ} (hk : k ≤ 17) {cps : List (Vec F32)} (hn : cps.length * 2 ^ k ≤ 2 ^ 21) (h : AllIn k cps) :
    ∃ l, Spec.Flattens cps l ∧ AllIn k l ∧ l.length ≤ 2 ^ ((k + 7) / 2) * cps.length :=
  flattens_of_smallDD hk hn _ cps rfl h (smallDD_start h)

end GosuPP
