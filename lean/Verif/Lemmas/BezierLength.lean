import Verif.Lemmas.BezierIEEE
import Verif.Lemmas.PathReal
import Verif.Lemmas.PathLength

/-! The lines of Bezier sliders in float32: how long they are together and how short one of them can be. -/

namespace GosuPP
open Go Fl Approximator
open GosuPP.Fl (NN0)

/-! ### Numbers of at least one -/

/-- A number of at least one that is written in the format. -/
def FromOne (x : F32) : Prop := WF x ∧ 1 ≤ rv x

/-- Both coordinates are at least one. -/
def VFromOne (p : Vec F32) : Prop := FromOne p.x ∧ FromOne p.y

theorem rep32_nat {n : ℕ} (h : n ≤ 2 ^ 24) : Rep fmt32 (n : ℚ) :=
  ⟨n, 0, by decide, by show |(n : ℤ)| ≤ 2 ^ 24; rw [Nat.abs_cast]; exact_mod_cast h, by show _ = (n : ℤ) * (1 : ℚ); push_cast; ring⟩

theorem mid_one {k : ℕ} (hk : k ≤ 100) {a b : F32} (ha : Bd k a) (hb : Bd k b) (ha1 : FromOne a) (hb1 : FromOne b) :
    FromOne ((a +. b) *. lit 0.5) := by
  obtain ⟨v, za, rfl, hv⟩ := ha
  obtain ⟨w, zb, rfl, hw⟩ := hb
  rw [pow2_nat] at hv hw
  have hk4 := pow_le_120 hk
  have e4 : (2:ℚ) ^ (k + 4) = 16 * 2 ^ k := by rw [pow_add]; ring
  have e1 : (2:ℚ) ^ (k + 1) = 2 * 2 ^ k := by rw [pow_add]; ring
  have pk : (0:ℚ) < 2 ^ k := by positivity
  have v1 : 1 ≤ v := ha1.2
  have w1 : 1 ≤ w := hb1.2
  have hq : |v + w| ≤ 2 ^ (k + 1) := by
    have := abs_add_le v w
    linarith
  obtain ⟨c1, g1⟩ := ofRat32_fin (q := v + w) (by linarith) (signbit (fin v za : F32) && signbit (fin w zb : F32))
  have g1' : (fin v za : F32) +. fin w zb = fin (rnd fmt32 (v + w)) c1 := g1
  have s1 := rnd_abs_le hq
  have s2 : |rnd fmt32 (v + w) * (1 / 2)| ≤ 2 ^ k := by
    rw [abs_mul, abs_of_pos (by norm_num : (0:ℚ) < 1 / 2)]
    linarith
  obtain ⟨c2, g2⟩ := ofRat32_fin (q := rnd fmt32 (v + w) * (1 / 2)) (by linarith)
    (Bool.xor (signbit (fin (rnd fmt32 (v + w)) c1 : F32)) (signbit (fin (1 / 2) false : F32)))
  have g2' : ((fin v za : F32) +. fin w zb) *. lit 0.5 = fin (rnd fmt32 (rnd fmt32 (v + w) * (1 / 2))) c2 := by
    rw [g1', half_lit]
    exact g2
  have two : 2 ≤ rnd fmt32 (v + w) := le_rnd (by simpa using rep32_nat (n := 2) (by norm_num)) (by linarith)
  have one : 1 ≤ rnd fmt32 (rnd fmt32 (v + w) * (1 / 2)) := le_rnd (by simpa using rep32_nat (n := 1) (by norm_num)) (by linarith)
  rw [g2']
  refine ⟨?_, one⟩
  rw [← g2]
  exact ofRat_wf _ _

theorem average_spec {k : ℕ} (hk : k ≤ 100) {a b c : F32} (ha : Bd k a) (hb : Bd k b) (hc : Bd k c) :
    WF (((a +. b *. lit 2) +. c) *. lit 0.25) ∧
    (1 ≤ rv a → 1 ≤ rv b → 1 ≤ rv c → 1 ≤ rv (((a +. b *. lit 2) +. c) *. lit 0.25)) ∧
    |rv (((a +. b *. lit 2) +. c) *. lit 0.25) - (rv a + 2 * rv b + rv c) / 4| ≤ 5 * (2 ^ k / 2 ^ 24 + 1 / 2 ^ 140) := by
  obtain ⟨u, zu, rfl, hu⟩ := ha
  obtain ⟨v, zv, rfl, hv⟩ := hb
  obtain ⟨w, zw, rfl, hw⟩ := hc
  rw [pow2_nat] at hu hv hw
  have hk4 := pow_le_120 hk
  have e4 : (2:ℚ) ^ (k + 4) = 16 * 2 ^ k := by rw [pow_add]; ring
  have pk : (1:ℚ) ≤ 2 ^ k := one_le_pow₀ (by norm_num)
  obtain ⟨B, hB⟩ : ∃ B : ℚ, B = 2 ^ k := ⟨_, rfl⟩
  rw [← hB] at hu hv hw pk e4 ⊢
  rw [e4] at hk4
  have hu' := abs_le.mp hu
  have hv' := abs_le.mp hv
  have hw' := abs_le.mp hw
  have n24 : B / 2 ^ 24 ≤ B / 100 := by gcongr; norm_num
  have n150 : (1:ℚ) / 2 ^ 150 ≤ 1 / 100 := by norm_num
  have d2 : ∀ x : ℚ, x * B / 2 ^ 24 = x * (B / 2 ^ 24) := fun x => by ring
  obtain ⟨c1, g1⟩ := ofRat32_fin (q := v * 2) (by rw [abs_le]; constructor <;> linarith [hv'.1, hv'.2])
    (Bool.xor (signbit (fin v zv : F32)) (signbit (fin 2 false : F32)))
  have k1 : (fin v zv : F32) *. lit 2 = fin (rnd fmt32 (v * 2)) c1 := by rw [two_lit32]; exact g1
  have e1 := abs_le.mp ((rnd32_error (v * 2)).trans (add_le_add_left (div_le_div_of_nonneg_right
    (show |v * 2| ≤ 2 * B by rw [abs_le]; constructor <;> linarith [hv'.1, hv'.2]) (by positivity)) _))
  rw [d2] at e1
  obtain ⟨c2, g2⟩ := ofRat32_fin (q := u + rnd fmt32 (v * 2)) (by rw [abs_le]; constructor <;> linarith [hu'.1, hu'.2, e1.1, e1.2, hv'.1, hv'.2])
    (signbit (fin u zu : F32) && signbit (fin (rnd fmt32 (v * 2)) c1 : F32))
  have k2 : (fin u zu : F32) +. (fin v zv : F32) *. lit 2 = fin (rnd fmt32 (u + rnd fmt32 (v * 2))) c2 := by rw [k1]; exact g2
  have e2 := abs_le.mp ((rnd32_error (u + rnd fmt32 (v * 2))).trans (add_le_add_left (div_le_div_of_nonneg_right
    (show |u + rnd fmt32 (v * 2)| ≤ 4 * B by rw [abs_le]; constructor <;> linarith [hu'.1, hu'.2, e1.1, e1.2, hv'.1, hv'.2]) (by positivity)) _))
  rw [d2] at e2
  have m2 : 1 ≤ v → 2 ≤ rnd fmt32 (v * 2) := fun h => le_rnd (by simpa using rep32_nat (n := 2) (by norm_num)) (by linarith)
  have m3 : 1 ≤ u → 1 ≤ v → 3 ≤ rnd fmt32 (u + rnd fmt32 (v * 2)) := fun h h' =>
    le_rnd (by simpa using rep32_nat (n := 3) (by norm_num)) (by linarith [m2 h'])
  generalize rnd fmt32 (u + rnd fmt32 (v * 2)) = r2 at *
  generalize rnd fmt32 (v * 2) = r1 at *
  obtain ⟨c3, g3⟩ := ofRat32_fin (q := r2 + w) (by rw [abs_le]; constructor <;> linarith [hu'.1, hu'.2, e1.1, e1.2, hv'.1, hv'.2, e2.1, e2.2, hw'.1, hw'.2])
    (signbit (fin r2 c2 : F32) && signbit (fin w zw : F32))
  have k3 : ((fin u zu : F32) +. (fin v zv : F32) *. lit 2) +. fin w zw = fin (rnd fmt32 (r2 + w)) c3 := by rw [k2]; exact g3
  have e3 := abs_le.mp ((rnd32_error (r2 + w)).trans (add_le_add_left (div_le_div_of_nonneg_right
    (show |r2 + w| ≤ 6 * B by rw [abs_le]; constructor <;> linarith [hu'.1, hu'.2, e1.1, e1.2, hv'.1, hv'.2, e2.1, e2.2, hw'.1, hw'.2]) (by positivity)) _))
  rw [d2] at e3
  have m4 : 1 ≤ u → 1 ≤ v → 1 ≤ w → 4 ≤ rnd fmt32 (r2 + w) := fun h h' h'' =>
    le_rnd (by simpa using rep32_nat (n := 4) (by norm_num)) (by linarith [m3 h h'])
  generalize rnd fmt32 (r2 + w) = r3 at *
  have bq : |r3 * (1 / 4)| ≤ 2 * B := by
    rw [abs_le]; constructor <;> linarith [hu'.1, hu'.2, e1.1, e1.2, hv'.1, hv'.2, e2.1, e2.2, hw'.1, hw'.2, e3.1, e3.2]
  obtain ⟨c4, g4⟩ := ofRat32_fin (q := r3 * (1 / 4)) (by linarith)
    (Bool.xor (signbit (fin r3 c3 : F32)) (signbit (fin (1 / 4) false : F32)))
  have k4 : (((fin u zu : F32) +. (fin v zv : F32) *. lit 2) +. fin w zw) *. lit 0.25 = fin (rnd fmt32 (r3 * (1 / 4))) c4 := by
    rw [k3, quarter_lit32]; exact g4
  have e5 := abs_le.mp ((rnd32_error (r3 * (1 / 4))).trans (add_le_add_left (div_le_div_of_nonneg_right bq (by positivity)) _))
  rw [d2] at e5
  rw [k4]
  refine ⟨?_, fun h1 h2 h3 => ?_, ?_⟩
  · rw [← g4]
    exact ofRat_wf _ _
  · exact le_rnd (by simpa using rep32_nat (n := 1) (by norm_num)) (by linarith [m4 h1 h2 h3])
  · show |rnd fmt32 (r3 * (1 / 4)) - (u + 2 * v + w) / 4| ≤ _
    have t : (1:ℚ) / 2 ^ 150 * 4 ≤ 1 / 2 ^ 140 := by norm_num
    have t0 : (0:ℚ) ≤ 1 / 2 ^ 140 := by positivity
    have tB : (0:ℚ) ≤ B / 2 ^ 24 := by positivity
    rw [abs_le]
    constructor <;> linarith [e1.1, e1.2, e2.1, e2.2, e3.1, e3.2, e5.1, e5.2]

/-- All points have coordinates of at least one. -/
def AllFromOne (cps : List (Vec F32)) : Prop := ∀ p ∈ cps, VFromOne p

theorem AllFromOne.getD {cps : List (Vec F32)} (h : AllFromOne cps) {j : ℕ} (hj : j < cps.length) : VFromOne (cps.getD j Vec.zero) := by
  rw [List.getD_eq_getElem?_getD, List.getElem?_eq_getElem hj]
  exact h _ (List.getElem_mem hj)

theorem triangle_one {k : ℕ} (hk : k ≤ 100) {cps : List (Vec F32)} (h : AllIn k cps) (h1 : AllFromOne cps) (i : ℕ) :
    ∀ j, i + j < cps.length → VFromOne (Spec.triangle cps i j) := by
  induction i with
  | zero => intro j hj; exact h1.getD (by omega)
  | succ i ih =>
    intro j hj
    have a1 := ih j (by omega)
    have a2 := ih (j + 1) (by omega)
    have b1 := triangle_in hk h i j (by omega)
    have b2 := triangle_in hk h i (j + 1) (by omega)
    exact ⟨mid_one hk b1.1 b2.1 a1.1 a2.1, mid_one hk b1.2 b2.2 a1.2 a2.2⟩

theorem leftHalf_one {k : ℕ} (hk : k ≤ 100) {cps : List (Vec F32)} (h : AllIn k cps) (h1 : AllFromOne cps) : AllFromOne (Spec.leftHalf cps) := by
  intro p hp
  simp only [Spec.leftHalf, List.mem_map, List.mem_range] at hp
  obtain ⟨i, hi, rfl⟩ := hp
  exact triangle_one hk h h1 i 0 (by omega)

theorem rightHalf_one {k : ℕ} (hk : k ≤ 100) {cps : List (Vec F32)} (h : AllIn k cps) (h1 : AllFromOne cps) : AllFromOne (Spec.rightHalf cps) := by
  intro p hp
  simp only [Spec.rightHalf, List.mem_map, List.mem_range] at hp
  obtain ⟨i, hi, rfl⟩ := hp
  exact triangle_one hk h h1 _ i (by omega)

/-- The control points of both halves in a row. -/
def merged (cps : List (Vec F32)) : List (Vec F32) := Spec.leftHalf cps ++ (Spec.rightHalf cps).tail

theorem merged_getD {cps : List (Vec F32)} {i : ℕ} :
    (i < cps.length → (merged cps).getD i Vec.zero = (Spec.leftHalf cps).getD i Vec.zero) ∧
    (cps.length - 1 ≤ i → i + 1 < 2 * cps.length → (merged cps).getD i Vec.zero = (Spec.rightHalf cps).getD (i - (cps.length - 1)) Vec.zero) := by
  have key : i < cps.length → (merged cps).getD i Vec.zero = (Spec.leftHalf cps).getD i Vec.zero := by
    intro h
    unfold merged
    simp only [List.getD_eq_getElem?_getD]
    rw [List.getElem?_append_left (by rw [leftHalf_length]; exact h)]
  refine ⟨key, fun h1 h2 => ?_⟩
  rcases Nat.lt_or_ge i cps.length with h | h
  · have e : i = cps.length - 1 := by omega
    rw [key h, e, leftHalf_getD cps (by omega), Nat.sub_self, rightHalf_getD cps (by omega), Nat.sub_zero]
  · unfold merged
    simp only [List.getD_eq_getElem?_getD]
    rw [List.getElem?_append_right (by rw [leftHalf_length]; exact h), leftHalf_length, List.getElem?_tail]
    congr 2
    omega

theorem merged_length (cps : List (Vec F32)) : (merged cps).length = cps.length + (cps.length - 1) := by
  unfold merged
  rw [List.length_append, List.length_tail, leftHalf_length, rightHalf_length]

theorem merged_in {k : ℕ} (hk : k ≤ 100) {cps : List (Vec F32)} (h : AllIn k cps) : AllIn k (merged cps) := by
  intro p hp
  rcases List.mem_append.mp hp with h1 | h1
  · exact leftHalf_in hk h p h1
  · exact rightHalf_in hk h p (List.mem_of_mem_tail h1)

theorem merged_one {k : ℕ} (hk : k ≤ 100) {cps : List (Vec F32)} (h : AllIn k cps) (h1 : AllFromOne cps) : AllFromOne (merged cps) := by
  intro p hp
  rcases List.mem_append.mp hp with h2 | h2
  · exact leftHalf_one hk h h1 p h2
  · exact rightHalf_one hk h h1 p (List.mem_of_mem_tail h2)

theorem pieces_one {k : ℕ} (hk : k ≤ 100) {cps : List (Vec F32)} (h : AllIn k cps) (h1 : AllFromOne cps) : AllFromOne (Spec.pieces cps) := by
  intro p hp
  unfold Spec.pieces at hp
  simp only [List.mem_append, List.mem_map, List.mem_range] at hp
  rcases hp with hp | ⟨i, hi, rfl⟩
  · exact h1 p (List.mem_of_mem_take hp)
  · have hl := merged_length cps
    have a : ∀ j, j < (merged cps).length → VBd k ((merged cps).getD j Vec.zero) ∧ VFromOne ((merged cps).getD j Vec.zero) :=
      fun j hj => ⟨(merged_in hk h).getD hj, (merged_one hk h h1).getD hj⟩
    obtain ⟨a1, b1⟩ := a (2 * i + 1) (by omega)
    obtain ⟨a2, b2⟩ := a (2 * i + 2) (by omega)
    obtain ⟨a3, b3⟩ := a (2 * i + 3) (by omega)
    have x := average_spec hk a1.1 a2.1 a3.1
    have y := average_spec hk a1.2 a2.2 a3.2
    exact ⟨⟨x.1, x.2.1 b1.1.2 b2.1.2 b3.1.2⟩, ⟨y.1, y.2.1 b1.2.2 b2.2.2 b3.2.2⟩⟩

theorem flattens_one {k : ℕ} (hk : k ≤ 100) {cps l : List (Vec F32)} (hl : Spec.Flattens cps l) (h : AllIn k cps) (h1 : AllFromOne cps) :
    AllFromOne l := by
  induction hl with
  | flat _ => exact pieces_one hk h h1
  | split _ _ _ ih1 ih2 =>
    intro p hp
    rcases List.mem_append.mp hp with h2 | h2
    · exact ih1 (leftHalf_in hk h) (leftHalf_one hk h h1) p h2
    · exact ih2 (rightHalf_in hk h) (rightHalf_one hk h h1) p h2

/-- Two different numbers of at least one differ by at least 2^-23. -/
theorem from_one_apart {a b : ℚ} (ha : Rep fmt32 a) (hb : Rep fmt32 b) (ha1 : 1 ≤ a) (hb1 : 1 ≤ b) (hne : a ≠ b) : 1 / 2 ^ 23 ≤ |a - b| := by
  have key : ∀ {q : ℚ}, Rep fmt32 q → 1 ≤ q → ∃ m : ℤ, q = m * (1 / 2 ^ 23) := by
    intro q hq hq1
    obtain ⟨m, e, -, hm, rfl⟩ := hq
    have hm' : |(m : ℚ)| ≤ 2 ^ 24 := by exact_mod_cast hm
    have p23 : pow2 (-23) = 1 / 2 ^ 23 := by rw [pow2_eq, show (-23 : ℤ) = -((23 : ℕ) : ℤ) from rfl, zpow_neg]; norm_num
    rcases le_or_gt (-23) e with he | he
    · obtain ⟨d, rfl⟩ : ∃ d : ℕ, e = -23 + d := ⟨(e + 23).toNat, by omega⟩
      refine ⟨m * 2 ^ d, ?_⟩
      rw [pow2_add, p23, pow2_nat]
      push_cast
      ring
    · refine ⟨2 ^ 23, ?_⟩
      have hp : pow2 e ≤ pow2 (-24) := pow2_mono (by omega)
      have p24 : pow2 (-24) = 1 / 2 ^ 24 := by rw [pow2_eq, show (-24 : ℤ) = -((24 : ℕ) : ℤ) from rfl, zpow_neg]; norm_num
      have : (m : ℚ) * pow2 e ≤ 1 := by
        calc (m : ℚ) * pow2 e ≤ 2 ^ 24 * pow2 e := mul_le_mul_of_nonneg_right ((le_abs_self _).trans hm') (pow2_pos _).le
          _ ≤ 2 ^ 24 * pow2 (-24) := mul_le_mul_of_nonneg_left hp (by norm_num)
          _ = 1 := by rw [p24]; norm_num
      push_cast
      linarith
  obtain ⟨m, rfl⟩ := key ha ha1
  obtain ⟨n, rfl⟩ := key hb hb1
  rw [← sub_mul, abs_mul, abs_of_pos (by positivity : (0:ℚ) < 1 / 2 ^ 23)]
  have hmn : m - n ≠ 0 := by
    intro h
    apply hne
    rw [show m = n by omega]
  have : (1:ℚ) ≤ |(m : ℚ) - n| := by exact_mod_cast Int.one_le_abs hmn
  have := mul_le_mul_of_nonneg_right this (by positivity : (0:ℚ) ≤ 1 / 2 ^ 23)
  linarith

/-- A line is of no length or not too short. -/
def NotTiny (l : Linear F32) : Prop := l.p1.eq l.p2 = true ∨ Fl.le (fin (1 / 2 ^ 48) false) (l.getLength (D := F64)) = true

/-- A line between points whose coordinates are equal or apart is of no length or not too short. -/
theorem line_apart {k : ℕ} (hk : k ≤ 17) {l : Linear F32} (h1 : VBd k l.p1) (h2 : VBd k l.p2)
    (hx : rv l.p2.x ≠ rv l.p1.x → 1 / 2 ^ 47 ≤ |rv l.p2.x - rv l.p1.x|) (hy : rv l.p2.y ≠ rv l.p1.y → 1 / 2 ^ 47 ≤ |rv l.p2.y - rv l.p1.y|) :
    NotTiny l := by
  have hB : (2:ℚ) ^ k ≤ 2 ^ 17 := pow_le_pow_right₀ (by norm_num) hk
  obtain ⟨⟨x1, a, ex1, hx1⟩, ⟨y1, b, ey1, hy1⟩⟩ := h1
  obtain ⟨⟨x2, c, ex2, hx2⟩, ⟨y2, d, ey2, hy2⟩⟩ := h2
  rw [pow2_nat] at hx1 hy1 hx2 hy2
  have e1 : l.p1 = ⟨fin x1 a, fin y1 b⟩ := by rw [← ex1, ← ey1]
  have e2 : l.p2 = ⟨fin x2 c, fin y2 d⟩ := by rw [← ex2, ← ey2]
  rw [ex1, ex2] at hx
  rw [ey1, ey2] at hy
  have n21 : (2:ℚ) ^ 17 ≤ 2 ^ 21 := by norm_num
  have n59 : (2:ℚ) ^ 17 ≤ 2 ^ 59 := by norm_num
  obtain ⟨n, z, hn, n0, -⟩ := getLength_error e1 e2 (by linarith) (by linarith) (by linarith) (by linarith)
  obtain ⟨gx, gy⟩ := getLength_ge e1 e2 (by linarith) (by linarith) (by linarith) (by linarith) hn
  have n60 : (1:ℚ) / 2 ^ 60 < 1 / 2 ^ 47 := by norm_num
  have n48 : (1:ℚ) / 2 ^ 47 = 2 * (1 / 2 ^ 48) := by norm_num
  have fin' : 1 / 2 ^ 48 ≤ n → NotTiny l := by
    intro h
    right
    rw [hn]
    simpa [Fl.le] using h
  by_cases hxx : x2 = x1
  · by_cases hyy : y2 = y1
    · left
      rw [e1, e2, hxx, hyy]
      show (Fl.eq (fin x1 a : F32) (fin x1 c) && Fl.eq (fin y1 b : F32) (fin y1 d)) = true
      simp [Fl.eq]
    · have : 1 / 2 ^ 47 ≤ |y2 - y1| := hy hyy
      exact fin' (by rcases gy with h | h <;> linarith)
  · have : 1 / 2 ^ 47 ≤ |x2 - x1| := hx hxx
    exact fin' (by rcases gx with h | h <;> linarith)

theorem line_from_one {k : ℕ} (hk : k ≤ 17) {l : Linear F32} (h1 : VBd k l.p1) (h2 : VBd k l.p2) (o1 : VFromOne l.p1) (o2 : VFromOne l.p2) :
    NotTiny l := by
  have n : (1:ℚ) / 2 ^ 47 ≤ 1 / 2 ^ 23 := by norm_num
  have key : ∀ {a b : F32}, Bd k a → Bd k b → FromOne a → FromOne b → rv b ≠ rv a → 1 / 2 ^ 47 ≤ |rv b - rv a| := by
    rintro _ _ ⟨v, z, rfl, -⟩ ⟨w, y, rfl, -⟩ ⟨wa, ga⟩ ⟨wb, gb⟩ hne
    exact n.trans (from_one_apart wb.1 wa.1 gb ga hne)
  exact line_apart hk h1 h2 (key h1.1 h2.1 o1.1 o2.1) (key h1.2 h2.2 o1.2 o2.2)

/-! ### First differences -/

theorem d_row {δ E : ℚ} {N : ℕ} {T : ℕ → ℕ → ℚ} (hT : Mids δ N T) (h : ∀ k, k + 1 ≤ N → |T 0 (k + 1) - T 0 k| ≤ E) (i : ℕ) :
    ∀ k, k + 1 + i ≤ N → |T i (k + 1) - T i k| ≤ E + 2 * δ * i := by
  induction i with
  | zero => intro k hk; simpa using h k (by omega)
  | succ i ih =>
    intro k hk
    have h1 := abs_le.mp (ih k (by omega))
    have h2 := abs_le.mp (ih (k + 1) (by omega))
    have a1 := abs_le.mp (hT i k (by omega))
    have a2 := abs_le.mp (hT i (k + 1) (by omega))
    rw [abs_le]
    push_cast
    constructor <;> linarith [h1.1, h1.2, h2.1, h2.2, a1.1, a1.2, a2.1, a2.2]

theorem d_left {δ E : ℚ} {N : ℕ} {T : ℕ → ℕ → ℚ} (hT : Mids δ N T) (h : ∀ k, k + 1 ≤ N → |T 0 (k + 1) - T 0 k| ≤ E) :
    ∀ k, k + 1 ≤ N → |T (k + 1) 0 - T k 0| ≤ E / 2 + δ * (k + 1) := by
  intro k hk
  have h1 := abs_le.mp (d_row hT h k 0 (by omega))
  have a1 := abs_le.mp (hT k 0 (by omega))
  rw [abs_le]
  constructor <;> linarith [h1.1, h1.2, a1.1, a1.2]

theorem d_right {δ E : ℚ} {N : ℕ} {T : ℕ → ℕ → ℚ} (hT : Mids δ N T) (h : ∀ k, k + 1 ≤ N → |T 0 (k + 1) - T 0 k| ≤ E) :
    ∀ k, k + 1 ≤ N → |T (N - (k + 1)) (k + 1) - T (N - k) k| ≤ E / 2 + δ * ((N - (k + 1) : ℕ) + 1) := by
  intro k hk
  obtain ⟨m, rfl⟩ : ∃ m, N = k + 1 + m := ⟨N - (k + 1), by omega⟩
  have h1 := abs_le.mp (d_row hT h m k (by omega))
  have a1 := abs_le.mp (hT m k (by omega))
  rw [show k + 1 + m - (k + 1) = m by omega, show k + 1 + m - k = m + 1 by omega, abs_le]
  constructor <;> linarith [h1.1, h1.2, a1.1, a1.2]

/-- Both coordinates differ by at most `e`. -/
def CoordsNear (e : ℚ) (p q : Vec F32) : Prop := |rv q.x - rv p.x| ≤ e ∧ |rv q.y - rv p.y| ≤ e

theorem CoordsNear.symm {e : ℚ} {p q : Vec F32} (h : CoordsNear e p q) : CoordsNear e q p := by
  unfold CoordsNear at *
  rwa [abs_sub_comm, abs_sub_comm (rv p.y)]

theorem CoordsNear.trans {e f : ℚ} {p q r : Vec F32} (h : CoordsNear e p q) (h' : CoordsNear f q r) : CoordsNear (e + f) p r := by
  unfold CoordsNear at *
  simp only [abs_le] at *
  and_intros <;> linarith [h.1.1, h.1.2, h.2.1, h.2.2, h'.1.1, h'.1.2, h'.2.1, h'.2.2]

theorem CoordsNear.mono {e f : ℚ} {p q : Vec F32} (h : CoordsNear e p q) (hf : e ≤ f) : CoordsNear f p q := ⟨h.1.trans hf, h.2.trans hf⟩

theorem CoordsNear.refl {e : ℚ} (he : 0 ≤ e) (p : Vec F32) : CoordsNear e p p := by
  unfold CoordsNear
  rw [sub_self, sub_self, abs_zero]
  exact ⟨he, he⟩

/-- Consecutive points are near. -/
def SmallStep (E : ℚ) (cps : List (Vec F32)) : Prop :=
  ∀ i, i + 2 ≤ cps.length → CoordsNear E (cps.getD i Vec.zero) (cps.getD (i + 1) Vec.zero)

theorem smallStep_halves {k : ℕ} (hk : k ≤ 100) {E : ℚ} {cps : List (Vec F32)} (h : AllIn k cps) (hE : SmallStep E cps) :
    SmallStep (E / 2 + (2 ^ k / 2 ^ 24 + 1 / 2 ^ 140) * cps.length) (Spec.leftHalf cps) ∧
      SmallStep (E / 2 + (2 ^ k / 2 ^ 24 + 1 / 2 ^ 140) * cps.length) (Spec.rightHalf cps) := by
  have hd : (0:ℚ) ≤ 2 ^ k / 2 ^ 24 + 1 / 2 ^ 140 := by positivity
  have mx := mids_x hk h
  have my := mids_y hk h
  generalize (2 ^ k / 2 ^ 24 + 1 / 2 ^ 140 : ℚ) = δ at hd mx my ⊢
  have wk : ∀ m : ℕ, m ≤ cps.length → δ * m ≤ δ * cps.length := fun m hm =>
    mul_le_mul_of_nonneg_left (by exact_mod_cast hm) hd
  constructor
  · intro i hi
    rw [leftHalf_length] at hi
    have e : ∀ j, j ≤ i + 1 → (Spec.leftHalf cps).getD j Vec.zero = Spec.triangle cps j 0 :=
      fun j hj => leftHalf_getD cps (by omega)
    have h1 := d_left mx (fun k hk => (hE k (by omega)).1) i (by omega)
    have h2 := d_left my (fun k hk => (hE k (by omega)).2) i (by omega)
    have h3 := wk (i + 1) (by omega)
    push_cast at h3
    rw [e i (by omega), e (i + 1) (by omega)]
    exact ⟨h1.trans (by linarith), h2.trans (by linarith)⟩
  · intro i hi
    rw [rightHalf_length] at hi
    have e : ∀ j, j ≤ i + 1 → (Spec.rightHalf cps).getD j Vec.zero = Spec.triangle cps (cps.length - 1 - j) j :=
      fun j hj => rightHalf_getD cps (by omega)
    have h1 := d_right mx (fun k hk => (hE k (by omega)).1) i (by omega)
    have h2 := d_right my (fun k hk => (hE k (by omega)).2) i (by omega)
    have h3 := wk (cps.length - 1 - (i + 1) + 1) (by omega)
    push_cast at h3
    rw [e i (by omega), e (i + 1) (by omega)]
    exact ⟨h1.trans (by linarith), h2.trans (by linarith)⟩

theorem smallStep_merged {E : ℚ} {cps : List (Vec F32)} (h1 : SmallStep E (Spec.leftHalf cps)) (h2 : SmallStep E (Spec.rightHalf cps)) :
    SmallStep E (merged cps) := by
  intro i hi
  rw [merged_length] at hi
  rcases Nat.lt_or_ge (i + 1) cps.length with h | h
  · rw [merged_getD.1 (by omega), merged_getD.1 h]
    exact h1 i (by rw [leftHalf_length]; omega)
  · rw [merged_getD.2 (by omega) (by omega), merged_getD.2 (by omega) (by omega), show i + 1 - (cps.length - 1) = i - (cps.length - 1) + 1 by omega]
    exact h2 _ (by rw [rightHalf_length]; omega)

/-! ### The length of the polyline -/

/-- The sum of the coordinate differences of consecutive points. -/
def span : List (Vec F32) → ℚ
  | a :: b :: r => |rv b.x - rv a.x| + |rv b.y - rv a.y| + span (b :: r)
  | _ => 0

theorem span_append (c : Vec F32) (m : List (Vec F32)) : ∀ l : List (Vec F32), span (l ++ c :: m) = span (l ++ [c]) + span (c :: m)
  | [] => by simp [span]
  | [a] => by simp [span]
  | a :: b :: l => by
    have := span_append c m (b :: l)
    simp only [List.cons_append, span] at this ⊢
    linarith

theorem span_le {e : ℚ} (he : 0 ≤ e) : ∀ l : List (Vec F32), SmallStep e l → span l ≤ l.length * (2 * e)
  | [], _ => by simp [span]
  | [a], _ => by simp only [span]; positivity
  | a :: b :: r, h => by
    have h0 := h 0 (by simp)
    have ih := span_le he (b :: r) (fun i hi => by
      have := h (i + 1) (by simpa using hi)
      simpa using this)
    simp only [List.getD_cons_zero, Nat.zero_add, List.getD_cons_succ] at h0
    simp only [span, List.length_cons] at ih ⊢
    push_cast at ih ⊢
    linarith [h0.1, h0.2]

theorem span_pieces {k : ℕ} (hk : k ≤ 100) {E : ℚ} (E0 : 0 ≤ E) {cps : List (Vec F32)} (hn : 1 ≤ cps.length) (h : AllIn k cps) (hE : SmallStep E cps) :
    span (Spec.pieces cps ++ [cps.getD (cps.length - 1) Vec.zero]) ≤
      cps.length * (3 * E + 6 * (2 ^ k / 2 ^ 24 + 1 / 2 ^ 140) * cps.length + 20 * (2 ^ k / 2 ^ 24 + 1 / 2 ^ 140)) := by
  obtain ⟨h1, h2⟩ := smallStep_halves hk h hE
  have h3 := smallStep_merged h1 h2
  have hav := fun {a b c : F32} (ha : Bd (k : ℤ) a) (hb : Bd (k : ℤ) b) (hc : Bd (k : ℤ) c) => (average_spec hk ha hb hc).2.2
  have hd : (0:ℚ) ≤ 2 ^ k / 2 ^ 24 + 1 / 2 ^ 140 := by positivity
  generalize (2 ^ k / 2 ^ 24 + 1 / 2 ^ 140 : ℚ) = δ at hd h3 hav ⊢
  clear h1 h2
  rcases Nat.lt_or_ge 1 cps.length with hn2 | hn1
  · obtain ⟨E', hE'⟩ : ∃ E', E' = E / 2 + δ * cps.length := ⟨_, rfl⟩
    rw [← hE'] at h3
    have E'0 : 0 ≤ E' := by rw [hE']; positivity
    have hml := merged_length cps
    have hlen : (Spec.pieces cps ++ [cps.getD (cps.length - 1) Vec.zero]).length = cps.length := by
      unfold Spec.pieces
      simp only [List.length_append, List.length_take, List.length_map, List.length_range, List.length_singleton]
      omega
    -- every point is near one of the row
    have near : ∀ i, i < cps.length → CoordsNear (E' / 2 + 5 * δ) ((Spec.pieces cps ++ [cps.getD (cps.length - 1) Vec.zero]).getD i Vec.zero)
        ((merged cps).getD (2 * i) Vec.zero) := by
      intro i hi
      have e0 : 0 ≤ E' / 2 + 5 * δ := by positivity
      have hp1 : (Spec.pieces cps).length = cps.length - 1 := by
        rw [List.length_append, List.length_singleton] at hlen
        omega
      rcases Nat.lt_or_ge i (cps.length - 1) with hlt | hge
      · have eg : (Spec.pieces cps ++ [cps.getD (cps.length - 1) Vec.zero]).getD i Vec.zero = (Spec.pieces cps).getD i Vec.zero := by
          simp only [List.getD_eq_getElem?_getD]
          rw [List.getElem?_append_left (by omega)]
        rw [eg]
        rcases i with _ | i
        · have e1 : (Spec.pieces cps).getD 0 Vec.zero = cps.getD 0 Vec.zero := by
            unfold Spec.pieces
            cases cps with
            | nil => simp at hn
            | cons a r => rfl
          rw [e1, merged_getD.1 (by omega), leftHalf_getD cps (by omega)]
          exact CoordsNear.refl e0 _
        · have e1 : (Spec.pieces cps).getD (i + 1) Vec.zero =
              (((((merged cps).getD (2 * i + 1) Vec.zero).add (((merged cps).getD (2 * i + 2) Vec.zero).scl (lit 2))).add
                ((merged cps).getD (2 * i + 3) Vec.zero)).scl (lit 0.25)) := by
            unfold Spec.pieces
            have ht : (cps.take 1).length = 1 := by rw [List.length_take]; omega
            rw [List.getD_eq_getElem?_getD, List.getElem?_append_right (by omega), ht, Nat.add_sub_cancel, List.getElem?_map,
              List.getElem?_range (by omega)]
            rfl
          rw [e1]
          have m1 := (merged_in hk h).getD (j := 2 * i + 1) (by omega)
          have m2 := (merged_in hk h).getD (j := 2 * i + 2) (by omega)
          have m3 := (merged_in hk h).getD (j := 2 * i + 3) (by omega)
          have s1 := h3 (2 * i + 1) (by omega)
          have s2 := h3 (2 * i + 2) (by omega)
          have ax := abs_le.mp (hav m1.1 m2.1 m3.1)
          have ay := abs_le.mp (hav m1.2 m2.2 m3.2)
          rw [show 2 * (i + 1) = 2 * i + 2 by omega]
          generalize (merged cps).getD (2 * i + 1) Vec.zero = a at *
          generalize (merged cps).getD (2 * i + 2) Vec.zero = b at *
          generalize (merged cps).getD (2 * i + 3) Vec.zero = c at *
          unfold CoordsNear at s1 s2 ⊢
          show |rv b.x - rv (((a.x +. b.x *. lit 2) +. c.x) *. lit 0.25)| ≤ _ ∧ |rv b.y - rv (((a.y +. b.y *. lit 2) +. c.y) *. lit 0.25)| ≤ _
          simp only [abs_le] at s1 s2 ⊢
          obtain ⟨⟨p1, p2⟩, p3, p4⟩ := s1
          obtain ⟨⟨q1, q2⟩, q3, q4⟩ := s2
          and_intros <;> linarith [ax.1, ax.2, ay.1, ay.2]
      · have ei : i = cps.length - 1 := by omega
        have eg : (Spec.pieces cps ++ [cps.getD (cps.length - 1) Vec.zero]).getD i Vec.zero = cps.getD (cps.length - 1) Vec.zero := by
          rw [List.getD_eq_getElem?_getD, List.getElem?_append_right (by omega), hp1, ei, Nat.sub_self]
          rfl
        rw [eg, merged_getD.2 (by omega) (by omega), rightHalf_getD cps (by omega),
          show cps.length - 1 - (2 * i - (cps.length - 1)) = 0 by omega, show 2 * i - (cps.length - 1) = cps.length - 1 by omega]
        exact CoordsNear.refl e0 _
    have st : SmallStep (3 * E' + 10 * δ) (Spec.pieces cps ++ [cps.getD (cps.length - 1) Vec.zero]) := by
      intro i hi
      rw [hlen] at hi
      have a1 := near i (by omega)
      have a2 := near (i + 1) (by omega)
      have b1 := h3 (2 * i) (by omega)
      have b2 := h3 (2 * i + 1) (by omega)
      rw [show 2 * (i + 1) = 2 * i + 1 + 1 by omega] at a2
      exact (((a1.trans b1).trans b2).trans a2.symm).mono (by linarith)
    refine (span_le (by positivity) _ st).trans (le_of_eq ?_)
    rw [hlen, hE']
    ring
  · obtain ⟨a, rfl⟩ := List.length_eq_one_iff.mp (show cps.length = 1 by omega)
    have e : span (Spec.pieces [a] ++ [[a].getD ([a].length - 1) Vec.zero]) = 0 := by
      show |rv a.x - rv a.x| + |rv a.y - rv a.y| + 0 = 0
      simp
    rw [e]
    positivity

theorem flattens_span {k n : ℕ} (hk : k ≤ 17) (hn : n * 2 ^ k ≤ 2 ^ 21) (n1 : 1 ≤ n) (d : ℕ) :
    ∀ E : ℚ, 0 ≤ E → ∀ cps l : List (Vec F32), cps.length = n → AllIn k cps → SmallDD (ddBound k n d) cps → SmallStep E cps → Spec.Flattens cps l →
      span (l ++ [cps.getD (cps.length - 1) Vec.zero]) ≤
        n * (3 * E + 2 ^ d * ((2 ^ k / 2 ^ 24 + 1 / 2 ^ 140) * (12 * n + 20)) - 6 * (2 ^ k / 2 ^ 24 + 1 / 2 ^ 140) * n) := by
  have hd : (0:ℚ) ≤ 2 ^ k / 2 ^ 24 + 1 / 2 ^ 140 := by positivity
  have hn0 : (0:ℚ) ≤ n := Nat.cast_nonneg n
  have leaf : ∀ d E, 0 ≤ E → ∀ cps : List (Vec F32), cps.length = n → AllIn k cps → SmallStep E cps →
      span (Spec.pieces cps ++ [cps.getD (cps.length - 1) Vec.zero]) ≤
        n * (3 * E + 2 ^ d * ((2 ^ k / 2 ^ 24 + 1 / 2 ^ 140) * (12 * n + 20)) - 6 * (2 ^ k / 2 ^ 24 + 1 / 2 ^ 140) * n) := by
    intro d E E0 cps hl hin hE
    refine (span_pieces (by omega) E0 (by omega) hin hE).trans ?_
    rw [hl]
    apply mul_le_mul_of_nonneg_left _ hn0
    generalize (2 ^ k / 2 ^ 24 + 1 / 2 ^ 140 : ℚ) = δ at hd
    have p : (1:ℚ) ≤ 2 ^ d := one_le_pow₀ (by norm_num)
    have x0 : 0 ≤ δ * (12 * n + 20) := by positivity
    have := mul_le_mul_of_nonneg_right p x0
    linarith
  have in17 : ∀ cps : List (Vec F32), AllIn k cps → AllIn 17 cps := by
    intro cps h p hp
    exact ⟨(h p hp).1.mono (by omega), (h p hp).2.mono (by omega)⟩
  induction d with
  | zero =>
    intro E E0 cps l hl hin h hE hf
    cases hf with
    | flat _ => exact leaf 0 E E0 cps hl hin hE
    | split hf _ _ =>
      exfalso
      apply hf
      have hb := ddBound_zero hn
      exact flat_of_smallDD (in17 _ hin) fun i hi => ⟨(h i hi).1.trans hb, (h i hi).2.trans hb⟩
  | succ d ih =>
    intro E E0 cps l hl hin h hE hf
    cases hf with
    | flat _ => exact leaf (d + 1) E E0 cps hl hin hE
    | @split _ l r hf fl fr =>
      obtain ⟨h1, h2⟩ := smallDD_halves (by omega : k ≤ 100) hin h
      have e : ddBound k n (d + 1) / 4 + (2 ^ k / 2 ^ 24 + 1 / 2 ^ 140) * cps.length = ddBound k n d := by
        unfold ddBound
        rw [hl, pow_succ]
        ring
      rw [e] at h1 h2
      obtain ⟨s1, s2⟩ := smallStep_halves (by omega : k ≤ 100) hin hE
      rw [hl] at s1 s2
      have E'0 : 0 ≤ E / 2 + (2 ^ k / 2 ^ 24 + 1 / 2 ^ 140) * (n : ℚ) := by positivity
      have i1 := ih _ E'0 _ _ (by rw [leftHalf_length, hl]) (leftHalf_in (by omega) hin) h1 s1 fl
      have i2 := ih _ E'0 _ _ (by rw [rightHalf_length, hl]) (rightHalf_in (by omega) hin) h2 s2 fr
      rw [leftHalf_length, leftHalf_getD cps (by omega)] at i1
      rw [rightHalf_length, rightHalf_getD cps (by omega), Nat.sub_self] at i2
      have hh := flattens_head fr (by
        intro h
        have := congrArg List.length h
        rw [rightHalf_length, List.length_nil] at this
        omega)
      have hr0 : (Spec.rightHalf cps).head? = some (Spec.triangle cps (cps.length - 1) 0) := by
        have := rightHalf_getD cps (j := 0) (by omega)
        rw [List.getD_eq_getElem?_getD, List.getElem?_eq_getElem (by rw [rightHalf_length]; omega), Option.getD_some, Nat.sub_zero] at this
        rw [List.head?_eq_getElem?, List.getElem?_eq_getElem (by rw [rightHalf_length]; omega), this]
      rw [hr0] at hh
      obtain ⟨c, r', rfl⟩ : ∃ c r', r = c :: r' := by
        cases r with
        | nil => cases hh
        | cons c r' => exact ⟨c, r', rfl⟩
      simp only [List.head?_cons, Option.some.injEq] at hh
      rw [← hh] at i1
      rw [List.append_assoc, List.cons_append, span_append]
      rw [List.cons_append] at i2
      have et : Spec.triangle cps 0 (cps.length - 1) = cps.getD (cps.length - 1) Vec.zero := rfl
      rw [et] at i2
      refine (add_le_add i1 i2).trans (le_of_eq ?_)
      rw [pow_succ]
      ring

end GosuPP
