import Verif.Lemmas.PathLength

/-!
# C84: the length of a slider path in IEEE arithmetic
-/

namespace GosuPP
open Go Fl

private theorem zero_wf : WF (fin 0 false : F32) := ⟨Rep.zero, by simpa using pow2_pos _, by simp⟩

/-- The final estimate: from the sum of the lengths to its float32 value. -/
private theorem total_error {R B D L P X C e : ℚ} (hR0 : 0 ≤ R) (hR : R ≤ 2 ^ 20) (hB : 1 ≤ B) (hD : 0 ≤ D) (hD1 : D ≤ 2 ^ 17) (hL : 0 ≤ L)
    (hP0 : 0 ≤ P) (hP : P ≤ L + D) (hC : 0 ≤ C)
    (hX : |X - P| ≤ R * (L / 2 ^ 23 + 1 / 2 ^ 149) + ((L + P) / 2 ^ 53 + 1 / 2 ^ 53) + R * ((L + D + 1) / 2 ^ 50) + e)
    (he : e ≤ (B + D) / 2 ^ 16 + (1 / 10000 + (L + D + 1) / 2 ^ 50)) (hR1 : 1 ≤ R)
    (hCX : |C - X| ≤ R * (C / 2 ^ 23 + 1 / 2 ^ 149)) :
    |C - P| ≤ 1 / 5000 + (B + D) / 2 ^ 15 + R * (L + P) / 2 ^ 21 := by
  set T := R * (L / 2 ^ 23 + 1 / 2 ^ 149) + ((L + P) / 2 ^ 53 + 1 / 2 ^ 53) + R * ((L + D + 1) / 2 ^ 50) +
    ((B + D) / 2 ^ 16 + (1 / 10000 + (L + D + 1) / 2 ^ 50)) with hT
  have hX' : |X - P| ≤ T := by rw [hT]; linarith
  -- the products
  have LL : L ≤ R * L := by nlinarith
  have PP : P ≤ R * P := by nlinarith
  have RL : 0 ≤ R * L := mul_nonneg hR0 hL
  have RP : 0 ≤ R * P := mul_nonneg hR0 hP0
  have RD : R * D ≤ 2 ^ 20 * D := mul_le_mul_of_nonneg_right hR hD
  have T0 : T ≤ R * L / 2 ^ 23 + R * L / 2 ^ 40 + R * P / 2 ^ 40 + (B + D) / 2 ^ 16 + (B + D) / 2 ^ 20 + 1 / 9000 := by
    have e1 : R * (L / 2 ^ 23 + 1 / 2 ^ 149) = R * L / 2 ^ 23 + R * (1 / 2 ^ 149) := by ring
    have e2 : R * ((L + D + 1) / 2 ^ 50) = R * L / 2 ^ 50 + R * D / 2 ^ 50 + R * (1 / 2 ^ 50) := by ring
    have a1 : R * (1 / 2 ^ 149) ≤ 2 ^ 20 * (1 / 2 ^ 149) := mul_le_mul_of_nonneg_right hR (by norm_num)
    have a2 : R * (1 / 2 ^ 50) ≤ 2 ^ 20 * (1 / 2 ^ 50) := mul_le_mul_of_nonneg_right hR (by norm_num)
    have n1 : (2 ^ 20 * (1 / 2 ^ 149) + 2 ^ 20 * (1 / 2 ^ 50) + 1 / 2 ^ 53 + 1 / 2 ^ 50 + 1 / 10000 : ℚ) ≤ 1 / 9000 := by norm_num
    rw [hT, e1, e2]
    linarith
  have hRC : R * (C / 2 ^ 23 + 1 / 2 ^ 149) ≤ C / 8 + 1 / 2 ^ 129 := by
    have := mul_le_mul_of_nonneg_right hR (show (0:ℚ) ≤ C / 2 ^ 23 + 1 / 2 ^ 149 by positivity)
    refine this.trans (le_of_eq ?_)
    ring
  obtain ⟨x1, x2⟩ := abs_le.mp hX'
  obtain ⟨c1, c2⟩ := abs_le.mp hCX
  have hC2 : C ≤ 2 * (P + T) + 1 / 2 ^ 100 := by
    have n2 : (1 / 2 ^ 129 : ℚ) ≤ 1 / 2 ^ 101 := by norm_num
    have n3 : (1 / 2 ^ 100 : ℚ) = 2 * (1 / 2 ^ 101) := by norm_num
    linarith
  have hTn : 0 ≤ T := (abs_nonneg _).trans hX'
  have hRC2 : R * (C / 2 ^ 23 + 1 / 2 ^ 149) ≤ R * P / 2 ^ 22 + T / 4 + 1 / 2 ^ 90 := by
    have b1 : R * C ≤ R * (2 * (P + T) + 1 / 2 ^ 100) := mul_le_mul_of_nonneg_left hC2 hR0
    have b2 : R * T ≤ 2 ^ 20 * T := mul_le_mul_of_nonneg_right hR hTn
    have b3 : R * (C / 2 ^ 23 + 1 / 2 ^ 149) = R * C / 2 ^ 23 + R * (1 / 2 ^ 149) := by ring
    have b4 : R * (1 / 2 ^ 149) ≤ 2 ^ 20 * (1 / 2 ^ 149) := mul_le_mul_of_nonneg_right hR (by norm_num)
    have b5 : R * (1 / 2 ^ 100) ≤ 2 ^ 20 * (1 / 2 ^ 100) := mul_le_mul_of_nonneg_right hR (by norm_num)
    have b6 : R * C / 2 ^ 23 ≤ (R * (2 * (P + T) + 1 / 2 ^ 100)) / 2 ^ 23 := by gcongr
    have b7 : (R * (2 * (P + T) + 1 / 2 ^ 100)) / 2 ^ 23 = R * P / 2 ^ 22 + R * T / 2 ^ 22 + R * (1 / 2 ^ 100) / 2 ^ 23 := by ring
    have n4 : (2 ^ 20 * (1 / 2 ^ 149) + 2 ^ 20 * (1 / 2 ^ 100) / 2 ^ 23 : ℚ) ≤ 1 / 2 ^ 90 := by norm_num
    linarith
  have n5 : ((1 + 1 / 4) * (1 / 9000) + 1 / 2 ^ 90 : ℚ) ≤ 1 / 5000 := by norm_num
  have fin : T + (R * P / 2 ^ 22 + T / 4 + 1 / 2 ^ 90) ≤ 1 / 5000 + (B + D) / 2 ^ 15 + R * (L + P) / 2 ^ 21 := by
    have : R * (L + P) / 2 ^ 21 = R * L / 2 ^ 21 + R * P / 2 ^ 21 := by ring
    have hBD : 0 ≤ B + D := by linarith
    linarith
  rw [abs_le]
  constructor <;> linarith

/-- C84 (IEEE). The length of a slider path made of at most 2^20 lines within 2^k, none of them nonzero but shorter than
2^-48, is the pixel length that was asked for, up to a five-thousandth, the rounding of the trimmed line and the rounding
of the sums of lengths; extending it needs a last line of nonzero length. -/
theorem C84_length [GoLibm F64] {fuel : ℕ} {typ : Str} {points : List (Vec F32)} {P : ℚ} {zP : Bool}
    {mc : MultiCurve F32} (h : MultiCurve.newT fuel typ points (fin P zP : F64) = .ok mc)
    {raw : List (Linear F32)} (hraw : processType (D := F64) fuel typ points = .ok raw) (hlen : raw.length ≤ 2 ^ 20)
    {k : ℕ} {j : ℤ} (hk : k ≤ 17) (hj0 : -9 ≤ j) (hj1 : j ≤ 17)
    (hin : ∀ l ∈ raw, (∃ x y, Spec.At l.p1 x y ∧ |x| ≤ 2 ^ k ∧ |y| ≤ 2 ^ k) ∧ ∃ x y, Spec.At l.p2 x y ∧ |x| ≤ 2 ^ k ∧ |y| ≤ 2 ^ k)
    (htiny : ∀ l ∈ raw, l.p1.eq l.p2 = true ∨ Fl.le (fin (1 / 2 ^ 48) false) (l.getLength (D := F64)) = true)
    {L : ℚ} {zL : Bool} (hL : MultiCurve.totalLength (D := F64) raw = fin L zL) (hLpos : 0 < L)
    (hP0 : 0 ≤ P) (hP : P ≤ L + pow2 j) (hlast : P ≤ L + 1 / 9000 ∨ ∀ l, raw.getLast? = some l → l.p1.eq l.p2 = false) :
    ∃ C z, mc.length = fin C z ∧ 0 ≤ C ∧
      |C - P| ≤ 1 / 5000 + (2 ^ k + pow2 j) / 2 ^ 15 + raw.length * (L + P) / 2 ^ 21 := by
  obtain ⟨⟨C, zC, hC⟩, -⟩ := C82_positions h hraw hlen hk hj0 hj1 hin htiny (by linarith [show (0:ℚ) ≤ 2 ^ 39 by norm_num])
    (fun L' z' h' => by rw [hL] at h'; cases h'; exact hP)
  have hmeas := newT_measured h
  have hB0 : (1:ℚ) ≤ 2 ^ k := one_le_pow₀ (by norm_num)
  have hB1 : (2:ℚ) ^ k ≤ 2 ^ 17 := pow_le_pow_right₀ (by norm_num) hk
  have hD1 : pow2 j ≤ 2 ^ 17 := by
    have := pow2_mono hj1
    rwa [show (17 : ℤ) = ((17 : ℕ) : ℤ) from rfl, pow2_nat] at this
  have hD := pow2_pos j
  have hD9 : (1:ℚ) / 2 ^ 9 ≤ pow2 j := pow2_mono hj0
  have hB21 : (2:ℚ) ^ k ≤ 2 ^ 21 := hB1.trans (by norm_num)
  have hz : (lit 0 : F32) = fin 0 false := ofRat_zero _
  -- the sum of the lengths of the given lines
  have hLf : raw.foldl (fun acc l => acc +. l.getLength (D := F64)) (fin 0 false : F32) = fin L zL := by
    rw [← hz]; exact hL
  obtain ⟨-, hl1, hLe⟩ := foldl_error raw zero_wf le_rfl hLf
  rw [zero_add] at hLe
  have hCf : mc.lines.foldl (fun acc l => acc +. l.getLength (D := F64)) (fin 0 false : F32) = fin C zC := by
    rw [← hz, ← hC]; exact hmeas.1.symm
  obtain ⟨C0, -, hCe⟩ := foldl_error mc.lines zero_wf le_rfl hCf
  rw [zero_add] at hCe
  refine ⟨C, zC, hC, C0, ?_⟩
  have hR0 : (0:ℚ) ≤ raw.length := Nat.cast_nonneg _
  have hR : (raw.length : ℚ) ≤ 2 ^ 20 := by exact_mod_cast hlen
  have hne : raw ≠ [] := by
    rintro rfl
    cases hLf
    exact absurd hLpos (lt_irrefl _)
  have hR1 : (1:ℚ) ≤ raw.length := by
    have := List.length_pos_iff.mpr hne
    exact_mod_cast this
  have p19 : pow2 19 = 2 ^ 19 := by rw [show (19 : ℤ) = ((19 : ℕ) : ℤ) from rfl, pow2_nat]
  have L39 : L ≤ 2 ^ 39 := by
    have mono17 : ∀ p, VB (2 ^ k) p → VBd ((17 : ℕ) : ℤ) p := by
      rintro p ⟨x, y, ⟨a, b, rfl⟩, hx, hy⟩
      exact ⟨⟨x, a, rfl, by rw [pow2_nat]; exact hx.trans hB1⟩, ⟨y, b, rfl, by rw [pow2_nat]; exact hy.trans hB1⟩⟩
    obtain ⟨L', zL', hL', -, L1⟩ := totalLength_bound raw (m := 19) (by norm_num) (by norm_num) (fun l hl =>
      length_in (k := 17) (mono17 _ (hin l hl).1) (mono17 _ (hin l hl).2) (by norm_num) (by decide +kernel)) (hlen.trans (by norm_num))
    rw [hL] at hL'
    cases hL'
    refine L1.trans ?_
    rw [p19]
    calc (raw.length : ℚ) * 2 ^ 19 ≤ 2 ^ 20 * 2 ^ 19 := mul_le_mul_of_nonneg_right hR (by norm_num)
      _ = _ := by norm_num
  -- the difference
  have hwL : WF (fin L zL : F32) := by rw [← hLf]; exact foldl_wf _ _ zero_wf
  have hup : (up (fin L zL : F32) : F64) = fin L zL := up_fin hwL
  have t40 : (2:ℚ) ^ 39 + 2 ^ 17 + 1 ≤ 2 ^ 40 := by norm_num
  have t120 : (2:ℚ) ^ 40 ≤ 2 ^ 120 := by norm_num
  have habs : |L + -P| ≤ L + pow2 j := by rw [abs_le]; constructor <;> linarith
  obtain ⟨c, hc⟩ := ofRat64_fin (q := L + -P) (by linarith)
    (signbit (fin L zL : F64) && signbit (neg (fin P zP) : F64))
  have gc : (fin L zL : F64) -. fin P zP = fin (rnd fmt64 (L + -P)) c := hc
  have hw : WF (fin (rnd fmt64 (L + -P)) c : F64) := by rw [← hc]; exact ofRat_wf _ _
  have hrj : Rep fmt64 (pow2 j) := Go.rep_pow2 (by show (-1074 : ℤ) ≤ _; omega)
  have v0 : -pow2 j ≤ rnd fmt64 (L + -P) := le_rnd hrj.neg (by linarith)
  have vL : rnd fmt64 (L + -P) ≤ L := rnd_le (rep_up hwL.1) (by linarith)
  have vP : P ≤ L → 0 ≤ rnd fmt64 (L + -P) := fun h => le_rnd Rep.zero (by linarith)
  have ve := rnd64_error (L + -P)
  have ve' : |L + -P| / 2 ^ 53 ≤ (L + P) / 2 ^ 53 := by
    gcongr
    rw [abs_le]; constructor <;> linarith
  have hlines : mc.lines = (MultiCurve.trimRev raw.reverse (fin (rnd fmt64 (L + -P)) c : F64)).reverse := by
    unfold MultiCurve.newT at h
    rw [hraw] at h
    obtain ⟨lines, h1, h⟩ := bind_ok h
    cases h1
    obtain ⟨fp, h2, h⟩ := bind_ok h
    cases h
    simp only
    rw [hL, hup, gc, if_pos]
    rw [hz]
    change Fl.lt _ _ = true
    simpa [Fl.lt] using hLpos
  generalize rnd fmt64 (L + -P) = v at *
  have hW : |v| ≤ L + pow2 j + 1 := by rw [abs_le]; constructor <;> linarith
  have hcnt : (mc.lines.length : ℚ) ≤ raw.length := by
    rw [hlines, List.length_reverse]
    have := trimRev_length_le raw.reverse (fin v c : F64)
    rw [List.length_reverse] at this
    exact_mod_cast this
  have hCe' : |C - lenSum mc.lines| ≤ raw.length * (C / 2 ^ 23 + 1 / 2 ^ 149) :=
    hCe.trans (mul_le_mul_of_nonneg_right hcnt (by positivity))
  have hvv : |v - (L - P)| ≤ (L + P) / 2 ^ 53 + 1 / 2 ^ 53 := by
    rw [sub_eq_add_neg L P]; exact ve.trans (by linarith)
  have δ0 : (0:ℚ) ≤ (L + pow2 j + 1) / 2 ^ 50 := by positivity
  have δ1 : (L + pow2 j + 1) / 2 ^ 50 ≤ 1 / 2 ^ 10 := by
    calc (L + pow2 j + 1) / 2 ^ 50 ≤ 2 ^ 40 / 2 ^ 50 := by gcongr; linarith
      _ = _ := by norm_num
  have small : (1:ℚ) / 10000 + 1 / 2 ^ 10 ≤ 1 / 2 ^ 9 := by norm_num
  obtain ⟨u1, u2⟩ := abs_le.mp hvv
  obtain ⟨w1, w2⟩ := abs_le.mp hLe
  rcases trimRev_spec32 raw.reverse hw (by linarith) (by linarith) hW (fun l hl => by
      obtain ⟨n, z, a, b, c⟩ := hl1 l (by simpa using hl)
      exact ⟨n, z, a, b, by linarith⟩) with ⟨h1, h2⟩ | ⟨dropped, line, rest, v', z', n, zn, h1, h2, h3, h4, h5, h6, h7⟩
  · -- nothing is left
    rcases h2 with h2 | h2
    · exact absurd (List.reverse_eq_nil_iff.mp h2) hne
    rw [lenSum_reverse, List.length_reverse] at h2
    rw [h1, List.reverse_nil] at hlines
    have X0 : lenSum mc.lines = 0 := by rw [hlines]; rfl
    rw [X0] at hCe'
    refine total_error hR0 hR hB0 hD.le hD1 hLpos.le hP0 hP C0 (X := 0) (e := (1 / 10000 + (L + pow2 j + 1) / 2 ^ 50)) ?_ ?_ hR1 hCe'
    · rw [zero_sub, abs_neg, abs_of_nonneg hP0]
      linarith
    · have : (0:ℚ) ≤ (2 ^ k + pow2 j) / 2 ^ 16 := by positivity
      linarith
  · -- a line is trimmed or extended
    have hmem : line ∈ raw := by
      rw [← List.mem_reverse, h1]; simp
    have hdl : (dropped.length : ℚ) ≤ raw.length := by
      have := congrArg List.length h1
      rw [List.length_reverse, List.length_append] at this
      exact_mod_cast (by omega : dropped.length ≤ raw.length)
    have h3' : |v' - (v - lenSum dropped)| ≤ raw.length * ((L + pow2 j + 1) / 2 ^ 50) :=
      h3.trans (mul_le_mul_of_nonneg_right hdl δ0)
    have v'0 : -pow2 j ≤ v' := by
      rcases h6 with rfl | h6
      · simp only [lenSum, List.map_nil, List.sum_nil, List.length_nil, Nat.cast_zero, zero_mul, sub_zero] at h3
        have := abs_nonpos_iff.mp h3
        linarith
      · linarith
    have hsum : lenSum raw = lenSum dropped + (n + lenSum rest) := by
      rw [← lenSum_reverse raw, h1]
      unfold lenSum
      rw [List.map_append, List.sum_append, List.map_cons, List.sum_cons, lenQ_eq h2]
    -- the line
    obtain ⟨n', zn', hn', hne'⟩ : ∃ n' zn', (if line.p1.eq line.p2 then line
         else ⟨line.p1, line.pointAt ((fin n zn -. down (fin v' z' : F64)) /. fin n zn)⟩ : Linear F32).getLength (D := F64) = fin n' zn' ∧
        |n' - (n - v')| ≤ (2 ^ k + pow2 j) / 2 ^ 16 + (1 / 10000 + (L + pow2 j + 1) / 2 ^ 50) := by
      have pos1 : (0:ℚ) ≤ (2 ^ k + pow2 j) / 2 ^ 16 := by positivity
      cases hq : line.p1.eq line.p2 with
      | true =>
        rw [if_pos rfl]
        refine ⟨n, zn, h2, ?_⟩
        have hd := line_degenerate (hin line hmem).1 (hin line hmem).2 hB21 hq h2
        have : -(1 / 9000 + (L + pow2 j + 1) / 2 ^ 50) ≤ v' := by
          rcases h6 with rfl | h6
          · simp only [lenSum, List.map_nil, List.sum_nil, List.length_nil, Nat.cast_zero, zero_mul, sub_zero] at h3
            have e := abs_nonpos_iff.mp h3
            rcases hlast with hp | hp
            · linarith
            · have : raw.getLast? = some line := by
                rw [← List.head?_reverse, h1]; rfl
              rw [hp line this] at hq
              cases hq
          · linarith
        have n58 : (1:ℚ) / 2 ^ 58 ≤ 1 / 10000 := by norm_num
        have n16 : (1:ℚ) / 9000 ≤ (2 ^ k + pow2 j) / 2 ^ 16 + 1 / 10000 := by
          have : (1:ℚ) / 2 ^ 16 ≤ (2 ^ k + pow2 j) / 2 ^ 16 := by gcongr; linarith
          have n : (1:ℚ) / 9000 ≤ 1 / 2 ^ 16 + 1 / 10000 := by norm_num
          linarith
        rw [show n - (n - v') = v' by ring, abs_le]
        constructor <;> linarith
      | false =>
        rw [if_neg (by decide)]
        have hn0 : 1 / 2 ^ 48 ≤ n := by
          rcases htiny line hmem with h | h
          · rw [h] at hq; cases hq
          · rw [h2] at h
            simpa [Fl.le] using h
        obtain ⟨n', zn', e1, -, e2⟩ := trimmed_length (zv := z') hk hj0 hj1 (hin line hmem).1 (hin line hmem).2 h2 hn0 v'0 h4
        exact ⟨n', zn', e1, by linarith⟩
    have hX : lenSum mc.lines = n' + lenSum rest := by
      rw [hlines, lenSum_reverse, h7]
      unfold lenSum
      rw [List.map_cons, List.sum_cons, lenQ_eq hn']
    obtain ⟨y1, y2⟩ := abs_le.mp h3'
    obtain ⟨z1, z2⟩ := abs_le.mp hne'
    refine total_error hR0 hR hB0 hD.le hD1 hLpos.le hP0 hP C0 (X := lenSum mc.lines) ?_ le_rfl hR1 hCe'
    rw [hX, abs_le]
    constructor <;> linarith

/-- C84 (IEEE). A path whose last line has no length is not extended, however long it should be. -/
theorem C84_not_extended [GoLibm F64] {fuel : ℕ} {typ : Str} {points : List (Vec F32)} {P : ℚ} {zP : Bool}
    {mc : MultiCurve F32} (h : MultiCurve.newT fuel typ points (fin P zP : F64) = .ok mc)
    {raw : List (Linear F32)} (hraw : processType (D := F64) fuel typ points = .ok raw)
    {L : ℚ} {zL : Bool} (hL : MultiCurve.totalLength (D := F64) raw = fin L zL) (hP : L + 1 / 9000 ≤ P) (hP1 : P ≤ 2 ^ 40)
    {l : Linear F32} (hl : raw.getLast? = some l) (hq : l.p1.eq l.p2 = true) : mc.lines = raw ∧ mc.length = fin L zL := by
  have key : mc.lines = raw := by
    unfold MultiCurve.newT at h
    rw [hraw] at h
    obtain ⟨lines, h1, h⟩ := bind_ok h
    cases h1
    obtain ⟨fp, h2, h⟩ := bind_ok h
    cases h
    simp only
    split
    · have hz : (lit 0 : F32) = fin 0 false := ofRat_zero _
      have hLf : raw.foldl (fun acc l => acc +. l.getLength (D := F64)) (fin 0 false : F32) = fin L zL := by
        rw [← hz]; exact hL
      obtain ⟨L0, hl1, -⟩ := foldl_error raw zero_wf le_rfl hLf
      have hwL : WF (fin L zL : F32) := by rw [← hLf]; exact foldl_wf _ _ zero_wf
      have hup : (up (fin L zL : F32) : F64) = fin L zL := up_fin hwL
      rw [hL, hup]
      have t40 : (2:ℚ) ^ 40 ≤ 2 ^ 120 := by norm_num
      obtain ⟨c, hc⟩ := ofRat64_fin (q := L + -P) (by rw [abs_le]; constructor <;> linarith)
        (signbit (fin L zL : F64) && signbit (neg (fin P zP) : F64))
      have gc : (fin L zL : F64) -. fin P zP = fin (rnd fmt64 (L + -P)) c := hc
      rw [gc]
      -- the difference is below minus a nine-thousandth, up to rounding
      have hle : rnd fmt64 (L + -P) ≤ rnd fmt64 (-1 / 9000) := rnd_mono (by linarith)
      have hge : -(2 ^ 40) ≤ rnd fmt64 (L + -P) := le_rnd (by
        have : Rep fmt64 (pow2 40) := Go.rep_pow2 (by decide)
        rw [show (40 : ℤ) = ((40 : ℕ) : ℤ) from rfl, pow2_nat] at this
        exact this.neg) (by linarith)
      generalize rnd fmt64 (L + -P) = v at *
      obtain ⟨rs, hrs⟩ : ∃ rs, raw.reverse = l :: rs := by
        cases hr : raw.reverse with
        | nil => rw [← List.head?_reverse, hr] at hl; cases hl
        | cons a rs => rw [← List.head?_reverse, hr] at hl; cases hl; exact ⟨rs, rfl⟩
      rw [hrs]
      unfold MultiCurve.trimRev
      obtain ⟨n, z, hn, n0, -⟩ := hl1 l (List.mem_of_getLast? hl)
      have hwn : WF (fin n z : F32) := by rw [← hn]; exact cvt_wf
      obtain ⟨d, hd⟩ := ofRat64_fin (q := v + rnd fmt64 0.0001) (by
          have a : rnd fmt64 0.0001 ≤ 1 := by decide +kernel
          have b : 0 ≤ rnd fmt64 0.0001 := by decide +kernel
          have e : rnd fmt64 (-1 / 9000) ≤ 0 := by decide +kernel
          have t : (2:ℚ) ^ 40 + 1 ≤ 2 ^ 120 := by norm_num
          rw [abs_le]; constructor <;> linarith)
        (signbit (fin v c : F64) && signbit (fin (rnd fmt64 0.0001) false : F64))
      have gs : (fin v c : F64) +. lit 0.0001 = fin (rnd fmt64 (v + rnd fmt64 0.0001)) d := by
        rw [show (lit 0.0001 : F64) = fin (rnd fmt64 0.0001) false by decide +kernel]; exact hd
      have hneg : rnd fmt64 (v + rnd fmt64 0.0001) < 0 := by
        refine _root_.lt_of_le_of_lt (b := rnd fmt64 (rnd fmt64 (-1 / 9000) + rnd fmt64 0.0001)) (rnd_mono (by linarith)) (by decide +kernel)
      rw [if_pos, if_pos hq, ← hrs, List.reverse_reverse]
      rw [hn, up_fin hwn, gs]
      change Fl.lt _ _ = true
      simp only [Fl.lt, decide_eq_true_eq]
      linarith
    · rfl
  exact ⟨key, by rw [(newT_measured h).1, key]; exact hL⟩

/-! ### Straight sliders -/

/-- The length of the polyline through the given points. -/
noncomputable def Spec.polyLength : List (ℚ × ℚ) → ℝ
  | a :: b :: rest => √(((b.1 - a.1 : ℚ) : ℝ) ^ 2 + ((b.2 - a.2 : ℚ) : ℝ) ^ 2) + Spec.polyLength (b :: rest)
  | _ => 0

/-- Consecutive points are equal or at least 2^-19 apart in a coordinate. -/
def Spec.CoordsApart : List (ℚ × ℚ) → Prop
  | a :: b :: rest => (a = b ∨ 1 / 2 ^ 19 ≤ |b.1 - a.1| ∨ 1 / 2 ^ 19 ≤ |b.2 - a.2|) ∧ Spec.CoordsApart (b :: rest)
  | _ => True

/-- The lines of a straight slider, and the sum of their float32 lengths. -/
theorem linear_lines {pts : List (Vec F32)} {cs : List (ℚ × ℚ)} (hpts : List.Forall₂ (fun p c => Spec.At p c.1 c.2) pts cs)
    {B : ℚ} (hB : B ≤ 2 ^ 17) (hcs : ∀ c ∈ cs, |c.1| ≤ B ∧ |c.2| ≤ B) (hap : Spec.CoordsApart cs) :
    (∀ l ∈ processLinear pts, VB B l.p1 ∧ VB B l.p2 ∧ l.p1.eq l.p2 = false ∧
      Fl.le (fin (1 / 2 ^ 48) false) (l.getLength (D := F64)) = true) ∧
    |((lenSum (processLinear pts) : ℚ) : ℝ) - Spec.polyLength cs| ≤
      Spec.polyLength cs / 2 ^ 21 + (processLinear pts).length * (1 / 2 ^ 58) ∧ 0 ≤ Spec.polyLength cs := by
  induction hpts with
  | nil => exact ⟨by simp [processLinear], by simp [processLinear, lenSum, Spec.polyLength], by simp [Spec.polyLength]⟩
  | @cons p c pts cs h1 h2 ih =>
    cases h2 with
    | nil => exact ⟨by simp [processLinear], by simp [processLinear, lenSum, Spec.polyLength], by simp [Spec.polyLength]⟩
    | @cons q d pts cs h3 h4 =>
      obtain ⟨i1, i2, i3⟩ := ih (fun c hc => hcs c (by simp [hc])) hap.2
      have bc := hcs c (by simp)
      have bd := hcs d (by simp)
      obtain ⟨sx1, sy1, e1⟩ := h1
      obtain ⟨sx2, sy2, e2⟩ := h3
      have B21 : B ≤ 2 ^ 21 := hB.trans (by norm_num)
      have hN : Spec.polyLength (c :: d :: cs) = norm2 (d.1 - c.1) (d.2 - c.2) + Spec.polyLength (d :: cs) := by
        rw [Spec.polyLength]
        unfold norm2
        push_cast
        rfl
      have hN0 := norm2_nonneg (d.1 - c.1) (d.2 - c.2)
      rw [processLinear]
      cases he : p.eq q with
      | true =>
        rw [if_pos rfl]
        have : norm2 (d.1 - c.1) (d.2 - c.2) = 0 := by
          rw [e1, e2] at he
          unfold Vec.eq at he
          simp only [Bool.and_eq_true, go_eq, Fl.eq, decide_eq_true_eq] at he
          unfold norm2
          rw [he.1, he.2]
          simp
        rw [hN, this, zero_add]
        exact ⟨i1, i2, i3⟩
      | false =>
        rw [if_neg (by decide)]
        obtain ⟨n, z, hn, n0, hne⟩ := getLength_error (l := ⟨p, q⟩) e1 e2 (bc.1.trans B21) (bc.2.trans B21) (bd.1.trans B21) (bd.2.trans B21)
        refine ⟨?_, ?_, ?_⟩
        · intro l hl
          rcases List.mem_cons.mp hl with rfl | hl
          · refine ⟨⟨c.1, c.2, ⟨sx1, sy1, e1⟩, bc⟩, ⟨d.1, d.2, ⟨sx2, sy2, e2⟩, bd⟩, he, ?_⟩
            rcases hap.1 with rfl | h
            · rw [e1, e2] at he
              unfold Vec.eq at he
              simp [go_eq, Fl.eq] at he
            · exact apart_length (l := ⟨p, q⟩) ⟨sx1, sy1, e1⟩ ⟨sx2, sy2, e2⟩ hB bc.1 bc.2 bd.1 bd.2 h
          · exact i1 l hl
        · have hs : lenSum (⟨p, q⟩ :: processLinear (q :: pts)) = n + lenSum (processLinear (q :: pts)) := by
            unfold lenSum; rw [List.map_cons, List.sum_cons, lenQ_eq hn]
          rw [hs, hN, List.length_cons]
          push_cast
          rw [add_div, add_mul, one_mul]
          obtain ⟨a1, a2⟩ := abs_le.mp hne
          obtain ⟨b1, b2⟩ := abs_le.mp i2
          rw [abs_le]
          constructor <;> linarith
        · rw [hN]; linarith

/-- C84 (IEEE). The length of a straight slider is its written pixel length: for control points within 2^k that are equal
or at least 2^-19 apart, not all equal, and any pixel length up to 2^j; `S` is the length of the polyline of the control
points. -/
theorem C84_linear [GoLibm F64] {fuel : ℕ} {pts : List (Vec F32)} {P : ℚ} {zP : Bool}
    {mc : MultiCurve F32} (h : MultiCurve.newT fuel ['L'] pts (fin P zP : F64) = .ok mc)
    {cs : List (ℚ × ℚ)} (hpts : List.Forall₂ (fun p c => Spec.At p c.1 c.2) pts cs) (hlen : cs.length ≤ 2 ^ 20)
    {k : ℕ} {j : ℤ} (hk : k ≤ 17) (hj0 : -9 ≤ j) (hj1 : j ≤ 17) (hcs : ∀ c ∈ cs, |c.1| ≤ 2 ^ k ∧ |c.2| ≤ 2 ^ k)
    (hap : Spec.CoordsApart cs) (hS : 1 / 2 ^ 19 ≤ Spec.polyLength cs) (hP0 : 0 ≤ P) (hP : P ≤ pow2 j) :
    ∃ C z, mc.length = fin C z ∧ 0 ≤ C ∧
      |(C : ℝ) - P| ≤ 1 / 5000 + (2 ^ k + (pow2 j : ℚ)) / 2 ^ 15 + cs.length * (2 * Spec.polyLength cs + P) / 2 ^ 21 := by
  have hB1 : (2:ℚ) ^ k ≤ 2 ^ 17 := pow_le_pow_right₀ (by norm_num) hk
  obtain ⟨q1, q2, q3⟩ := linear_lines hpts hB1 hcs hap
  have hraw : processType (D := F64) fuel ['L'] pts = .ok (processLinear pts) := rfl
  have hn : (processLinear pts).length ≤ cs.length := by
    rw [← hpts.length_eq]; exact processLinear_length pts
  have hR : ((processLinear pts).length : ℚ) ≤ 2 ^ 20 := by exact_mod_cast hn.trans hlen
  have hR0 : (0:ℚ) ≤ (processLinear pts).length := Nat.cast_nonneg _
  -- the float32 sum
  obtain ⟨L, zL, hL, L0, -⟩ : In32 0 ((processLinear pts).length * pow2 19) (MultiCurve.totalLength (D := F64) (processLinear pts)) := by
    refine totalLength_bound _ (by norm_num) (by norm_num) (fun l hl => ?_) ((hn.trans hlen).trans (by norm_num))
    have vb : ∀ p, VB (2 ^ k) p → VBd ((17 : ℕ) : ℤ) p := by
      rintro p ⟨x, y, ⟨a, b, rfl⟩, hx, hy⟩
      exact ⟨⟨x, a, rfl, by rw [pow2_nat]; exact hx.trans hB1⟩, ⟨y, b, rfl, by rw [pow2_nat]; exact hy.trans hB1⟩⟩
    exact length_in (k := 17) (vb _ (q1 l hl).1) (vb _ (q1 l hl).2.1) (by norm_num) (by decide +kernel)
  have hz : (lit 0 : F32) = fin 0 false := ofRat_zero _
  have hLf : (processLinear pts).foldl (fun acc l => acc +. l.getLength (D := F64)) (fin 0 false : F32) = fin L zL := by
    rw [← hz]; exact hL
  obtain ⟨-, -, hLe⟩ := foldl_error _ zero_wf le_rfl hLf
  rw [zero_add] at hLe
  have hb : ((processLinear pts).length : ℚ) * (L / 2 ^ 23 + 1 / 2 ^ 149) ≤ L / 8 + 1 / 2 ^ 129 := by
    have := mul_le_mul_of_nonneg_right hR (show (0:ℚ) ≤ L / 2 ^ 23 + 1 / 2 ^ 149 by positivity)
    exact this.trans (le_of_eq (by ring))
  have hLR : |((L : ℚ) : ℝ) - (lenSum (processLinear pts) : ℚ)| ≤ (L : ℝ) / 8 + 1 / 2 ^ 129 := by
    have := (Rat.cast_le (K := ℝ)).mpr (hLe.trans hb)
    push_cast at this
    exact this
  obtain ⟨c1, c2⟩ := abs_le.mp hLR
  obtain ⟨d1, d2⟩ := abs_le.mp q2
  have hRr : ((processLinear pts).length : ℝ) ≤ 2 ^ 20 := by exact_mod_cast hn.trans hlen
  have hR58 : ((processLinear pts).length : ℝ) * (1 / 2 ^ 58) ≤ 1 / 2 ^ 38 := by
    have := mul_le_mul_of_nonneg_right hRr (show (0:ℝ) ≤ 1 / 2 ^ 58 by positivity)
    exact this.trans (le_of_eq (by norm_num))
  have n1 : (1:ℝ) / 2 ^ 38 + 1 / 2 ^ 129 ≤ 1 / 2 ^ 37 := by norm_num
  have n2 : (1:ℝ) / 2 ^ 19 = 2 ^ 18 * (1 / 2 ^ 37) := by norm_num
  have hLpos : 0 < L := by
    have : (0:ℝ) < L := by linarith
    exact_mod_cast this
  have hLS : (L : ℝ) ≤ 2 * Spec.polyLength cs := by linarith
  obtain ⟨C, z, hC, C0, hCP⟩ := C84_length h hraw (hn.trans hlen) hk hj0 hj1
    (fun l hl => ⟨(q1 l hl).1, (q1 l hl).2.1⟩) (fun l hl => .inr (q1 l hl).2.2.2) hL hLpos hP0 (by linarith)
    (.inr fun l hl => (q1 l (List.mem_of_getLast? hl)).2.2.1)
  refine ⟨C, z, hC, C0, ?_⟩
  have e := (Rat.cast_le (K := ℝ)).mpr hCP
  push_cast at e
  refine e.trans ?_
  have hnR : ((processLinear pts).length : ℝ) ≤ cs.length := by exact_mod_cast hn
  have hPR : (0:ℝ) ≤ P := by exact_mod_cast hP0
  have hLr : (0:ℝ) ≤ L := by exact_mod_cast L0
  have t : ((processLinear pts).length : ℝ) * ((L : ℝ) + P) ≤ cs.length * (2 * Spec.polyLength cs + P) :=
    mul_le_mul hnR (by linarith) (by linarith) (Nat.cast_nonneg _)
  have t' : ((processLinear pts).length : ℝ) * ((L : ℝ) + P) / 2 ^ 21 ≤ cs.length * (2 * Spec.polyLength cs + P) / 2 ^ 21 := by gcongr
  linarith

/-! ### Concrete cases -/

namespace Sample

private theorem twoPoints_poly : Spec.polyLength [(64, 64), (264, 64)] = 200 := by
  simp only [Spec.polyLength]
  norm_num
  rw [show (40000:ℝ) = 200 ^ 2 by norm_num, Real.sqrt_sq (by norm_num)]

/-- A straight slider of 200 px that is cut to 150.3 px, and one that is extended to 1000 px. -/
example (mc : MultiCurve F32) (P : ℚ) (hP0 : 0 ≤ P) (hP1 : P ≤ 1024)
    (h : @MultiCurve.newT F32 F64 _ _ _ libm 10 ['L'] twoPoints (fin P false) = .ok mc) :
    ∃ C z, mc.length = fin C z ∧ |(C : ℝ) - P| ≤ 1 / 10 := by
  letI := libm
  have e10 : pow2 10 = 1024 := by decide +kernel
  obtain ⟨C, z, h1, -, h2⟩ := C84_linear (k := 9) (j := 10) h (cs := [(64, 64), (264, 64)])
    (.cons ⟨_, _, rfl⟩ (.cons ⟨_, _, rfl⟩ .nil)) (by decide) (by norm_num) (by norm_num) (by norm_num)
    (by
      intro c hc
      simp only [List.mem_cons, List.not_mem_nil, or_false] at hc
      rcases hc with rfl | rfl <;> norm_num)
    ⟨.inr (.inl (by norm_num)), trivial⟩ (by rw [twoPoints_poly]; norm_num) hP0 (by rw [e10]; exact hP1)
  refine ⟨C, z, h1, h2.trans ?_⟩
  rw [twoPoints_poly, e10]
  have : (P : ℝ) ≤ 1024 := by exact_mod_cast hP1
  norm_num
  linarith
example : ((@MultiCurve.newT F32 F64 _ _ _ libm 10 ['L'] twoPoints (lit 150.3)).bind fun mc => .ok mc.length) = .ok (lit 150.3) := by
  decide +kernel
example : ((@MultiCurve.newT F32 F64 _ _ _ libm 10 ['L'] twoPoints (fin 1000 false)).bind fun mc => .ok mc.length) =
    .ok (fin 1000 false) := by decide +kernel

/-- A Bézier slider from (0, 0) to (100, 0) whose last control point is given three times. -/
def repeatedEnd : List (Vec F32) :=
  [⟨fin 0 false, fin 0 false⟩, ⟨fin 100 false, fin 0 false⟩, ⟨fin 100 false, fin 0 false⟩, ⟨fin 100 false, fin 0 false⟩]

example : (match @processType F32 F64 _ _ _ libm 10 ['B'] repeatedEnd with
    | .ok raw => decide (MultiCurve.totalLength (D := F64) raw = fin 100 false) &&
        (match raw.getLast? with | some l => l.p1.eq l.p2 | none => false)
    | _ => false) = true := by decide +kernel
/-- Its pixel length is 1000, its length is 100. -/
example : ((@MultiCurve.newT F32 F64 _ _ _ libm 10 ['B'] repeatedEnd (fin 1000 false)).bind fun mc => .ok mc.length) =
    .ok (fin 100 false) := by decide +kernel

end Sample

end GosuPP
