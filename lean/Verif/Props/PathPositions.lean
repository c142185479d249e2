import Verif.Lemmas.PathTrim
import Verif.Props.Curves

/-!
C82: positions on slider paths, in IEEE arithmetic.
-/

namespace GosuPP
open Go Fl
open GosuPP.Fl (NN0)

namespace Spec

/-- The point has these finite coordinates. -/
def At (p : Vec F32) (x y : ℚ) : Prop := ∃ a b, p = ⟨fin x a, fin y b⟩

/-- The point is, up to `ε` in each coordinate, on the line or at most `D` (in each coordinate)
beyond its end: it is near `p1 + s (p2 - p1)` for some `s ≥ 0`, the same for both coordinates. -/
def NearLine (p1 p2 : Vec F32) (D ε : ℚ) (p : Vec F32) : Prop :=
  ∃ x1 y1 x2 y2 x y s : ℚ, At p1 x1 y1 ∧ At p2 x2 y2 ∧ At p x y ∧ 0 ≤ s ∧
    (s - 1) * |x2 - x1| ≤ D ∧ (s - 1) * |y2 - y1| ≤ D ∧
    |x - (x1 + s * (x2 - x1))| ≤ ε ∧ |y - (y1 + s * (y2 - y1))| ≤ ε

end Spec

/-- Coordinates between `-B` and `B`. -/
def VB (B : ℚ) (p : Vec F32) : Prop := ∃ x y, Spec.At p x y ∧ |x| ≤ B ∧ |y| ≤ B

private theorem VB.bd {k : ℤ} {p : Vec F32} (h : VB (pow2 k) p) : VBd k p := by
  obtain ⟨x, y, ⟨a, b, rfl⟩, hx, hy⟩ := h
  exact ⟨⟨x, a, rfl, hx⟩, ⟨y, b, rfl, hy⟩⟩

theorem length_in {k : ℕ} {l : Linear F32} (h1 : VBd k l.p1) (h2 : VBd k l.p2) (hk : k < 58)
    (hs : Go.Fl.sqrt (fin (2 ^ (2 * (k + 2))) false : F64) = fin (2 ^ (k + 2)) false) :
    In32 0 (pow2 ((k + 2 : ℕ) : ℤ)) (l.getLength (D := F64)) := by
  have h := VBd.dst h1 h2 hk hs
  obtain ⟨v, z, hv, hb⟩ := h
  have hf : Fin (l.getLength (D := F64)) := ⟨v, z, hv⟩
  have hn := (getLength_fin hf).1
  rw [show l.getLength (D := F64) = fin v z from hv] at hn
  exact ⟨v, z, hv, nonNeg_fin.mp hn, (abs_le.mp hb).2⟩

/-- A fraction of a line. -/
private theorem lerp_near {l : Linear F32} {B : ℚ} (h1 : VB B l.p1) (h2 : VB B l.p2) (hB0 : 1 ≤ B) (hB1 : B ≤ 2 ^ 30)
    {u : F32} (hu : In32 0 1 u) :
    ∃ x1 y1 x2 y2 x y s : ℚ, Spec.At l.p1 x1 y1 ∧ Spec.At l.p2 x2 y2 ∧ Spec.At (l.pointAt u) x y ∧ 0 ≤ s ∧ s ≤ 1 ∧
      |x - (x1 + s * (x2 - x1))| ≤ 2 * B / 2 ^ 22 ∧ |y - (y1 + s * (y2 - y1))| ≤ 2 * B / 2 ^ 22 := by
  obtain ⟨x1, y1, ⟨a, b, e1⟩, bx1, by1⟩ := h1
  obtain ⟨x2, y2, ⟨c, d, e2⟩, bx2, by2⟩ := h2
  obtain ⟨s, z, rfl, s0, s1⟩ := hu
  have hs60 : s ≤ 2 ^ 80 := s1.trans (by norm_num)
  have hM1 : 2 * B ≤ 2 ^ 100 := by
    have : (2:ℚ) * 2 ^ 30 ≤ 2 ^ 100 := by norm_num
    linarith
  have hM0 : 1 / 2 ^ 20 ≤ 2 * B := by
    have : (1:ℚ) / 2 ^ 20 ≤ 2 := by norm_num
    linarith
  obtain ⟨x, cx, hx, ex⟩ := lerp_coord (za := a) (zb := c) (zq := z) bx1 bx2 s0 hs60 le_rfl
    (by have := abs_sub x2 x1
        nlinarith [abs_nonneg (x2 - x1)]) hM0 hM1
  obtain ⟨y, cy, hy, ey⟩ := lerp_coord (za := b) (zb := d) (zq := z) by1 by2 s0 hs60 le_rfl
    (by have := abs_sub y2 y1
        nlinarith [abs_nonneg (y2 - y1)]) hM0 hM1
  refine ⟨x1, y1, x2, y2, x, y, s, ⟨a, b, e1⟩, ⟨c, d, e2⟩, ⟨cx, cy, ?_⟩, s0, s1, ex, ey⟩
  unfold Linear.pointAt Vec.lerp
  rw [e1, e2]
  simp only [hx, hy]

/-- Arithmetic of the extension. -/
private theorem ratio_coord {Δ n q B D : ℚ} (hn0 : 1 / 2 ^ 48 ≤ n) (hΔ : |Δ| ≤ 2 * n ∨ |Δ| ≤ 1 / 2 ^ 60) (hB : |Δ| ≤ 2 * B)
    (hB0 : 1 ≤ B) (hD0 : 1 / 2 ^ 9 ≤ D) (hD1 : D ≤ 2 ^ 30) (hq0 : 0 ≤ q) (hq : q * n ≤ (n + D) * (1 + 1 / 2 ^ 22)) :
    |Δ| * q ≤ 4 * (B + D) ∧ (q - 1) * |Δ| ≤ 3 * D + B / 2 ^ 20 := by
  have n0 : 0 < n := _root_.lt_of_lt_of_le (by positivity) hn0
  have q1 : q ≤ (1 + D / n) * (1 + 1 / 2 ^ 22) := by
    have : (1 + D / n) * (1 + 1 / 2 ^ 22) = (n + D) * (1 + 1 / 2 ^ 22) / n := by field_simp
    rw [this, le_div_iff₀ n0]
    exact hq
  have D0 : 0 < D := _root_.lt_of_lt_of_le (by positivity) hD0
  have A0 := abs_nonneg Δ
  generalize |Δ| = A at *
  have m1 : A * q ≤ (A + A * (D / n)) * (1 + 1 / 2 ^ 22) := by
    calc A * q ≤ A * ((1 + D / n) * (1 + 1 / 2 ^ 22)) := mul_le_mul_of_nonneg_left q1 A0
      _ = _ := by ring
  have m2 : A * (D / n) ≤ 2 * D := by
    rcases hΔ with h | h
    · calc A * (D / n) ≤ 2 * n * (D / n) := mul_le_mul_of_nonneg_right h (by positivity)
        _ = 2 * D := by field_simp
    · have : D / n ≤ D * 2 ^ 48 := by
        rw [div_le_iff₀ n0]
        have : D * 2 ^ 48 * (1 / 2 ^ 48) ≤ D * 2 ^ 48 * n := mul_le_mul_of_nonneg_left hn0 (by positivity)
        linarith [show D * 2 ^ 48 * (1 / 2 ^ 48) = D by ring]
      calc A * (D / n) ≤ 1 / 2 ^ 60 * (D * 2 ^ 48) := mul_le_mul h this (by positivity) (by positivity)
        _ = D * (2 ^ 48 / 2 ^ 60) := by ring
        _ ≤ D * 2 := mul_le_mul_of_nonneg_left (by norm_num) D0.le
        _ = _ := by ring
  have m3 : (A + A * (D / n)) * (1 + 1 / 2 ^ 22) ≤ (A + 2 * D) * (1 + 1 / 2 ^ 22) := by gcongr
  have m4 : (A + 2 * D) * (1 + 1 / 2 ^ 22) = A + 2 * D + A / 2 ^ 22 + 2 * D / 2 ^ 22 := by ring
  have m5 : A / 2 ^ 22 ≤ B / 2 ^ 20 := by
    rw [div_le_div_iff₀ (by positivity) (by positivity)]
    nlinarith
  have m6 : 2 * D / 2 ^ 22 ≤ D := by
    rw [div_le_iff₀ (by positivity)]
    nlinarith
  have m7 : B / 2 ^ 20 ≤ B := div_le_self (by linarith) (by norm_num)
  constructor
  · linarith
  · have : (q - 1) * A = A * q - A := by ring
    rw [this]
    linarith

/-- The end of a trimmed or extended line. -/
theorem trimmed_near {raw : Linear F32} {k : ℕ} {j : ℤ} (hk : k ≤ 17) (hj0 : -9 ≤ j) (hj1 : j ≤ 17)
    (h1 : VB (2 ^ k) raw.p1) (h2 : VB (2 ^ k) raw.p2) {n v : ℚ} {zn zv : Bool} (hn : raw.getLength (D := F64) = fin n zn)
    (hn0 : 1 / 2 ^ 48 ≤ n) (hn1 : n ≤ 2 ^ 40) (hv0 : -pow2 j ≤ v) (hv1 : v ≤ n) :
    ∃ x1 y1 x2 y2 x y q : ℚ, |q * n - (n - v)| ≤ (n + pow2 j) / 2 ^ 21 ∧ Spec.At raw.p1 x1 y1 ∧ Spec.At raw.p2 x2 y2 ∧
      Spec.At (raw.pointAt ((fin n zn -. down (fin v zv : F64)) /. fin n zn)) x y ∧ 0 ≤ q ∧
      (q - 1) * |x2 - x1| ≤ 3 * pow2 j + 2 ^ k / 2 ^ 20 ∧ (q - 1) * |y2 - y1| ≤ 3 * pow2 j + 2 ^ k / 2 ^ 20 ∧
      |x - (x1 + q * (x2 - x1))| ≤ 4 * (2 ^ k + pow2 j) / 2 ^ 22 ∧ |y - (y1 + q * (y2 - y1))| ≤ 4 * (2 ^ k + pow2 j) / 2 ^ 22 ∧
      |x| ≤ 6 * (2 ^ k + pow2 j) ∧ |y| ≤ 6 * (2 ^ k + pow2 j) := by
  have hwn : WF (fin n zn : F32) := by rw [← hn]; exact cvt_wf
  obtain ⟨q, z, hq, q0, q1, qe⟩ := trim_ratio (zv := zv) hwn hn0 hn1 hj0 (by omega) hv0 hv1
  rw [hq]
  obtain ⟨x1, y1, ⟨a, b, e1⟩, bx1, by1⟩ := h1
  obtain ⟨x2, y2, ⟨c, d, e2⟩, bx2, by2⟩ := h2
  have hB0 : (1:ℚ) ≤ 2 ^ k := one_le_pow₀ (by norm_num)
  have hB1 : (2:ℚ) ^ k ≤ 2 ^ 17 := pow_le_pow_right₀ (by norm_num) hk
  have hD1 : pow2 j ≤ 2 ^ 17 := by
    have := pow2_mono hj1
    rwa [show (17 : ℤ) = ((17 : ℕ) : ℤ) from rfl, pow2_nat] at this
  have hD0 : 1 / 2 ^ 9 ≤ pow2 j := by
    have := pow2_mono hj0
    have e9 : pow2 (-9) = 1 / 2 ^ 9 := by rw [show (-9 : ℤ) = -((9 : ℕ) : ℤ) from rfl, pow2_eq, zpow_neg]; norm_num
    rwa [e9] at this
  have hD := pow2_pos j
  have t59 : (2:ℚ) ^ 17 ≤ 2 ^ 59 := by norm_num
  obtain ⟨gx, gy⟩ := getLength_ge e1 e2 (by linarith) (by linarith) (by linarith) (by linarith) hn
  generalize pow2 j = D at *
  generalize (2:ℚ) ^ k = B at *
  have t30 : D ≤ 2 ^ 30 := hD1.trans (by norm_num)
  obtain ⟨mx, rx⟩ := ratio_coord hn0 gx (by linarith [abs_sub x2 x1]) hB0 hD0 t30 q0 q1
  obtain ⟨my, ry⟩ := ratio_coord hn0 gy (by linarith [abs_sub y2 y1]) hB0 hD0 t30 q0 q1
  have q60 : q ≤ 2 ^ 80 := by
    have n0 : 0 < n := _root_.lt_of_lt_of_le (by positivity) hn0
    have h1 : q * n ≤ (n + D) * 2 := q1.trans (mul_le_mul_of_nonneg_left (by norm_num) (by linarith))
    by_contra hc
    push Not at hc
    have h2 : 2 ^ 80 * n < q * n := mul_lt_mul_of_pos_right hc n0
    have t1 : 2 * D ≤ 2 ^ 18 := by linarith [show (2:ℚ) * 2 ^ 17 = 2 ^ 18 by norm_num]
    have t2 : (2 ^ 80 - 2) * (1 / 2 ^ 48) ≤ (2 ^ 80 - 2) * n := mul_le_mul_of_nonneg_left hn0 (by norm_num)
    have t3 : (2:ℚ) ^ 18 < (2 ^ 80 - 2) * (1 / 2 ^ 48) := by norm_num
    linarith
  have hM1 : 4 * (B + D) ≤ 2 ^ 100 := by
    have : (4:ℚ) * (2 ^ 17 + 2 ^ 17) ≤ 2 ^ 100 := by norm_num
    linarith
  have hM0 : 1 / 2 ^ 20 ≤ 4 * (B + D) := by
    have : (1:ℚ) / 2 ^ 20 ≤ 2 := by norm_num
    linarith
  obtain ⟨x, cx, hx, ex⟩ := lerp_coord (za := a) (zb := c) (zq := z) bx1 bx2 q0 q60 (by linarith) mx hM0 hM1
  obtain ⟨y, cy, hy, ey⟩ := lerp_coord (za := b) (zb := d) (zq := z) by1 by2 q0 q60 (by linarith) my hM0 hM1
  have bnd : ∀ w w1 Δ : ℚ, |w - (w1 + q * Δ)| ≤ 4 * (B + D) / 2 ^ 22 → |w1| ≤ B → |Δ| * q ≤ 4 * (B + D) →
      |w| ≤ 6 * (B + D) := by
    intro w w1 Δ h1 h2 h3
    have e : w = (w - (w1 + q * Δ)) + w1 + q * Δ := by ring
    have h4 := abs_add_three (w - (w1 + q * Δ)) w1 (q * Δ)
    rw [← e, abs_mul, abs_of_nonneg q0] at h4
    have : 4 * (B + D) / 2 ^ 22 ≤ B + D := by
      rw [div_le_iff₀ (by positivity)]
      nlinarith
    linarith
  refine ⟨x1, y1, x2, y2, x, y, q, qe, ⟨a, b, e1⟩, ⟨c, d, e2⟩, ⟨cx, cy, ?_⟩, q0, rx, ry, ex, ey,
    bnd _ _ _ ex bx1 mx, bnd _ _ _ ey by1 my⟩
  unfold Linear.pointAt Vec.lerp
  rw [e1, e2]
  simp only [hx, hy]

private theorem At.inj {p : Vec F32} {x y x' y' : ℚ} (h : Spec.At p x y) (h' : Spec.At p x' y') : x = x' ∧ y = y' := by
  obtain ⟨a, b, rfl⟩ := h
  obtain ⟨c, d, e⟩ := h'
  cases e
  exact ⟨rfl, rfl⟩

/-- Positions of a path made of lines: near a line that the path is made of. -/
theorem C82_positions [GoLibm F64] {fuel : ℕ} {typ : Str} {points : List (Vec F32)} {P : ℚ} {zP : Bool}
    {mc : MultiCurve F32} (h : MultiCurve.newT fuel typ points (fin P zP : F64) = .ok mc)
    {raw : List (Linear F32)} (hraw : processType (D := F64) fuel typ points = .ok raw) (hlen : raw.length ≤ 2 ^ 20)
    {k : ℕ} {j : ℤ} (hk : k ≤ 17) (hj0 : -9 ≤ j) (hj1 : j ≤ 17)
    (hin : ∀ l ∈ raw, (∃ x y, Spec.At l.p1 x y ∧ |x| ≤ 2 ^ k ∧ |y| ≤ 2 ^ k) ∧ ∃ x y, Spec.At l.p2 x y ∧ |x| ≤ 2 ^ k ∧ |y| ≤ 2 ^ k)
    (htiny : ∀ l ∈ raw, l.p1.eq l.p2 = true ∨ Fl.le (fin (1 / 2 ^ 48) false) (l.getLength (D := F64)) = true)
    (hP0 : -(2 ^ 39) ≤ P) (hP : ∀ L z, MultiCurve.totalLength (D := F64) raw = fin L z → P ≤ L + pow2 j) :
    Fin mc.length ∧ ∀ t : F32, NN t → ∃ p, mc.pointAt (D := F64) t = .ok p ∧
      (points[0]? = some p ∨ ∃ l ∈ raw, Spec.NearLine l.p1 l.p2 (3 * pow2 j + 2 ^ k / 2 ^ 20) ((2 ^ k + pow2 j) / 2 ^ 18) p) := by
  have hmeas := newT_measured h
  have hB0 : (1:ℚ) ≤ 2 ^ k := one_le_pow₀ (by norm_num)
  have hB1 : (2:ℚ) ^ k ≤ 2 ^ 17 := pow_le_pow_right₀ (by norm_num) hk
  have hD1 : pow2 j ≤ 2 ^ 17 := by
    have := pow2_mono hj1
    rwa [show (17 : ℤ) = ((17 : ℕ) : ℤ) from rfl, pow2_nat] at this
  have hD := pow2_pos j
  have mono17 : ∀ p, VB (2 ^ k) p → VBd ((17 : ℕ) : ℤ) p := by
    rintro p ⟨x, y, hp, hx, hy⟩
    apply VB.bd
    rw [pow2_nat]
    exact ⟨x, y, hp, hx.trans hB1, hy.trans hB1⟩
  have rawlen : ∀ l ∈ raw, In32 0 (pow2 19) (l.getLength (D := F64)) := fun l hl =>
    length_in (k := 17) (mono17 _ (hin l hl).1) (mono17 _ (hin l hl).2) (by norm_num) (by decide +kernel)
  have p19 : pow2 19 = 2 ^ 19 := by rw [show (19 : ℤ) = ((19 : ℕ) : ℤ) from rfl, pow2_nat]
  obtain ⟨L, zL, hL, L0, L1⟩ := totalLength_bound raw (by norm_num) (by norm_num) rawlen (hlen.trans (by norm_num))
  have L39 : L ≤ 2 ^ 39 := by
    refine L1.trans ?_
    rw [p19]
    have : (raw.length : ℚ) ≤ 2 ^ 20 := by exact_mod_cast hlen
    calc (raw.length : ℚ) * 2 ^ 19 ≤ 2 ^ 20 * 2 ^ 19 := mul_le_mul_of_nonneg_right this (by norm_num)
      _ = _ := by norm_num
  have hP' := hP L zL hL
  -- the lines of the path
  have hlines : mc.lines.length ≤ raw.length ∧ points[0]? = some mc.firstPoint ∧
      ∀ l ∈ mc.lines, l ∈ raw ∨ ∃ r ∈ raw, ∃ n zn v' z', r.getLength (D := F64) = fin n zn ∧ -pow2 j ≤ v' ∧ v' ≤ n ∧
        r.p1.eq r.p2 = false ∧ l = ⟨r.p1, r.pointAt ((fin n zn -. down (fin v' z' : F64)) /. fin n zn)⟩ := by
    unfold MultiCurve.newT at h
    rw [hraw] at h
    obtain ⟨lines, h1, h⟩ := bind_ok h
    cases h1
    obtain ⟨fp, h2, h⟩ := bind_ok h
    have hfp : points[0]? = some fp := by
      unfold index at h2
      rw [if_neg (by norm_num)] at h2
      cases hp : points[0]? with
      | none => simp [hp] at h2
      | some q => simp [hp] at h2; rw [h2]
    cases h
    simp only
    refine ⟨?_, hfp, ?_⟩
    · split
      · rw [List.length_reverse]
        exact (trimRev_length_le _ _).trans (by simp)
      · exact le_rfl
    · split
      · rename_i hgt
        have hwL : WF (fin L zL : F32) := by
          rw [← hL]
          have hz : (lit 0 : F32) = fin 0 false := ofRat_zero _
          have w0 : WF (lit 0 : F32) := by rw [hz]; exact ⟨Rep.zero, by simpa using pow2_pos _, by simp⟩
          have : ∀ (ls : List (Linear F32)) (p : F32), WF p → WF (ls.foldl (fun acc l => acc +. l.getLength (D := F64)) p) := by
            intro ls
            induction ls with
            | nil => intro p hp; exact hp
            | cons l ls ih => intro p hp; exact ih _ (add_wf hp cvt_wf)
          exact this _ _ w0
        rw [hL]
        have hup : (up (fin L zL : F32) : F64) = fin L zL := up_fin hwL
        rw [hup]
        have t40 : (2:ℚ) ^ 39 + 2 ^ 39 = 2 ^ 40 := by norm_num
        have t120 : (2:ℚ) ^ 40 ≤ 2 ^ 120 := by norm_num
        have t17 : (2:ℚ) ^ 17 ≤ 2 ^ 120 := by norm_num
        obtain ⟨c, hc⟩ := ofRat64_fin (q := L + -P) (by rw [abs_le]; constructor <;> linarith)
          (signbit (fin L zL : F64) && signbit (neg (fin P zP) : F64))
        have gc : (fin L zL : F64) -. fin P zP = fin (rnd fmt64 (L + -P)) c := hc
        rw [gc]
        have hw : WF (fin (rnd fmt64 (L + -P)) c : F64) := by rw [← hc]; exact ofRat_wf _ _
        have hrj : Rep fmt64 (pow2 j) := Go.rep_pow2 (by show (-1074 : ℤ) ≤ _; omega)
        have hr40 : Rep fmt64 (2 ^ 40) := by
          have : Rep fmt64 (pow2 40) := Go.rep_pow2 (by decide)
          rwa [show (40 : ℤ) = ((40 : ℕ) : ℤ) from rfl, pow2_nat] at this
        intro l hl
        rw [List.mem_reverse] at hl
        rcases trimRev_mem raw.reverse hw hj0 (by omega) (le_rnd hrj.neg (by linarith)) (rnd_le hr40 (by linarith))
          (by
            intro l hl
            obtain ⟨n, zn, hn, n0, n1⟩ := rawlen l (by simpa using hl)
            refine ⟨n, zn, hn, n0, n1.trans ?_⟩
            rw [p19]; norm_num) l hl with h | ⟨r, hr, h⟩
        · exact .inl (by simpa using h)
        · exact .inr ⟨r, by simpa using hr, h⟩
      · intro l hl
        exact .inl hl
  obtain ⟨hll, hfp, hlines⟩ := hlines
  -- each line of the path, compared with a given line
  have hcmp : ∀ l ∈ mc.lines, VB (6 * (2 ^ k + pow2 j)) l.p1 ∧ VB (6 * (2 ^ k + pow2 j)) l.p2 ∧
      ∀ p, (p = l.p1 ∨ ∃ u, In32 0 1 u ∧ p = l.pointAt u) →
        ∃ r ∈ raw, Spec.NearLine r.p1 r.p2 (3 * pow2 j + 2 ^ k / 2 ^ 20) ((2 ^ k + pow2 j) / 2 ^ 18) p := by
    intro l hl
    have hpos : (0:ℚ) ≤ 3 * pow2 j + 2 ^ k / 2 ^ 20 := by positivity
    have hsmall : 2 * (2:ℚ) ^ k / 2 ^ 22 ≤ (2 ^ k + pow2 j) / 2 ^ 18 := by
      rw [div_le_div_iff₀ (by positivity) (by positivity)]
      nlinarith
    have hneg : ∀ s A : ℚ, s ≤ 1 → 0 ≤ A → (s - 1) * A ≤ 3 * pow2 j + 2 ^ k / 2 ^ 20 := by
      intro s A h1 h2
      have : (s - 1) * A ≤ 0 := mul_nonpos_of_nonpos_of_nonneg (by linarith) h2
      linarith
    have start : ∀ r ∈ raw, Spec.NearLine r.p1 r.p2 (3 * pow2 j + 2 ^ k / 2 ^ 20) ((2 ^ k + pow2 j) / 2 ^ 18) r.p1 := by
      intro r hr
      obtain ⟨⟨x1, y1, a1, -, -⟩, ⟨x2, y2, a2, -, -⟩⟩ := hin r hr
      refine ⟨x1, y1, x2, y2, x1, y1, 0, a1, a2, a1, le_rfl, hneg _ _ (by norm_num) (abs_nonneg _),
        hneg _ _ (by norm_num) (abs_nonneg _), ?_, ?_⟩
      · rw [show x1 - (x1 + 0 * (x2 - x1)) = 0 by ring, abs_zero]; positivity
      · rw [show y1 - (y1 + 0 * (y2 - y1)) = 0 by ring, abs_zero]; positivity
    have wide : ∀ p, VB (2 ^ k) p → VB (6 * (2 ^ k + pow2 j)) p := by
      rintro p ⟨x, y, hp, hx, hy⟩
      exact ⟨x, y, hp, by linarith, by linarith⟩
    rcases hlines l hl with hr | ⟨r, hr, n, zn, v', z', hn, v0, v1, hne, rfl⟩
    · refine ⟨wide _ (hin l hr).1, wide _ (hin l hr).2, ?_⟩
      rintro p (rfl | ⟨u, hu, rfl⟩)
      · exact ⟨l, hr, start l hr⟩
      · refine ⟨l, hr, ?_⟩
        obtain ⟨x1, y1, x2, y2, x, y, s, a1, a2, a3, s0, s1, ex, ey⟩ :=
          lerp_near (hin l hr).1 (hin l hr).2 hB0 (hB1.trans (by norm_num)) hu
        exact ⟨x1, y1, x2, y2, x, y, s, a1, a2, a3, s0, hneg _ _ s1 (abs_nonneg _), hneg _ _ s1 (abs_nonneg _),
          ex.trans hsmall, ey.trans hsmall⟩
    · have hn0 : 1 / 2 ^ 48 ≤ n := by
        rcases htiny r hr with h | h
        · rw [h] at hne; cases hne
        · rw [hn] at h
          simpa [Fl.le] using h
      obtain ⟨n', zn', hn', -, n1⟩ := rawlen r hr
      rw [hn] at hn'
      cases hn'
      obtain ⟨x1, y1, x2, y2, x, y, q, -, a1, a2, a3, q0, dx, dy, ex, ey, bx, by'⟩ :=
        trimmed_near (zv := z') hk hj0 hj1 (hin r hr).1 (hin r hr).2 hn hn0 (n1.trans (by rw [p19]; norm_num)) v0 v1
      refine ⟨wide _ (hin r hr).1, ⟨x, y, a3, bx, by'⟩, ?_⟩
      rintro p (rfl | ⟨u, hu, rfl⟩)
      · exact ⟨r, hr, start r hr⟩
      · refine ⟨r, hr, ?_⟩
        obtain ⟨x1', y1', x', y', px, py, s, b1, b2, b3, s0, s1, fx, fy⟩ :=
          lerp_near (l := ⟨r.p1, r.pointAt ((fin n zn -. down (fin v' z' : F64)) /. fin n zn)⟩)
            (wide _ (hin r hr).1) ⟨x, y, a3, bx, by'⟩ (B := 6 * (2 ^ k + pow2 j)) (by linarith)
            (by have : (6:ℚ) * (2 ^ 17 + 2 ^ 17) ≤ 2 ^ 30 := by norm_num
                linarith) hu
        obtain ⟨rfl, rfl⟩ := At.inj a1 b1
        obtain ⟨rfl, rfl⟩ := At.inj a3 b2
        have ext : ∀ A : ℚ, 0 ≤ A → (q - 1) * A ≤ 3 * pow2 j + 2 ^ k / 2 ^ 20 → (s * q - 1) * A ≤ 3 * pow2 j + 2 ^ k / 2 ^ 20 := by
          intro A hA hq
          have : s * q ≤ q := by nlinarith
          nlinarith
        have err : ∀ w c1 c2 e : ℚ, |e - (c1 + q * (c2 - c1))| ≤ 4 * (2 ^ k + pow2 j) / 2 ^ 22 →
            |w - (c1 + s * (e - c1))| ≤ 2 * (6 * (2 ^ k + pow2 j)) / 2 ^ 22 →
            |w - (c1 + s * q * (c2 - c1))| ≤ (2 ^ k + pow2 j) / 2 ^ 18 := by
          intro w c1 c2 e h1 h2
          have e1 : w - (c1 + s * q * (c2 - c1)) = (w - (c1 + s * (e - c1))) + s * (e - (c1 + q * (c2 - c1))) := by ring
          rw [e1]
          refine (abs_add_le _ _).trans ?_
          rw [abs_mul, abs_of_nonneg s0]
          have h3 : s * |e - (c1 + q * (c2 - c1))| ≤ 1 * (4 * (2 ^ k + pow2 j) / 2 ^ 22) :=
            mul_le_mul s1 h1 (abs_nonneg _) (by norm_num)
          have e2 : 2 * (6 * ((2:ℚ) ^ k + pow2 j)) / 2 ^ 22 + 1 * (4 * (2 ^ k + pow2 j) / 2 ^ 22) = (2 ^ k + pow2 j) / 2 ^ 18 := by ring
          linarith
        exact ⟨x1, y1, x2, y2, px, py, s * q, a1, a2, b3, by positivity, ext _ (abs_nonneg _) dx, ext _ (abs_nonneg _) dy,
          err _ _ _ _ ex fx, err _ _ _ _ ey fy⟩
  -- the length of the path
  have hfin : Fin mc.length := by
    rw [hmeas.1]
    have big : ∀ p, VB (6 * (2 ^ k + pow2 j)) p → VBd ((21 : ℕ) : ℤ) p := by
      rintro p ⟨x, y, hp, hx, hy⟩
      apply VB.bd
      rw [pow2_nat]
      have : (6:ℚ) * (2 ^ 17 + 2 ^ 17) ≤ 2 ^ 21 := by norm_num
      exact ⟨x, y, hp, by linarith, by linarith⟩
    obtain ⟨v, z, hv, -, -⟩ := totalLength_bound mc.lines (m := 23) (by norm_num) (by norm_num)
      (fun l hl => length_in (k := 21) (big _ (hcmp l hl).1) (big _ (hcmp l hl).2.1) (by norm_num) (by decide +kernel))
      ((hll.trans hlen).trans (by norm_num))
    exact ⟨v, z, hv⟩
  refine ⟨hfin, ?_⟩
  intro t ht
  rcases pointAt_on hmeas hfin ht with h1 | ⟨l, hl, u, hu, h1 | h1⟩
  · exact ⟨_, h1, .inl hfp⟩
  · exact ⟨_, h1, .inr ((hcmp l hl).2.2 _ (.inl rfl))⟩
  · exact ⟨_, h1, .inr ((hcmp l hl).2.2 _ (.inr ⟨u, hu, rfl⟩))⟩

/-! ### Straight sliders -/

theorem processLinear_mem (pts : List (Vec F32)) (l : Linear F32) (h : l ∈ processLinear pts) :
    ∃ i, pts[i]? = some l.p1 ∧ pts[i + 1]? = some l.p2 ∧ l.p1.eq l.p2 = false := by
  induction pts with
  | nil => cases h
  | cons a t ih =>
    cases t with
    | nil => cases h
    | cons b t =>
      rw [processLinear] at h
      split at h
      · obtain ⟨i, h1, h2, h3⟩ := ih h
        exact ⟨i + 1, by simpa using h1, by simpa using h2, h3⟩
      · rename_i hne
        rw [List.mem_cons] at h
        rcases h with rfl | h
        · exact ⟨0, rfl, rfl, by simpa using hne⟩
        · obtain ⟨i, h1, h2, h3⟩ := ih h
          exact ⟨i + 1, by simpa using h1, by simpa using h2, h3⟩

theorem processLinear_length (pts : List (Vec F32)) : (processLinear pts).length ≤ pts.length := by
  induction pts with
  | nil => simp [processLinear]
  | cons a t ih =>
    cases t with
    | nil => simp [processLinear]
    | cons b t =>
      rw [processLinear]
      split
      · exact ih.trans (by simp)
      · simpa using ih

/-- Control points that can be told apart: whenever two consecutive ones differ, they differ by at
least `2^-19` in a coordinate. -/
def Spec.PointsApart (pts : List (Vec F32)) : Prop :=
  ∀ i p q x1 y1 x2 y2, pts[i]? = some p → pts[i + 1]? = some q → Spec.At p x1 y1 → Spec.At q x2 y2 →
    (x1 = x2 ∧ y1 = y2) ∨ 1 / 2 ^ 19 ≤ |x2 - x1| ∨ 1 / 2 ^ 19 ≤ |y2 - y1|

/-- A line between two points that are apart is not tiny. -/
theorem apart_length {l : Linear F32} {x1 y1 x2 y2 B : ℚ} (a1 : Spec.At l.p1 x1 y1) (a2 : Spec.At l.p2 x2 y2)
    (hB : B ≤ 2 ^ 17) (bx1 : |x1| ≤ B) (by1 : |y1| ≤ B) (bx2 : |x2| ≤ B) (by2 : |y2| ≤ B)
    (h : 1 / 2 ^ 19 ≤ |x2 - x1| ∨ 1 / 2 ^ 19 ≤ |y2 - y1|) :
    Fl.le (fin (1 / 2 ^ 48) false) (l.getLength (D := F64)) = true := by
  have t59 : (2:ℚ) ^ 17 ≤ 2 ^ 59 := by norm_num
  have v1 : VBd ((17 : ℕ) : ℤ) l.p1 := VB.bd (by rw [pow2_nat]; exact ⟨x1, y1, a1, by linarith, by linarith⟩)
  have v2 : VBd ((17 : ℕ) : ℤ) l.p2 := VB.bd (by rw [pow2_nat]; exact ⟨x2, y2, a2, by linarith, by linarith⟩)
  obtain ⟨n, z, hn, -, -⟩ := length_in v1 v2 (by norm_num) (by decide +kernel)
  obtain ⟨_, _, e1⟩ := a1
  obtain ⟨_, _, e2⟩ := a2
  obtain ⟨gx, gy⟩ := getLength_ge e1 e2 (by linarith) (by linarith) (by linarith) (by linarith) hn
  rw [hn]
  have key : 1 / 2 ^ 48 ≤ n := by
    have t1 : (1:ℚ) / 2 ^ 60 < 1 / 2 ^ 19 := by norm_num
    have t2 : (1:ℚ) / 2 ^ 19 = 2 * (1 / 2 ^ 20) := by norm_num
    rcases h with h | h
    · rcases gx with g | g <;> linarith
    · rcases gy with g | g <;> linarith
  simpa [Fl.le] using key

/-- **C82, straight sliders**: every position is near the polyline of the control points. -/
theorem C82_linear [GoLibm F64] {fuel : ℕ} {pts : List (Vec F32)} {P : ℚ} {zP : Bool}
    {mc : MultiCurve F32} (h : MultiCurve.newT fuel ['L'] pts (fin P zP : F64) = .ok mc) (hlen : pts.length ≤ 2 ^ 20)
    {k : ℕ} {j : ℤ} (hk : k ≤ 17) (hj0 : -9 ≤ j) (hj1 : j ≤ 17)
    (hin : ∀ p ∈ pts, ∃ x y, Spec.At p x y ∧ |x| ≤ 2 ^ k ∧ |y| ≤ 2 ^ k) (hap : Spec.PointsApart pts)
    (hP0 : -(2 ^ 39) ≤ P)
    (hP : ∀ L z, MultiCurve.totalLength (D := F64) (processLinear pts) = fin L z → P ≤ L + pow2 j) :
    Fin mc.length ∧ ∀ t : F32, NN t → ∃ p, mc.pointAt (D := F64) t = .ok p ∧
      (pts[0]? = some p ∨ ∃ (i : ℕ) (a b : Vec F32), pts[i]? = some a ∧ pts[i + 1]? = some b ∧
        Spec.NearLine a b (3 * pow2 j + 2 ^ k / 2 ^ 20) ((2 ^ k + pow2 j) / 2 ^ 18) p) := by
  have hraw : processType (D := F64) fuel ['L'] pts = .ok (processLinear pts) := rfl
  have hB1 : (2:ℚ) ^ k ≤ 2 ^ 17 := pow_le_pow_right₀ (by norm_num) hk
  obtain ⟨hf, hp⟩ := C82_positions h hraw ((processLinear_length pts).trans hlen) hk hj0 hj1
    (fun l hl => by
      obtain ⟨i, h1, h2, -⟩ := processLinear_mem pts l hl
      exact ⟨hin _ (List.mem_of_getElem? h1), hin _ (List.mem_of_getElem? h2)⟩)
    (fun l hl => by
      obtain ⟨i, h1, h2, h3⟩ := processLinear_mem pts l hl
      obtain ⟨x1, y1, a1, bx1, by1⟩ := hin _ (List.mem_of_getElem? h1)
      obtain ⟨x2, y2, a2, bx2, by2⟩ := hin _ (List.mem_of_getElem? h2)
      rcases hap i _ _ _ _ _ _ h1 h2 a1 a2 with ⟨rfl, rfl⟩ | h
      · left
        obtain ⟨_, _, e1⟩ := a1
        obtain ⟨_, _, e2⟩ := a2
        rw [e1, e2]
        simp [Vec.eq, go_eq, Fl.eq]
      · exact .inr (apart_length a1 a2 hB1 bx1 by1 bx2 by2 h)) hP0 hP
  refine ⟨hf, fun t ht => ?_⟩
  obtain ⟨p, h1, h2⟩ := hp t ht
  refine ⟨p, h1, ?_⟩
  rcases h2 with h2 | ⟨l, hl, h2⟩
  · exact .inl h2
  · obtain ⟨i, g1, g2, -⟩ := processLinear_mem pts l hl
    exact .inr ⟨i, _, _, g1, g2, h2⟩

/-- Coordinates of a point near a line. -/
theorem nearLine_bound {a b p : Vec F32} {D ε B : ℚ} (h : Spec.NearLine a b D ε p)
    (ha : ∃ x y, Spec.At a x y ∧ |x| ≤ B ∧ |y| ≤ B) (hb : ∃ x y, Spec.At b x y ∧ |x| ≤ B ∧ |y| ≤ B) (hD : 0 ≤ D) :
    ∃ x y, Spec.At p x y ∧ |x| ≤ B + D + ε ∧ |y| ≤ B + D + ε := by
  obtain ⟨x1, y1, x2, y2, x, y, s, a1, a2, a3, s0, dx, dy, ex, ey⟩ := h
  obtain ⟨x1', y1', b1, bx1, by1⟩ := ha
  obtain ⟨x2', y2', b2, bx2, by2⟩ := hb
  obtain ⟨rfl, rfl⟩ := At.inj a1 b1
  obtain ⟨rfl, rfl⟩ := At.inj a2 b2
  have key : ∀ w c1 c2 : ℚ, |c1| ≤ B → |c2| ≤ B → (s - 1) * |c2 - c1| ≤ D → |w - (c1 + s * (c2 - c1))| ≤ ε →
      |w| ≤ B + D + ε := by
    intro w c1 c2 h1 h2 h3 h4
    have h5 : |c1 + s * (c2 - c1)| ≤ B + D := by
      rcases le_total s 1 with hs | hs
      · have e : c1 + s * (c2 - c1) = (1 - s) * c1 + s * c2 := by ring
        rw [e]
        refine (abs_add_le _ _).trans ?_
        rw [abs_mul, abs_mul, abs_of_nonneg s0, abs_of_nonneg (show 0 ≤ 1 - s by linarith)]
        nlinarith
      · have e : c1 + s * (c2 - c1) = c2 + (s - 1) * (c2 - c1) := by ring
        rw [e]
        refine (abs_add_le _ _).trans ?_
        rw [abs_mul, abs_of_nonneg (show 0 ≤ s - 1 by linarith)]
        linarith
    have e : w = (w - (c1 + s * (c2 - c1))) + (c1 + s * (c2 - c1)) := by ring
    have h6 := abs_add_le (w - (c1 + s * (c2 - c1))) (c1 + s * (c2 - c1))
    rw [← e] at h6
    linarith
  exact ⟨x, y, a3, key _ _ _ bx1 bx2 dx ex, key _ _ _ by1 by2 dy ey⟩

private theorem of_check {r : Result (Vec F32)} (h : (match r with | .ok p => decide (p.x = nan) | .error _ => false) = true) :
    ∃ p, r = .ok p ∧ p.x = nan := by
  cases r with
  | error e => cases h
  | ok p => exact ⟨p, rfl, of_decide_eq_true h⟩

/-- **C82, the hypothesis is needed**: a last control point that differs from the one before by a
tiny amount gives a path whose end is not a number. -/
theorem C82_tiny (libm : GoLibm F64) : ∃ (pts : List (Vec F32)) (P : F64) (mc : MultiCurve F32),
    @MultiCurve.newT F32 F64 _ _ _ libm 10 ['L'] pts P = .ok mc ∧
    (∀ p ∈ pts, ∃ x y, Spec.At p x y ∧ |x| ≤ 2 ^ 9 ∧ |y| ≤ 2 ^ 9) ∧ P = lit 200 ∧
    ∃ p, mc.pointAt (D := F64) (lit 1) = .ok p ∧ p.x = nan := by
  refine ⟨[⟨fin 0 false, fin 0 false⟩, ⟨fin 100 false, fin 0 false⟩, ⟨fin 100 false, fin (pow2 (-100)) false⟩], lit 200,
    _, rfl, ?_, rfl, ?_⟩
  · intro p hp
    simp only [List.mem_cons, List.not_mem_nil, or_false] at hp
    rcases hp with rfl | rfl | rfl
    · exact ⟨0, 0, ⟨_, _, rfl⟩, by norm_num, by norm_num⟩
    · exact ⟨100, 0, ⟨_, _, rfl⟩, by norm_num, by norm_num⟩
    · refine ⟨100, pow2 (-100), ⟨_, _, rfl⟩, by norm_num, ?_⟩
      decide +kernel
  · exact of_check (by decide +kernel)

namespace Sample

/-- Two control points 200 px apart, as in `64,64,1000,2,0,L|264:64,1,…`. -/
def twoPoints : List (Vec F32) := [⟨fin 64 false, fin 64 false⟩, ⟨fin 264 false, fin 64 false⟩]

theorem twoPoints_in : ∀ p ∈ twoPoints, ∃ x y, Spec.At p x y ∧ |x| ≤ 2 ^ 9 ∧ |y| ≤ 2 ^ 9 := by
  intro p hp
  simp only [twoPoints, List.mem_cons, List.not_mem_nil, or_false] at hp
  rcases hp with rfl | rfl
  · exact ⟨64, 64, ⟨_, _, rfl⟩, by norm_num, by norm_num⟩
  · exact ⟨264, 64, ⟨_, _, rfl⟩, by norm_num, by norm_num⟩

theorem twoPoints_apart : Spec.PointsApart twoPoints := by
  intro i p q x1 y1 x2 y2 h1 h2 a1 a2
  match i with
  | 0 =>
    cases h1
    cases h2
    obtain ⟨_, _, e1⟩ := a1
    obtain ⟨_, _, e2⟩ := a2
    cases e1
    cases e2
    right; left
    norm_num
  | 1 => cases h2
  | i + 2 => cases h1

/-- The theorem applies to a slider that is as long as its control points say … -/
example (mc : MultiCurve F32) (h : @MultiCurve.newT F32 F64 _ _ _ libm 10 ['L'] twoPoints (fin 200 false) = .ok mc) :
    Fin mc.length :=
  (@C82_linear libm _ _ _ _ _ h (by decide) 9 (-9) (by norm_num) (by norm_num) (by norm_num) twoPoints_in twoPoints_apart
    (by norm_num) (by
      intro L z hL
      have e : MultiCurve.totalLength (D := F64) (processLinear twoPoints) = fin 200 false := by decide +kernel
      rw [e] at hL
      cases hL
      linarith [pow2_pos (-9)])).1

/-- … and to one that is extended by 800 px. -/
example (mc : MultiCurve F32) (h : @MultiCurve.newT F32 F64 _ _ _ libm 10 ['L'] twoPoints (fin 1000 false) = .ok mc) :
    Fin mc.length :=
  (@C82_linear libm _ _ _ _ _ h (by decide) 9 10 (by norm_num) (by norm_num) (by norm_num) twoPoints_in twoPoints_apart
    (by norm_num) (by
      intro L z hL
      have e : MultiCurve.totalLength (D := F64) (processLinear twoPoints) = fin 200 false := by decide +kernel
      rw [e] at hL
      cases hL
      have : pow2 10 = 1024 := by decide +kernel
      linarith)).1

/-- Both paths exist; their middle and their end. -/
example : ((@MultiCurve.newT F32 F64 _ _ _ libm 10 ['L'] twoPoints (fin 200 false)).bind fun mc =>
    (mc.pointAt (D := F64) (lit 0.5)).bind fun p => (mc.pointAt (D := F64) (lit 1)).bind fun q => .ok (p, q)) =
    .ok (⟨fin 164 false, fin 64 false⟩, ⟨fin 264 false, fin 64 false⟩) := by decide +kernel
example : ((@MultiCurve.newT F32 F64 _ _ _ libm 10 ['L'] twoPoints (fin 1000 false)).bind fun mc =>
    (mc.pointAt (D := F64) (lit 0.5)).bind fun p => (mc.pointAt (D := F64) (lit 1)).bind fun q => .ok (p, q)) =
    .ok (⟨fin 564 false, fin 64 false⟩, ⟨fin 1064 false, fin 64 false⟩) := by decide +kernel

end Sample

end GosuPP
