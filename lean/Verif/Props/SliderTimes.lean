import Verif.Props.SliderMaps
import Verif.Props.PathLength

/-!
# C84: when sliders end
-/

namespace GosuPP.Props
open Go Fl Spec

private theorem mul_fin {x y : ℚ} {a b : Bool} (h : |x * y| ≤ 2 ^ 120) :
    ∃ z, (fin x a : F64) *. fin y b = fin (rnd fmt64 (x * y)) z := ofRat64_fin h _

private theorem div_fin {x y : ℚ} {a b : Bool} (hy : y ≠ 0) (h : |x / y| ≤ 2 ^ 120) :
    ∃ z, (fin x a : F64) /. fin y b = fin (rnd fmt64 (x / y)) z := by
  obtain ⟨z, hz⟩ := ofRat64_fin h (Bool.xor (signbit (fin x a : F64)) (signbit (fin y b : F64)))
  refine ⟨z, ?_⟩
  rw [← hz]
  show Fl.div _ _ = _
  simp [Fl.div, hy]

private theorem add_fin {x y : ℚ} {a b : Bool} (h : |x + y| ≤ 2 ^ 120) :
    ∃ z, (fin x a : F64) +. fin y b = fin (rnd fmt64 (x + y)) z := ofRat64_fin h _

/-- The time that a slider takes, up to rounding. -/
theorem travel_error {C R V : ℚ} {zc zr zv : Bool} (hC0 : 0 ≤ C) (hC : C ≤ 2 ^ 30) (hR0 : 1 ≤ R) (hR : R ≤ 2 ^ 20) (hV0 : 1 ≤ V) :
    ∃ c z, (fin C zc : F64) *. lit 1000 *. fin R zr /. fin V zv = fin c z ∧
      |c - 1000 * C * R / V| ≤ 5 * (1000 * C * R / V) / 2 ^ 53 + 1 / 2 ^ 31 := by
  have l1000 : (lit 1000 : F64) = fin 1000 false := by decide +kernel
  rw [l1000]
  have t30 : (2:ℚ) ^ 30 * 1000 * 2 ^ 22 ≤ 2 ^ 120 := by norm_num
  obtain ⟨z1, g1⟩ := mul_fin (x := C) (y := 1000) (a := zc) (b := false) (by rw [abs_of_nonneg (by positivity)]; linarith)
  have r1 := rnd64_error (C * 1000)
  rw [g1]
  have a0 : 0 ≤ rnd fmt64 (C * 1000) := rnd_nonneg (by positivity)
  rw [abs_of_nonneg (show 0 ≤ C * 1000 by positivity)] at r1
  generalize rnd fmt64 (C * 1000) = a at *
  have a1 : a ≤ 2 ^ 30 * 1000 * 2 := by linarith [(abs_le.mp r1).2]
  obtain ⟨z2, g2⟩ := mul_fin (x := a) (y := R) (a := z1) (b := zr) (by
    rw [abs_of_nonneg (by positivity)]
    calc a * R ≤ (2 ^ 30 * 1000 * 2) * 2 ^ 20 := mul_le_mul a1 hR (by linarith) (by positivity)
      _ ≤ _ := by norm_num)
  have r2 := rnd64_error (a * R)
  rw [g2]
  have b0 : 0 ≤ rnd fmt64 (a * R) := rnd_nonneg (by positivity)
  rw [abs_of_nonneg (show 0 ≤ a * R by positivity)] at r2
  have haR : a * R ≤ (2 ^ 30 * 1000 * 2) * 2 ^ 20 := mul_le_mul a1 hR (by linarith) (by positivity)
  have e1 : |a * R - 1000 * C * R| ≤ (1000 * C * R) / 2 ^ 53 + 1 / 2 ^ 33 := by
    rw [show a * R - 1000 * C * R = (a - C * 1000) * R by ring, abs_mul, abs_of_nonneg (show 0 ≤ R by linarith)]
    have := mul_le_mul_of_nonneg_right r1 (show 0 ≤ R by linarith)
    have h2 : R * (1 / 2 ^ 53) ≤ 2 ^ 20 * (1 / 2 ^ 53) := mul_le_mul_of_nonneg_right hR (by norm_num)
    have h3 : (2 ^ 20 * (1 / 2 ^ 53) : ℚ) = 1 / 2 ^ 33 := by norm_num
    linarith
  generalize rnd fmt64 (a * R) = b at *
  have AR0 : 0 ≤ 1000 * C * R := by positivity
  have e2 : |b - 1000 * C * R| ≤ 3 * (1000 * C * R) / 2 ^ 53 + 1 / 2 ^ 32 := by
    obtain ⟨u1, u2⟩ := abs_le.mp e1
    obtain ⟨w1, w2⟩ := abs_le.mp r2
    have n1 : (1:ℚ) / 2 ^ 33 + (1 / 2 ^ 53 + 1 / 2 ^ 33 / 2 ^ 53) ≤ 1 / 2 ^ 32 := by norm_num
    have h4 : a * R / 2 ^ 53 ≤ (2 * (1000 * C * R) + 1 / 2 ^ 33) / 2 ^ 53 := by
      gcongr
      linarith
    have h5 : (2 * (1000 * C * R) + 1 / 2 ^ 33) / 2 ^ 53 = 2 * (1000 * C * R) / 2 ^ 53 + 1 / 2 ^ 33 / 2 ^ 53 := by ring
    rw [abs_le]
    constructor <;> linarith
  have b1 : b ≤ 2 ^ 90 := by
    have := (abs_le.mp r2).2
    have t : ((2 ^ 30 * 1000 * 2) * 2 ^ 20 * 2 + 1 : ℚ) ≤ 2 ^ 90 := by norm_num
    linarith
  have hVp : 0 < V := by linarith
  have bV : b / V ≤ b := div_le_self b0 hV0
  have bV0 : 0 ≤ b / V := div_nonneg b0 hVp.le
  obtain ⟨z3, g3⟩ := div_fin (x := b) (y := V) (a := z2) (b := zv) hVp.ne' (by
    rw [abs_of_nonneg bV0]
    linarith [show (2:ℚ) ^ 90 ≤ 2 ^ 120 by norm_num])
  refine ⟨_, z3, g3, ?_⟩
  have r3 := rnd64_error (b / V)
  rw [abs_of_nonneg bV0] at r3
  have e3 : |b / V - 1000 * C * R / V| ≤ 3 * (1000 * C * R / V) / 2 ^ 53 + 1 / 2 ^ 32 := by
    rw [← sub_div, abs_div, abs_of_pos hVp, div_le_iff₀ hVp]
    refine e2.trans ?_
    have : 3 * (1000 * C * R / V) / 2 ^ 53 * V = 3 * (1000 * C * R) / 2 ^ 53 := by field_simp
    rw [add_mul, this]
    have : (1:ℚ) / 2 ^ 32 ≤ 1 / 2 ^ 32 * V := le_mul_of_one_le_right (by norm_num) hV0
    linarith
  have Q0 : 0 ≤ 1000 * C * R / V := by positivity
  generalize 1000 * C * R / V = Q at *
  obtain ⟨u1, u2⟩ := abs_le.mp e3
  obtain ⟨w1, w2⟩ := abs_le.mp r3
  have h4 : b / V / 2 ^ 53 ≤ (2 * Q + 1) / 2 ^ 53 := by
    gcongr
    linarith [show (1:ℚ) / 2 ^ 32 ≤ 1 by norm_num]
  have h5 : (2 * Q + 1) / 2 ^ 53 = 2 * Q / 2 ^ 53 + 1 / 2 ^ 53 := by ring
  have n1 : (1:ℚ) / 2 ^ 32 + 1 / 2 ^ 53 + 1 / 2 ^ 53 ≤ 1 / 2 ^ 31 := by norm_num
  rw [abs_le]
  constructor <;> linarith

/-- The path of a slider of a parsed map is made for its pixel length. -/
theorem parsed_path [GoSort] [GoLibm F64] {fuel : Nat} {text : Str} {m : BeatMap F32 F64} (h : parseText fuel text = .ok (some m))
    {o : Obj F32 F64} (ho : o ∈ m.hitObjects) {s : SliderData F32 F64} (hk : o.kind = .slider s) :
    ∃ typ points, MultiCurve.newT fuel typ points s.pixelLength = .ok s.multiCurve := by
  obtain ⟨arr, -, o0, o1, o2, h0, h1, h2, h3⟩ := parsed_from h ho
  have k2 : o2.kind = .slider s := by rw [← kind_unstack o2, ← h3, kind_unstack, hk]
  unfold Obj.setTiming at h2
  split at h2
  · rename_i s1 k1
    obtain ⟨tp, pts, pos, e1, e2, e3, rfl⟩ := Slider.setTiming_iff.mp h2
    have k0 : o0.kind = .slider s1 := by
      have : (uncombo o1).kind = (uncombo o0).kind := by rw [h1]
      rw [← k1]
      exact this.symm
    obtain ⟨typ, points, hn, -⟩ := createObject_newT h0 s1 k0
    simp only [Kind.slider.injEq] at k2
    subst k2
    exact ⟨typ, points, hn⟩
  · rename_i hn
    cases h2
    exact absurd k2 (hn s)

/-- C84 (IEEE). A slider of a parsed map ends when its path has been travelled as often as it has spans, at the velocity of
its timing point, up to rounding. -/
theorem C84_end [GoSort] [GoLibm F64] {fuel : Nat} {text : Str} {m : BeatMap F32 F64} (h : parseText fuel text = .ok (some m))
    {o : Obj F32 F64} (ho : o ∈ m.hitObjects) {s : SliderData F32 F64} (hk : o.kind = .slider s)
    {S C V : ℚ} {zs zc zv : Bool} (hs : o.base.startTime = fin S zs) (hS : |S| ≤ 2 ^ 60)
    (hc : s.multiCurve.length = fin C zc) (hC0 : 0 ≤ C) (hC : C ≤ 2 ^ 30) (hR0 : 1 ≤ s.repeatCount) (hR : s.repeatCount ≤ 2 ^ 20)
    (hv : m.timings.getVelocity F32 s.tPoint = fin V zv) (hV : 1 ≤ V) :
    ∃ E z, o.base.endTime = fin E z ∧
      |E - (S + 1000 * C * s.repeatCount / V)| ≤ (|S| + 1000 * C * s.repeatCount / V) / 2 ^ 50 + 1 / 2 ^ 30 := by
  obtain ⟨-, e, -, -⟩ := parsed_slider h ho hk
  obtain ⟨typ, points, hpath⟩ := parsed_path h ho hk
  have hm := newT_measured hpath
  have hz : (lit 0 : F32) = fin 0 false := ofRat_zero _
  have hwc : WF (fin C zc : F32) := by
    rw [← hc, hm.1]
    exact foldl_wf _ _ (by rw [hz]; exact ⟨Rep.zero, by simpa using pow2_pos _, by simp⟩)
  have hR' : (1:ℚ) ≤ s.repeatCount := by exact_mod_cast hR0
  have hR2 : (s.repeatCount : ℚ) ≤ 2 ^ 20 := by exact_mod_cast hR
  have hofInt : (ofInt s.repeatCount : F64) = fin s.repeatCount false := by
    refine ofInt64_exact ?_
    rw [abs_of_nonneg (by omega)]
    omega
  rw [hs, hc, up_fin hwc, hv, hofInt] at e
  obtain ⟨c, z, g, ge⟩ := travel_error (zc := zc) (zr := false) (zv := zv) hC0 hC hR' hR2 hV
  rw [g] at e
  have Q0 : 0 ≤ 1000 * C * (s.repeatCount : ℚ) / V := by positivity
  have Q1 : 1000 * C * (s.repeatCount : ℚ) / V ≤ 2 ^ 61 := by
    refine (div_le_self (by positivity) hV).trans ?_
    calc 1000 * C * (s.repeatCount : ℚ) ≤ 1000 * 2 ^ 30 * 2 ^ 20 := by gcongr
      _ ≤ _ := by norm_num
  generalize 1000 * C * (s.repeatCount : ℚ) / V = Q at *
  obtain ⟨u1, u2⟩ := abs_le.mp ge
  have cb : |c| ≤ 2 * Q + 1 := by
    rw [abs_le]
    constructor <;> linarith [show (1:ℚ) / 2 ^ 31 ≤ 1 by norm_num]
  have sb : |S + c| ≤ |S| + (Q + (5 * Q / 2 ^ 53 + 1 / 2 ^ 31)) := by
    refine (abs_add_le S c).trans ?_
    have : |c| ≤ Q + (5 * Q / 2 ^ 53 + 1 / 2 ^ 31) := by
      rw [abs_le]; constructor <;> linarith [show (0:ℚ) ≤ 5 * Q / 2 ^ 53 by positivity]
    linarith
  obtain ⟨z', g'⟩ := add_fin (x := S) (y := c) (a := zs) (b := z) (by
    refine (abs_add_le S c).trans ?_
    linarith [show (2:ℚ) ^ 60 + (2 * 2 ^ 61 + 1) ≤ 2 ^ 120 by norm_num])
  refine ⟨_, z', by rw [e, g'], ?_⟩
  have r := rnd64_error (S + c)
  have r' : |S + c| / 2 ^ 53 ≤ (|S| + (Q + (5 * Q / 2 ^ 53 + 1 / 2 ^ 31))) / 2 ^ 53 := by gcongr
  have e1 : (|S| + (Q + (5 * Q / 2 ^ 53 + 1 / 2 ^ 31))) / 2 ^ 53 = |S| / 2 ^ 53 + (1 + 5 / 2 ^ 53) * Q / 2 ^ 53 + 1 / 2 ^ 31 / 2 ^ 53 := by ring
  have n1 : (1:ℚ) / 2 ^ 31 / 2 ^ 53 + 1 / 2 ^ 53 + 1 / 2 ^ 31 ≤ 1 / 2 ^ 30 := by norm_num
  have n2 : (1 + 5 / 2 ^ 53) * Q / 2 ^ 53 + 5 * Q / 2 ^ 53 ≤ Q / 2 ^ 50 := by
    have t : ((1 + 5 / 2 ^ 53) / 2 ^ 53 + 5 / 2 ^ 53 : ℚ) ≤ 1 / 2 ^ 50 := by norm_num
    have := mul_le_mul_of_nonneg_right t Q0
    linarith
  have n3 : |S| / 2 ^ 53 ≤ |S| / 2 ^ 50 := div_le_div_of_nonneg_left (abs_nonneg _) (by norm_num) (by norm_num)
  obtain ⟨w1, w2⟩ := abs_le.mp r
  rw [add_div, abs_le]
  constructor <;> linarith

/-! ### A concrete map -/

namespace Sample
open GosuPP.Sample

/-- The slider of the sample: it starts at 5000, is 100 px long and moves at 200 px/s; the theorem applies and it ends at 5500. -/
example : observe stacked (fun m => m.hitObjects.filterMap (fun o => match o.kind with
    | .slider s => some (o.base.startTime, s.multiCurve.length, s.repeatCount, m.timings.getVelocity F32 s.tPoint, o.base.endTime)
    | _ => none)) = some [(fin 5000 false, fin 100 false, 1, fin 200 false, fin 5500 false)] := by decide +kernel

example (m : BeatMap F32 F64) (h : parse stacked = .ok (some m)) (o : Obj F32 F64) (ho : o ∈ m.hitObjects)
    (s : SliderData F32 F64) (hk : o.kind = .slider s) (hs : o.base.startTime = fin 5000 false)
    (hc : s.multiCurve.length = fin 100 false) (hr : s.repeatCount = 1) (hv : m.timings.getVelocity F32 s.tPoint = fin 200 false) :
    ∃ E z, o.base.endTime = fin E z ∧ |E - 5500| ≤ 1 / 2 ^ 29 := by
  letI := insertionGoSort
  letI := libm
  obtain ⟨E, z, h1, h2⟩ := C84_end h ho hk hs (by norm_num) hc (by norm_num) (by norm_num) (by rw [hr]) (by rw [hr]; norm_num) hv (by norm_num)
  refine ⟨E, z, h1, ?_⟩
  rw [hr] at h2
  norm_num at h2 ⊢
  linarith

end Sample

end GosuPP.Props
