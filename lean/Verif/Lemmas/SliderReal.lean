import Verif.Lemmas.Slider
import Verif.Lemmas.CurveReal
import Verif.Spec.Slider

/-! Slider timing in exact arithmetic. -/

namespace GosuPP.Slider
open Go

theorem exists_tickCount {td c m : ℝ} (htd : 0 < td) : ∃ n, Spec.TickCount td c m n := by
  classical
  have hex : ∃ j : ℕ, c - m ≤ ((j : ℝ) + 1) * td := by
    obtain ⟨j, hj⟩ := exists_nat_gt ((c - m) / td)
    refine ⟨j, ?_⟩
    rw [div_lt_iff₀ htd] at hj
    nlinarith
  refine ⟨Nat.find hex, fun j => ?_⟩
  constructor
  · intro h
    exact not_le.mp (Nat.find_min hex h)
  · intro h
    by_contra hn
    have h1 := Nat.find_spec hex
    have h2 : ((Nat.find hex : ℕ) : ℝ) ≤ j := by exact_mod_cast not_lt.mp hn
    nlinarith

theorem tickCount_unique {td c m : ℝ} {n n' : ℕ} (h : Spec.TickCount td c m n) (h' : Spec.TickCount td c m n') :
    n = n' := by
  by_contra hne
  rcases Nat.lt_or_gt_of_ne hne with hlt | hlt
  · exact absurd ((h n).mpr ((h' n).mp hlt)) (lt_irrefl _)
  · exact absurd ((h' n').mpr ((h n').mp hlt)) (lt_irrefl _)

/-- The tick of the loop at distance `d`. -/
noncomputable def tickAt (c sst sd : ℝ) (rev : Bool) (d : ℝ) : TickPoint ℝ :=
  ⟨sst + (if rev then 1 - d / c else d / c) * sd, false⟩

theorem tickLoop_exact {td c m sst sd : ℝ} {rev : Bool} (hm : 0 ≤ m) {n : ℕ}
    (hn : Spec.TickCount td c m n) (fuel i : ℕ) (hi : i ≤ n) :
    tickLoop td c m sst sd rev false fuel (((i : ℝ) + 1) * td) =
      if n - i < fuel then
        .ok ((List.range (n - i)).map (fun j : ℕ => tickAt c sst sd rev (((i : ℝ) + j + 1) * td)))
      else .error .hang := by
  induction fuel generalizing i with
  | zero => rfl
  | succ fuel ih =>
    unfold tickLoop
    by_cases hin : i < n
    · have hlt := (hn i).mp hin
      have h1 : (((i : ℝ) + 1) * td <=. c && !false) = true := by
        simp only [Bool.not_false, Bool.and_true, RealArith.le]
        linarith
      have h2 : ¬ ((((i : ℝ) + 1) * td >=. c -. m) = true) := by
        rw [RealArith.le]
        exact not_le.mpr hlt
      rw [if_pos h1, if_neg h2]
      have e : ((i : ℝ) + 1) * td +. td = (((i + 1 : ℕ) : ℝ) + 1) * td := by
        show ((i : ℝ) + 1) * td + td = _
        push_cast
        ring
      simp only [e]
      rw [ih (i + 1) hin]
      by_cases hf : n - (i + 1) < fuel
      · rw [if_pos hf, if_pos (show n - i < fuel + 1 by omega)]
        simp only [ok_bind]
        show Except.ok _ = _
        congr 1
        obtain ⟨q, hq⟩ : ∃ q, n - i = q + 1 := ⟨n - i - 1, by omega⟩
        have hq' : n - (i + 1) = q := by omega
        rw [hq, hq', List.range_succ_eq_map, List.map_cons, List.map_map]
        congr 1
        · unfold tickAt
          simp only [Nat.cast_zero, add_zero]
          congr 2
          have l1 : (lit 1 : ℝ) = 1 := by rw [RealArith.lit]; simp
          rw [l1]
          rfl
        · apply List.map_congr_left
          intro j _
          simp only [Function.comp]
          congr 2
          push_cast
          ring
      · rw [if_neg hf, if_neg (show ¬ n - i < fuel + 1 by omega)]
        rfl
    · have hni : n - i = 0 := by omega
      have hge := not_lt.mp (fun h => hin ((hn i).mpr h))
      have h2 : (((i : ℝ) + 1) * td >=. c -. m) = true := (RealArith.le _ _).mpr hge
      rw [hni, if_pos (Nat.succ_pos fuel)]
      simp only [List.range_zero, List.map_nil, h2, if_true]
      split <;> rfl

/-- Points of one span, by the specification. -/
noncomputable def specSpan (start sd td c : ℝ) (n R k : ℕ) : List (TickPoint ℝ) :=
  Spec.ticks start sd td c n k ++
    [if k + 1 < R then ⟨start + ((k : ℝ) + 1) * sd, true⟩
     else ⟨max (start + (R : ℝ) * sd / 2) (start + (R : ℝ) * sd - 36), false⟩]

theorem spanTicks_exact {a : SpanArgs ℝ} (hm : 0 ≤ a.minDistanceFromEnd)
    (hnan : a.nanTimingPoint = false) {n R : ℕ}
    (hn : Spec.TickCount a.tickDistance a.cLength a.minDistanceFromEnd n) (hR : a.repeatCount = R)
    (he : a.endTime = a.startTime + R * a.spanDuration) (fuel k : ℕ) :
    spanTicks a fuel (k : ℤ) =
      if n < fuel then .ok (specSpan a.startTime a.spanDuration a.tickDistance a.cLength n R k)
      else .error .hang := by
  unfold spanTicks
  simp only
  have h := tickLoop_exact (sst := a.startTime +. ofInt k *. a.spanDuration) (sd := a.spanDuration)
    (rev := (k : ℤ) % 2 == 1) hm hn fuel 0 (Nat.zero_le _)
  rw [Nat.cast_zero, zero_add, one_mul] at h
  rw [hnan, h]
  simp only [Nat.sub_zero]
  by_cases hf : n < fuel
  · rw [if_pos hf, if_pos hf]
    simp only [ok_bind]
    show Except.ok _ = _
    congr 1
    unfold specSpan Spec.ticks
    congr 1
    · apply List.map_congr_left
      intro j _
      unfold tickAt
      congr 1
      show a.startTime + ((k : ℤ) : ℝ) * a.spanDuration + _ = _
      have hp : ((k : ℤ) % 2 == 1) = decide (k % 2 = 1) := by
        rw [Bool.eq_iff_iff]
        simp only [beq_iff_eq, decide_eq_true_eq]
        omega
      rw [hp]
      by_cases hk : k % 2 = 1
      · simp only [hk, decide_true, if_true]
        push_cast
        ring
      · simp only [hk, decide_false, if_false, Bool.false_eq_true]
        push_cast
        ring
    · congr 1
      rw [hR]
      by_cases hk : k + 1 < R
      · rw [if_pos (by omega), if_pos hk]
        congr 1
        show a.startTime + ((k : ℤ) : ℝ) * a.spanDuration + a.spanDuration = _
        push_cast
        ring
      · rw [if_neg (by omega), if_neg hk, RealArith.fmax, he]
        congr 1
        show max (a.startTime + (a.startTime + (R : ℝ) * a.spanDuration - a.startTime) / (lit 2 : ℝ))
          (a.startTime + (R : ℝ) * a.spanDuration - (lit 36 : ℝ)) = _
        rw [RealArith.lit, RealArith.lit]
        push_cast
        congr 1
        ring
  · rw [if_neg hf, if_neg hf]
    rfl

theorem spans_eq_flatMap {α : Type} (f : Int → List (TickPoint α)) (k : ℕ) (i : Int) :
    spans f k i = (List.range k).flatMap (fun j : ℕ => f (i + j)) := by
  induction k generalizing i with
  | zero => rfl
  | succ k ih =>
    unfold spans
    rw [ih, List.range_succ_eq_map, List.flatMap_cons, List.flatMap_map]
    simp only [Nat.cast_zero, add_zero]
    congr 1
    apply List.flatMap_congr
    intro j _
    congr 1
    simp only [Function.comp, Nat.succ_eq_add_one]
    push_cast
    ring

theorem spanLoop_exact {a : SpanArgs ℝ} (hm : 0 ≤ a.minDistanceFromEnd)
    (hnan : a.nanTimingPoint = false) {n R : ℕ}
    (hn : Spec.TickCount a.tickDistance a.cLength a.minDistanceFromEnd n) (hR : a.repeatCount = R)
    (he : a.endTime = a.startTime + R * a.spanDuration) (fuel : ℕ) (hf : n < fuel) :
    spanLoop a fuel R 0 = .ok (Spec.scorePoints a.startTime a.spanDuration a.tickDistance a.cLength n R) := by
  have h : ∀ j : Int, 0 ≤ j → j < 0 + (R : Int) → spanTicks a fuel j =
      .ok (specSpan a.startTime a.spanDuration a.tickDistance a.cLength n R j.toNat) := by
    intro j h0 _
    obtain ⟨k, rfl⟩ := Int.eq_ofNat_of_zero_le h0
    have := spanTicks_exact hm hnan hn hR he fuel k
    rw [if_pos hf] at this
    exact this
  rw [spanLoop_of_spans h, spans_eq_flatMap]
  congr 1
  unfold Spec.scorePoints
  apply List.flatMap_congr
  intro j _
  simp only [zero_add, Int.toNat_natCast]
  rfl

theorem spanLoop_exact' {a : SpanArgs ℝ} (hm : 0 ≤ a.minDistanceFromEnd)
    (hnan : a.nanTimingPoint = false) {n R : ℕ}
    (hn : Spec.TickCount a.tickDistance a.cLength a.minDistanceFromEnd n) (hR : a.repeatCount = R)
    (he : a.endTime = a.startTime + R * a.spanDuration) {fuel : ℕ} {l : List (TickPoint ℝ)}
    (h : spanLoop a fuel R 0 = .ok l) :
    l = Spec.scorePoints a.startTime a.spanDuration a.tickDistance a.cLength n R := by
  cases R with
  | zero => cases h; rfl
  | succ R =>
    by_cases hf : n < fuel
    · rw [spanLoop_exact hm hnan hn hR he fuel hf] at h
      cases h
      rfl
    · unfold spanLoop at h
      obtain ⟨x, hx, -⟩ := bind_ok h
      have := spanTicks_exact hm hnan hn hR he fuel 0
      rw [if_neg hf] at this
      rw [show ((0 : ℕ) : ℤ) = 0 from rfl, hx] at this
      cases this

/-- Score points lie within the slider. -/
theorem scorePoints_between {start sd td c m : ℝ} (hsd : 0 ≤ sd) (hc : 0 < c) (htd : 0 < td) (hm : 0 ≤ m) {n R : ℕ}
    (hn : Spec.TickCount td c m n) : ∀ p ∈ Spec.scorePoints start sd td c n R,
      start ≤ p.time ∧ p.time ≤ start + R * sd := by
  intro p hp
  unfold Spec.scorePoints at hp
  obtain ⟨k, hk, hp⟩ := List.mem_flatMap.mp hp
  have hk : k < R := List.mem_range.mp hk
  have hkR : (k : ℝ) + 1 ≤ R := by exact_mod_cast hk
  have hk0 : (0 : ℝ) ≤ k := Nat.cast_nonneg k
  rcases List.mem_append.mp hp with hp | hp
  · unfold Spec.ticks at hp
    obtain ⟨j, hj, rfl⟩ := List.mem_map.mp hp
    have hj : j < n := List.mem_range.mp hj
    have hlt := (hn j).mp hj
    have h0 : 0 ≤ ((j : ℝ) + 1) * td / c := by positivity
    have h1 : ((j : ℝ) + 1) * td / c ≤ 1 := by
      rw [div_le_one hc]
      linarith
    simp only
    have hu : 0 ≤ (if k % 2 = 1 then 1 - ((j : ℝ) + 1) * td / c else ((j : ℝ) + 1) * td / c) ∧
        (if k % 2 = 1 then 1 - ((j : ℝ) + 1) * td / c else ((j : ℝ) + 1) * td / c) ≤ 1 := by
      split
      · constructor <;> linarith
      · exact ⟨h0, h1⟩
    constructor
    · have := mul_nonneg (add_nonneg hk0 hu.1) hsd
      linarith
    · have := mul_le_mul_of_nonneg_right (by linarith [hu.2] : (k : ℝ) + _ ≤ R) hsd
      linarith
  · have hRsd : 0 ≤ (R : ℝ) * sd := by positivity
    simp only [List.mem_singleton] at hp
    subst hp
    split
    · constructor
      · have : 0 ≤ ((k : ℝ) + 1) * sd := by positivity
        linarith
      · have := mul_le_mul_of_nonneg_right hkR hsd
        linarith
    · simp only
      constructor
      · exact le_trans (by linarith) (le_max_left _ _)
      · exact max_le (by linarith) (by linarith)

/-! ### Timing -/

theorem ratio_real (tp : ControlPoint ℝ) : tp.getRatio ℝ = Spec.ratio tp.beatLength := by
  unfold ControlPoint.getRatio Spec.ratio clampF64
  have e : ((tp.beatLength >=. lit 0 || GoFloat.isNaN tp.beatLength) = true) ↔ 0 ≤ tp.beatLength := by
    rw [RealArith.isNaN, Bool.or_false, RealArith.le, lit_zero_real]
  simp only [e]
  split
  · exact lit_one_real
  · rw [RealArith.fmin, RealArith.fmax, RealArith.up, RealArith.down, RealArith.div, show fneg tp.beatLength = -tp.beatLength from rfl, RealArith.lit, RealArith.lit,
      RealArith.lit]
    norm_num

theorem ratio_pos (x : ℝ) : 0 < Spec.ratio x := by
  unfold Spec.ratio
  split
  · norm_num
  · have : (0 : ℝ) < min 1000 (max 10 (-x)) := lt_min (by norm_num) (lt_max_of_lt_left (by norm_num))
    positivity

theorem beat_pos {t : Timings ℝ} {tp : ControlPoint ℝ} (h : Spec.PosTiming t tp) : 0 < Spec.beat tp :=
  mul_pos h.base (ratio_pos _)

theorem velocity_real {t : Timings ℝ} {tp : ControlPoint ℝ} (h : Spec.PosTiming t tp) :
    t.getVelocity ℝ tp = 100 * t.sliderMult * 1000 / Spec.beat tp := by
  unfold Timings.getVelocity Timings.getScoringDistance ControlPoint.getBeatLength
  simp only
  have hb := beat_pos h
  have e : tp.beatLengthBase *. tp.getRatio ℝ = Spec.beat tp := by rw [ratio_real]; rfl
  rw [e, if_pos ((RealArith.le _ _).mpr (by rw [lit_zero_real]; exact hb.le))]
  show (lit 100 : ℝ) * t.sliderMult / t.tickRate * t.tickRate * ((lit 1000 : ℝ) / Spec.beat tp) = _
  rw [RealArith.lit, RealArith.lit]
  push_cast
  have := h.rate
  field_simp

theorem args_real {t : Timings ℝ} {tp : ControlPoint ℝ} (h : Spec.PosTiming t tp) (hb : HitObject ℝ ℝ)
    (s : SliderData ℝ ℝ) (hc : 0 < s.multiCurve.length) :
    (args t tp hb s).startTime = hb.startTime ∧
    (args t tp hb s).endTime = hb.startTime + s.repeatCount * Spec.spanTime t tp s.multiCurve.length ∧
    (args t tp hb s).spanDuration = Spec.spanTime t tp s.multiCurve.length ∧
    (args t tp hb s).cLength = s.multiCurve.length ∧
    (args t tp hb s).tickDistance = Spec.tickDistance t tp s.pixelLength ∧
    (args t tp hb s).minDistanceFromEnd = Spec.endMargin t tp ∧
    (args t tp hb s).nanTimingPoint = false := by
  have hbp := beat_pos h
  have hm := h.mult
  unfold args
  refine ⟨rfl, ?_, ?_, rfl, ?_, ?_, rfl⟩
  · show hb.startTime + s.multiCurve.length * (lit 1000 : ℝ) * (s.repeatCount : ℝ) / t.getVelocity ℝ tp = _
    rw [velocity_real h, RealArith.lit]
    unfold Spec.spanTime
    push_cast
    field_simp
  · show s.multiCurve.length * (lit 1000 : ℝ) / t.getVelocity ℝ tp = _
    rw [velocity_real h, RealArith.lit]
    unfold Spec.spanTime
    push_cast
    field_simp
  · show distance t tp s = _
    have etd : t.getTickDistance ℝ tp = 100 * t.sliderMult / t.tickRate / Spec.ratio tp.beatLength := by
      unfold Timings.getTickDistance Timings.getScoringDistance
      rw [ratio_real]
      show (lit 100 : ℝ) * t.sliderMult / t.tickRate / Spec.ratio tp.beatLength = _
      rw [RealArith.lit]
      push_cast
      rfl
    unfold distance Spec.tickDistance
    rw [etd]
    have e : ((s.multiCurve.length >. lit 0 && 100 * t.sliderMult / t.tickRate / Spec.ratio tp.beatLength >. s.pixelLength) = true) ↔
        s.pixelLength < 100 * t.sliderMult / t.tickRate / Spec.ratio tp.beatLength := by
      rw [Bool.and_eq_true, RealArith.lt, RealArith.lt, lit_zero_real]
      exact ⟨fun h => h.2, fun h => ⟨hc, h⟩⟩
    simp only [e]
    split
    · rename_i hlt; rw [min_eq_right hlt.le]
    · rename_i hlt; rw [min_eq_left (not_lt.mp hlt)]
  · show t.getVelocity ℝ tp * (lit 0.01 : ℝ) = _
    rw [velocity_real h, RealArith.lit]
    unfold Spec.endMargin
    push_cast
    ring

theorem spanTime_pos {t : Timings ℝ} {tp : ControlPoint ℝ} (h : Spec.PosTiming t tp) {c : ℝ} (hc : 0 < c) :
    0 < Spec.spanTime t tp c := by
  have := beat_pos h
  have := h.mult
  unfold Spec.spanTime
  positivity

theorem tickDistance_pos {t : Timings ℝ} {tp : ControlPoint ℝ} (h : Spec.PosTiming t tp) {px : ℝ} (hp : 0 < px) :
    0 < Spec.tickDistance t tp px := by
  have := ratio_pos tp.beatLength
  have := h.mult
  have := h.rate
  unfold Spec.tickDistance
  exact lt_min (by positivity) hp

theorem endMargin_pos {t : Timings ℝ} {tp : ControlPoint ℝ} (h : Spec.PosTiming t tp) : 0 < Spec.endMargin t tp := by
  have := beat_pos h
  have := h.mult
  unfold Spec.endMargin
  positivity

/-! ### The slider ball -/

theorem clampF64_real (x a b : ℝ) : clampF64 x a b = min b (max a x) := by
  unfold clampF64
  rw [RealArith.fmin, RealArith.fmax]

theorem fmod_two {p : ℝ} (hp : 0 ≤ p) (k : ℕ) (u : ℝ) (hu : 0 ≤ u) (hu1 : u < 1) (h : p = k + u) :
    GoFloat.fmod p (lit 2 : ℝ) = (if k % 2 = 1 then 1 + u else u) := by
  rw [lit_two_real]
  show (if p < 0 then (-1 : ℝ) else 1) * (|p| - |(2 : ℝ)| * (⌊|p| / |(2 : ℝ)|⌋ : ℝ)) = _
  rw [if_neg (not_lt.mpr hp), abs_of_nonneg hp, abs_of_pos (by norm_num : (0 : ℝ) < 2)]
  have hdiv : ((k / 2 : ℕ) : ℝ) * 2 + ((k % 2 : ℕ) : ℝ) = k := by
    have := Nat.div_add_mod k 2
    exact_mod_cast (by omega : k / 2 * 2 + k % 2 = k)
  have hfl : ⌊p / 2⌋ = ((k / 2 : ℕ) : ℤ) := by
    rw [Int.floor_eq_iff]
    have h2 : ((k % 2 : ℕ) : ℝ) ≤ 1 := by exact_mod_cast (by omega : k % 2 ≤ 1)
    have h3 : (0 : ℝ) ≤ ((k % 2 : ℕ) : ℝ) := Nat.cast_nonneg _
    rw [Int.cast_natCast]
    constructor <;> linarith
  rw [hfl]
  have hcast : (((k / 2 : ℕ) : ℤ) : ℝ) = ((k / 2 : ℕ) : ℝ) := by push_cast; rfl
  rw [hcast]
  split
  · rename_i hk
    rw [hk] at hdiv
    push_cast at hdiv ⊢
    linarith
  · rename_i hk
    rw [show k % 2 = 0 by omega] at hdiv
    push_cast at hdiv ⊢
    linarith

/-- Position during span `k`, after the fraction `u` of it. -/
theorem position_span {h : HitObject ℝ ℝ} {s : SliderData ℝ ℝ} {R k : ℕ} {sd u : ℝ} (hsd : 0 < sd)
    (hs : s.spanDuration = sd) (he : h.endTime = h.startTime + R * sd) (hk : k < R) (hu : 0 ≤ u) (hu1 : u ≤ 1) :
    sliderPositionAt h s (h.startTime + (k + u) * sd) =
      s.multiCurve.pointAt (D := ℝ) (if k % 2 = 1 then 1 - u else u) := by
  have hR : (k : ℝ) + 1 ≤ R := by exact_mod_cast hk
  have hk0 : (0 : ℝ) ≤ k := Nat.cast_nonneg k
  unfold sliderPositionAt isRetarded
  have hret : ¬ ((h.startTime ==. h.endTime) = true) := by
    rw [RealArith.eq, he]
    intro hh
    have : 0 < (R : ℝ) * sd := mul_pos (by linarith) hsd
    linarith
  rw [if_neg hret]
  simp only
  have h1 : clampF64 (h.startTime + ((k : ℝ) + u) * sd) h.startTime h.endTime = h.startTime + ((k : ℝ) + u) * sd := by
    rw [clampF64_real, he, max_eq_right, min_eq_right]
    · have := mul_le_mul_of_nonneg_right (by linarith : (k : ℝ) + u ≤ R) hsd.le
      linarith
    · have : 0 ≤ ((k : ℝ) + u) * sd := by positivity
      linarith
  have h2 : (h.startTime + ((k : ℝ) + u) * sd -. h.startTime) /. s.spanDuration = k + u := by
    show (h.startTime + ((k : ℝ) + u) * sd - h.startTime) / s.spanDuration = _
    rw [hs]
    field_simp
    ring
  rw [h1, h2]
  have fin : ∀ p q : ℝ, (if p >=. lit 1 then lit 2 -. p else p) = q →
      s.multiCurve.pointAt (D := ℝ) (down (if p >=. lit 1 then lit 2 -. p else p) : ℝ) = s.multiCurve.pointAt (D := ℝ) q := by
    intro p q hpq
    rw [hpq]
    rfl
  have e1 : ∀ p : ℝ, ((p >=. lit 1) = true) ↔ 1 ≤ p := fun p => by rw [RealArith.le, lit_one_real]
  apply fin
  simp only [e1]
  show (if 1 ≤ GoFloat.fmod ((k : ℝ) + u) (lit 2 : ℝ) then (lit 2 : ℝ) - GoFloat.fmod ((k : ℝ) + u) (lit 2 : ℝ)
    else GoFloat.fmod ((k : ℝ) + u) (lit 2 : ℝ)) = _
  rcases lt_or_eq_of_le hu1 with hlt | heq
  · rw [fmod_two (by positivity) k u hu hlt rfl, lit_two_real]
    split <;> split <;> linarith
  · subst heq
    rw [fmod_two (p := (k : ℝ) + 1) (by positivity) (k + 1) 0 (le_refl _) (by norm_num) (by push_cast; ring), lit_two_real]
    by_cases hk2 : k % 2 = 1
    · rw [if_neg (show ¬ (k + 1) % 2 = 1 by omega), if_pos hk2, if_neg (by norm_num)]
      norm_num
    · rw [if_pos (show (k + 1) % 2 = 1 by omega), if_neg hk2, if_pos (by norm_num)]
      norm_num

end GosuPP.Slider
