import Verif.Props.SliderTimes
import Verif.Props.PathLength
import Verif.Props.Ticks

/-! Bounds for straight sliders with ordinary written numbers. -/

namespace GosuPP
open Go Fl Spec

/-! ### Written numbers -/

theorem dec_in {d : Dec} (hn : d.neg = false) {a b : ℚ} (ha : Nice a) (hb : Nice b) (h1 : a ≤ d.whole + fracValue d.frac)
    (h2 : d.whole + fracValue d.frac ≤ b) : In a b (d.value : F64) := by
  unfold Dec.value
  rw [hn]
  exact in_lit ha hb h1 h2

theorem dec_in_abs {d : Dec} {k : ℕ} (hk : k ≤ 50) (h1 : 1 ≤ d.whole) (h2 : d.whole < 2 ^ k) :
    ∃ B z, (d.value : F64) = fin B z ∧ 1 ≤ |B| ∧ |B| ≤ 2 ^ k := by
  have hf := fracValue_range d.frac
  have g1 : (1 : ℚ) ≤ d.whole := by exact_mod_cast h1
  have g2 : (d.whole : ℚ) + 1 ≤ 2 ^ k := by exact_mod_cast h2
  obtain ⟨v, z, hv, v1, v2⟩ : In 1 (2 ^ k) (lit (d.whole + fracValue d.frac) : F64) :=
    in_lit nice_one (nice_pow k (by omega)) (by linarith) (by linarith)
  unfold Dec.value
  rw [hv]
  split
  · refine ⟨-v, _, rfl, ?_, ?_⟩ <;> rw [abs_neg, abs_of_nonneg (by linarith)] <;> assumption
  · refine ⟨v, z, rfl, ?_, ?_⟩ <;> rw [abs_of_nonneg (by linarith)] <;> assumption

/-- The integer that a number without digits behind the point is. -/
def Spec.Dec.toInt (d : Dec) : ℤ := if d.neg then -d.whole else d.whole

theorem dec_int32 {d : Dec} (hf : d.frac = []) {k : ℕ} (hk : k ≤ 24) (h : d.whole < 2 ^ k) :
    (∃ z, (d.value : F32) = fin d.toInt z) ∧ |(d.toInt : ℚ)| ≤ 2 ^ k := by
  have hw : (d.whole : ℤ) ≤ 2 ^ k := by exact_mod_cast h.le
  have hk2 : (2 : ℤ) ^ k ≤ 2 ^ 24 := pow_le_pow_right₀ (by norm_num) hk
  have hr : Rep fmt32 ((d.whole : ℤ) : ℚ) := Fl.rep_int (by
    rw [abs_of_nonneg (by positivity)]; exact hw.trans hk2) (by decide)
  have e0 : (lit (d.whole + fracValue d.frac) : F32) = fin (d.whole : ℤ) false := by
    rw [hf]
    simp only [fracValue, add_zero]
    have := ofRat_of_rep (z := false) hr (by
      rw [abs_of_nonneg (by positivity)]
      have h1 : ((d.whole : ℤ) : ℚ) ≤ 2 ^ 24 := by exact_mod_cast hw.trans hk2
      refine _root_.lt_of_le_of_lt h1 ?_
      rw [← pow2_nat 24]
      exact pow2_lt.mpr (by decide))
    rw [Int.cast_natCast] at this ⊢
    rw [go_lit]
    simpa using this
  constructor
  · unfold Dec.value Dec.toInt
    rw [e0]
    split
    · exact ⟨_, by push_cast; rfl⟩
    · exact ⟨_, rfl⟩
  · have : ((d.whole : ℕ) : ℚ) ≤ 2 ^ k := by exact_mod_cast h.le
    unfold Dec.toInt
    split
    · push_cast; rw [abs_neg, abs_of_nonneg (by positivity)]; exact this
    · push_cast; rw [abs_of_nonneg (by positivity)]; exact this

/-! ### Timing -/

/-- Timing data with ordinary numbers: what the sliders need. -/
structure FairTiming (t : Timings F64) : Prop where
  mult : In (1 / 4) 8 t.sliderMult
  rate : In (1 / 4) 8 t.tickRate
  bases : ∀ p ∈ t.points, ∃ B z, p.beatLengthBase = fin B z ∧ 1 ≤ |B| ∧ |B| ≤ 2 ^ 16
  some : t.points ≠ []

theorem FairTiming.lookup {t : Timings F64} (h : FairTiming t) (x : F64) : ∃ p ∈ t.points, t.getPointAt x = .ok p := by
  unfold Timings.getPointAt
  rw [pointAt_eq]
  have hlen : 0 < t.points.length := List.length_pos_iff.mpr h.some
  have hs := search_le t.points.length (fun i => (t.points[i]?).elim true (fun p => x <. p.time))
  generalize search t.points.length (fun i => (t.points[i]?).elim true (fun p => x <. p.time)) = n at hs
  obtain ⟨j, hj, hj'⟩ : ∃ j : ℕ, maxI 0 ((n : Int) - 1) = j ∧ j < t.points.length := by
    refine ⟨n - 1, ?_, by omega⟩
    unfold maxI
    split <;> omega
  rw [hj]
  refine ⟨t.points[j], List.getElem_mem hj', ?_⟩
  unfold index
  rw [if_neg (by omega), Int.toNat_natCast, List.getElem?_eq_getElem hj']

theorem FairTiming.scoring {t : Timings F64} (h : FairTiming t) : In 3 (2 ^ 12) t.getScoringDistance := by
  have n100 : Nice (100 : ℚ) := by exact nice_nat 100 (by norm_num)
  have n25 : Nice (25 : ℚ) := by exact nice_nat 25 (by norm_num)
  have n3 : Nice (3 : ℚ) := by exact nice_nat 3 (by norm_num)
  have h1 : In 25 (2 ^ 10) ((lit 100 : F64) *. t.sliderMult) :=
    (in_lit n100 n100 le_rfl le_rfl : In 100 100 (lit 100 : F64)).mul h.mult (by norm_num) (by norm_num) n25
      (nice_pow 10 (by norm_num)) (by norm_num) (by norm_num)
  exact h1.div' h.rate (by norm_num) (by norm_num) n3 (nice_pow 12 (by norm_num)) (by norm_num) (by norm_num)

theorem FairTiming.tick {t : Timings F64} (h : FairTiming t) (p : ControlPoint F64) : In (1 / 4) (2 ^ 16) (t.getTickDistance F32 p) := by
  have n4 : Nice (1 / 4 : ℚ) := by have := nice_neg_pow 2 (by norm_num); norm_num at this ⊢; exact this
  exact h.scoring.div' (pointRatio_in p) (by norm_num) (by norm_num) n4 (nice_pow 16 (by norm_num)) (by norm_num) (by norm_num)

theorem FairTiming.velocity {t : Timings F64} (h : FairTiming t) {p : ControlPoint F64} (hp : p ∈ t.points) :
    In (1 / 2 ^ 11) (2 ^ 29) (t.getVelocity F32 p) := by
  have n12 : Nice (1 / 2 : ℚ) := by have := nice_neg_pow 1 (by norm_num); norm_num at this ⊢; exact this
  have n16 : Nice (1 / 16 : ℚ) := by have := nice_neg_pow 4 (by norm_num); norm_num at this ⊢; exact this
  have n1000 : Nice (1000 : ℚ) := by exact nice_nat 1000 (by norm_num)
  have nb : Nice (655360 : ℚ) := by exact nice_nat 655360 (by norm_num)
  have h1 : In (1 / 2) (2 ^ 15) (t.getScoringDistance *. t.tickRate) :=
    h.scoring.mul h.rate (by norm_num) (by norm_num) n12 (nice_pow 15 (by norm_num)) (by norm_num) (by norm_num)
  unfold Timings.getVelocity
  simp only
  split
  · rename_i hc
    -- the beat length is positive
    obtain ⟨B, z, hB, B1, B2⟩ := h.bases p hp
    obtain ⟨r, zr, hr, r1, r2⟩ := pointRatio_in p
    have hb : In (1 / 16) 655360 (p.getBeatLength F32) := by
      have e0 : (lit 0 : F64) = fin 0 false := ofRat_zero _
      rcases le_or_gt 0 B with hpos | hneg
      · rw [abs_of_nonneg hpos] at B1 B2
        unfold ControlPoint.getBeatLength
        exact (show In 1 (2 ^ 16) p.beatLengthBase from ⟨B, z, hB, B1, B2⟩).mul ⟨r, zr, hr, r1, r2⟩ (by norm_num) (by norm_num) n16
          nb (by norm_num) (by norm_num)
      · exfalso
        rw [abs_of_neg hneg] at B1 B2
        have : In (-(2 ^ 20)) (-(1 / 16)) (p.getBeatLength F32) := by
          unfold ControlPoint.getBeatLength
          rw [hB, hr]
          exact in_ofRat _ (nice_pow 20 (by norm_num)).neg n16.neg (by nlinarith) (by nlinarith)
        obtain ⟨v, z, hv, -, v2⟩ := this
        rw [hv, e0] at hc
        have : (0 : ℚ) ≤ v := of_decide_eq_true hc
        linarith
    have h2 : In (1 / 2 ^ 10) (2 ^ 14) ((lit 1000 : F64) /. p.getBeatLength F32) := by
      refine (in_lit n1000 n1000 le_rfl le_rfl : In 1000 1000 (lit 1000 : F64)).div' hb (by norm_num) (by norm_num)
        (nice_neg_pow 10 (by norm_num)) (nice_pow 14 (by norm_num)) (by norm_num) (by norm_num)
    exact h1.mul h2 (by norm_num) (by norm_num) (nice_neg_pow 11 (by norm_num)) (nice_pow 29 (by norm_num)) (by norm_num) (by norm_num)
  · exact h1.mono (by norm_num) (by norm_num)

/-! ### The times of score points -/

/-- The ticks of a span are within the span, up to rounding. -/
theorem tickLoop_times {td c m sst sd : F64} {rev nan : Bool} {D T : ℚ} (hc : In 0 (2 ^ 17) c) (htd : In (1 / 4) (2 ^ 17) td)
    (hs : In (-T) T sst) (hsd : In 0 D sd) (hD : Nice D) (hT : Nice (T + D)) (hT0 : 0 ≤ D) {fuel : Nat} {d : F64} (hd : In (1 / 4) (2 ^ 18) d)
    {l : List (TickPoint F64)} (h : Slider.tickLoop td c m sst sd rev nan fuel d = .ok l) :
    ∀ p ∈ l, In (-(T + D)) (T + D) p.time := by
  have n4 : Nice (1 / 4 : ℚ) := by have := nice_neg_pow 2 (by norm_num); norm_num at this ⊢; exact this
  induction fuel generalizing d l with
  | zero => cases h
  | succ fuel ih =>
    unfold Slider.tickLoop at h
    split at h
    · rename_i hle
      split at h
      · cases h; simp
      · obtain ⟨rest, hr, h⟩ := bind_ok h
        cases h
        rw [Bool.and_eq_true] at hle
        have hdc : In (1 / 4) (2 ^ 17) d := by
          obtain ⟨v, z, rfl, v1, v2⟩ := hd
          obtain ⟨w, t, rfl, w1, w2⟩ := hc
          have : v ≤ w := of_decide_eq_true hle.1
          exact ⟨v, z, rfl, v1, this.trans w2⟩
        have hcc : In (1 / 4) (2 ^ 17) c := by
          obtain ⟨v, z, rfl, v1, v2⟩ := hd
          obtain ⟨w, t, rfl, w1, w2⟩ := hc
          have : v ≤ w := of_decide_eq_true hle.1
          exact ⟨w, t, rfl, v1.trans this, w2⟩
        have hprog : In 0 1 (d /. c) := (hdc.mono (by norm_num) le_rfl : In 0 (2 ^ 17) d).div_le hcc (by norm_num) hle.1
        have hprog' : In 0 1 (if rev then lit 1 -. d /. c else d /. c) := by
          split
          · exact (in_lit nice_one nice_one le_rfl le_rfl : In 1 1 (lit 1 : F64)).sub hprog nice_zero nice_one (by norm_num) (by norm_num)
          · exact hprog
        intro p hp
        rcases List.mem_cons.mp hp with rfl | hp
        · have hm := hprog'.mul hsd le_rfl le_rfl nice_zero hD (by norm_num) (by rw [one_mul])
          exact hs.add hm hT.neg hT (by linarith) le_rfl
        · refine ih (d := d +. td) ?_ hr p hp
          exact hdc.add htd n4 (nice_pow 18 (by norm_num)) (by norm_num) (by norm_num)
    · cases h; simp

/-- The score points of a slider with at most `R` spans of at most `D` ms that starts within 2^38 ms. -/
theorem spanLoop_times {a : Slider.SpanArgs F64} {fuel : Nat} {l : List (TickPoint F64)} {D : ℕ} {R : ℤ}
    (h : Slider.spanLoop a fuel a.repeatCount.toNat 0 = .ok l) (hc : In 0 (2 ^ 17) a.cLength)
    (htd : In (1 / 4) (2 ^ 17) a.tickDistance) (hs : In (-2 ^ 38) (2 ^ 38) a.startTime) (hsd : In 0 D a.spanDuration)
    (he : In (-2 ^ 39) (2 ^ 39) a.endTime) (hR : a.repeatCount = R) (hR53 : R ≤ 2 ^ 53)
    (hD : R * D ≤ 2 ^ 38) :
    ∀ p ∈ l, In (-2 ^ 40) (2 ^ 40) p.time := by
  intro p hp
  obtain ⟨f, rfl, hf⟩ := Slider.spanLoop_spec h
  obtain ⟨j, j0, j1, hp⟩ := Slider.mem_spans.mp hp
  have hf := hf j j0 j1
  have hjR : j + 1 ≤ R := by omega
  have hR1 : (1 : ℤ) ≤ R := by omega
  have hD' : (D : ℤ) ≤ 2 ^ 38 := by nlinarith
  have hjD : j * D ≤ 2 ^ 38 := by nlinarith
  have hDq : (D : ℚ) ≤ 2 ^ 38 := by exact_mod_cast hD'
  have hjq : (j : ℚ) * D ≤ 2 ^ 38 := by exact_mod_cast hjD
  have n36 : Nice (36 : ℚ) := by exact nice_nat 36 (by norm_num)
  have n2 : Nice (2 : ℚ) := by exact nice_nat 2 (by norm_num)
  have n38 : Nice (2 ^ 38 : ℚ) := nice_pow 38 (by norm_num)
  have n39 : Nice (2 ^ 39 : ℚ) := nice_pow 39 (by norm_num)
  have n40 : Nice (2 ^ 40 : ℚ) := nice_pow 40 (by norm_num)
  have hj53 : j ≤ 2 ^ 53 := by
    have : (R : ℤ) ≤ 2 ^ 53 := hR53
    omega
  have hij : In j j (ofInt j : F64) := by
    have : Nice (j : ℚ) := nice_int (by rw [abs_of_nonneg j0]; exact hj53)
    exact in_ofInt this this le_rfl le_rfl
  have hstart : In (-2 ^ 39) (2 ^ 39) (a.startTime +. ofInt j *. a.spanDuration) := by
    have hm : In 0 (2 ^ 38) (ofInt j *. a.spanDuration) :=
      hij.mul hsd (by exact_mod_cast j0) le_rfl nice_zero n38 (by simp) hjq
    exact hs.add hm n39.neg n39 (by norm_num) (by norm_num)
  have hend : In (-2 ^ 40) (2 ^ 40) (a.startTime +. ofInt j *. a.spanDuration +. a.spanDuration) :=
    hstart.add (hsd.mono le_rfl hDq : In 0 (2 ^ 38) _) n40.neg n40 (by norm_num) (by norm_num)
  have hlast : In (-2 ^ 40) (2 ^ 40) (fmax (a.startTime +. (a.endTime -. a.startTime) /. lit 2) (a.endTime -. lit 36)) := by
    have h1 : In (-2 ^ 40) (2 ^ 40) (a.endTime -. a.startTime) := he.sub hs n40.neg n40 (by norm_num) (by norm_num)
    have h2 : In (-2 ^ 39) (2 ^ 39) ((a.endTime -. a.startTime) /. lit 2) :=
      h1.divS (in_lit n2 n2 le_rfl le_rfl : In 2 2 (lit 2 : F64)) (by norm_num) n39 (by norm_num)
    have h3 : In (-2 ^ 40) (2 ^ 40) (a.startTime +. (a.endTime -. a.startTime) /. lit 2) :=
      hs.add h2 n40.neg n40 (by norm_num) (by norm_num)
    have h4 : In (-2 ^ 40) (2 ^ 40) (a.endTime -. lit 36) :=
      he.sub (in_lit n36 n36 le_rfl le_rfl : In 36 36 (lit 36 : F64)) n40.neg n40 (by norm_num) (by norm_num)
    simpa using h3.fmax h4
  unfold Slider.spanTicks at hf
  obtain ⟨ticks, ht, hf⟩ := bind_ok hf
  generalize hfj : f j = fj at hf hp
  cases hf
  rcases List.mem_append.mp hp with hp | hp
  · have := tickLoop_times (T := 2 ^ 39) (D := 2 ^ 38) hc htd hstart (hsd.mono le_rfl hDq) n38 (by
      have : ((2 : ℚ) ^ 39 + 2 ^ 38) = ((824633720832 : ℕ) : ℚ) := by norm_num
      rw [this]; exact nice_nat _ (by norm_num)) (by norm_num)
      (htd.mono le_rfl (by norm_num)) ht p hp
    exact this.mono (by norm_num) (by norm_num)
  · rw [List.mem_singleton] at hp
    subst hp
    split
    · exact hend
    · exact hlast

/-! ### The path -/

/-- A point with whole coordinates below 4096. -/
def Spec.WholePoint (p : Dec × Dec) : Prop := p.1.frac = [] ∧ p.2.frac = [] ∧ p.1.whole < 2 ^ 12 ∧ p.2.whole < 2 ^ 12

/-- The coordinates of written points. -/
def coords (ps : List (Dec × Dec)) : List (ℚ × ℚ) := ps.map (fun p => ((p.1.toInt : ℚ), (p.2.toInt : ℚ)))

theorem coords_at {ps : List (Dec × Dec)} (h : ∀ p ∈ ps, Spec.WholePoint p) :
    List.Forall₂ (fun p c => Spec.At p c.1 c.2) (ps.map (fun p => (⟨p.1.value, p.2.value⟩ : Vec F32))) (coords ps) := by
  induction ps with
  | nil => exact .nil
  | cons p ps ih =>
    obtain ⟨h1, h2, h3, h4⟩ := h p (by simp)
    refine .cons ?_ (ih fun q hq => h q (by simp [hq]))
    obtain ⟨⟨a, ha⟩, -⟩ := dec_int32 h1 (by norm_num) h3
    obtain ⟨⟨b, hb⟩, -⟩ := dec_int32 h2 (by norm_num) h4
    exact ⟨a, b, by show (⟨p.1.value, p.2.value⟩ : Vec F32) = _; rw [ha, hb]⟩

theorem coords_bound {ps : List (Dec × Dec)} (h : ∀ p ∈ ps, Spec.WholePoint p) : ∀ c ∈ coords ps, |c.1| ≤ 2 ^ 12 ∧ |c.2| ≤ 2 ^ 12 := by
  intro c hc
  obtain ⟨p, hp, rfl⟩ := List.mem_map.mp hc
  obtain ⟨h1, h2, h3, h4⟩ := h p hp
  exact ⟨(dec_int32 h1 (by norm_num) h3).2, (dec_int32 h2 (by norm_num) h4).2⟩

theorem int_apart (m n : ℤ) (h : m ≠ n) : (1 : ℚ) ≤ |(n : ℚ) - m| := by
  have : (1 : ℤ) ≤ |n - m| := Int.one_le_abs (by omega)
  exact_mod_cast this

theorem coords_apart (ps : List (Dec × Dec)) : Spec.CoordsApart (coords ps) := by
  induction ps with
  | nil => trivial
  | cons p ps ih =>
    cases ps with
    | nil => trivial
    | cons q ps =>
      refine ⟨?_, ih⟩
      by_cases h1 : p.1.toInt = q.1.toInt
      · by_cases h2 : p.2.toInt = q.2.toInt
        · left; simp only [h1, h2]
        · right; right; exact _root_.le_trans (by norm_num) (int_apart _ _ h2)
      · right; left; exact _root_.le_trans (by norm_num) (int_apart _ _ h1)

theorem poly_le {cs : List (ℚ × ℚ)} {B : ℚ} (hB : 0 ≤ B) (h : ∀ c ∈ cs, |c.1| ≤ B ∧ |c.2| ≤ B) :
    0 ≤ Spec.polyLength cs ∧ Spec.polyLength cs ≤ cs.length * (3 * (B : ℝ)) := by
  have hBR : (0 : ℝ) ≤ B := by exact_mod_cast hB
  induction cs with
  | nil => simp [Spec.polyLength]
  | cons c cs ih =>
    cases cs with
    | nil =>
      simp only [Spec.polyLength, List.length_cons, List.length_nil]
      exact ⟨le_rfl, by positivity⟩
    | cons d cs =>
      obtain ⟨i0, i1⟩ := ih (fun c hc => h c (by simp [hc]))
      have hN : Spec.polyLength (c :: d :: cs) = norm2 (d.1 - c.1) (d.2 - c.2) + Spec.polyLength (d :: cs) := by
        rw [Spec.polyLength]
        unfold norm2
        push_cast
        rfl
      have hc := h c (by simp)
      have hd := h d (by simp)
      have h0 := norm2_nonneg (d.1 - c.1) (d.2 - c.2)
      have h1 : norm2 (d.1 - c.1) (d.2 - c.2) ≤ 29 / 10 * (B : ℝ) :=
        norm2_le ((abs_sub _ _).trans (by linarith [hc.1, hd.1])) ((abs_sub _ _).trans (by linarith [hc.2, hd.2]))
      rw [hN]
      refine ⟨by linarith, ?_⟩
      rw [List.length_cons]
      push_cast at i1 ⊢
      nlinarith

theorem poly_pos {ps : List (Dec × Dec)} (h : ∀ p ∈ ps, Spec.WholePoint p) :
    processLinear (ps.map (fun p => (⟨p.1.value, p.2.value⟩ : Vec F32))) = [] ∨ 1 ≤ Spec.polyLength (coords ps) := by
  induction ps with
  | nil => left; rfl
  | cons p ps ih =>
    cases ps with
    | nil => left; rfl
    | cons q ps =>
      have i := ih (fun c hc => h c (by simp [hc]))
      obtain ⟨h1, h2, h3, h4⟩ := h p (by simp)
      obtain ⟨g1, g2, g3, g4⟩ := h q (by simp)
      obtain ⟨⟨a, ha⟩, -⟩ := dec_int32 h1 (by norm_num) h3
      obtain ⟨⟨b, hb⟩, -⟩ := dec_int32 h2 (by norm_num) h4
      obtain ⟨⟨a', ha'⟩, -⟩ := dec_int32 g1 (by norm_num) g3
      obtain ⟨⟨b', hb'⟩, -⟩ := dec_int32 g2 (by norm_num) g4
      have hN : Spec.polyLength (coords (p :: q :: ps)) =
          norm2 (q.1.toInt - p.1.toInt) (q.2.toInt - p.2.toInt) + Spec.polyLength (coords (q :: ps)) := by
        show Spec.polyLength (_ :: _ :: _) = _
        rw [Spec.polyLength]
        unfold norm2
        push_cast
        rfl
      have h0 := norm2_nonneg (q.1.toInt - p.1.toInt) (q.2.toInt - p.2.toInt)
      have hp0 := (poly_le (by norm_num) (coords_bound (ps := q :: ps) (fun c hc => h c (by simp [hc])))).1
      rw [hN]
      by_cases hx : p.1.toInt = q.1.toInt ∧ p.2.toInt = q.2.toInt
      · rcases i with i | i
        · left
          rw [List.map_cons, List.map_cons, processLinear, if_pos]
          · exact i
          · unfold Vec.eq
            simp only [ha, hb, ha', hb', hx.1, hx.2, go_eq, Fl.eq, decide_true, Bool.and_self]
        · right; linarith
      · right
        obtain ⟨n1, n2⟩ := abs_le_norm2 (q.1.toInt - p.1.toInt) (q.2.toInt - p.2.toInt)
        by_cases h1 : p.1.toInt = q.1.toInt
        · have h2 := int_apart p.2.toInt q.2.toInt (fun h => hx ⟨h1, h⟩)
          have h2 : (1 : ℝ) ≤ |((q.2.toInt - p.2.toInt : ℚ) : ℝ)| := by exact_mod_cast h2
          linarith
        · have h2 := int_apart p.1.toInt q.1.toInt h1
          have h2 : (1 : ℝ) ≤ |((q.1.toInt - p.1.toInt : ℚ) : ℝ)| := by exact_mod_cast h2
          linarith

/-- The path of a straight slider through whole points. -/
theorem straight_path [GoLibm F64] {fuel : ℕ} {ps : List (Dec × Dec)} (hps : ∀ p ∈ ps, Spec.WholePoint p) (hlen : ps.length ≤ 129) {P : ℚ} {z : Bool}
    (hP0 : 1 ≤ P) (hP1 : P ≤ 2 ^ 14) {mc : MultiCurve F32}
    (h : MultiCurve.newT fuel ['L'] (ps.map (fun p => (⟨p.1.value, p.2.value⟩ : Vec F32))) (fin P z : F64) = .ok mc) :
    Props.TamePath mc ∧ ∃ C zC, mc.length = fin C zC ∧ 0 ≤ C ∧ C ≤ P + 300 := by
  have hat := coords_at hps
  have hb := coords_bound hps
  have hap := coords_apart ps
  obtain ⟨q1, -, -⟩ := linear_lines hat (B := 2 ^ 12) (by norm_num) hb hap
  have hraw : processType (D := F64) fuel ['L'] (ps.map (fun p => (⟨p.1.value, p.2.value⟩ : Vec F32))) =
      .ok (processLinear (ps.map (fun p => (⟨p.1.value, p.2.value⟩ : Vec F32)))) := rfl
  have hn : (processLinear (ps.map (fun p => (⟨p.1.value, p.2.value⟩ : Vec F32)))).length ≤ 129 :=
    (processLinear_length _).trans (by rw [List.length_map]; exact hlen)
  have hcl : (coords ps).length = ps.length := by unfold coords; rw [List.length_map]
  constructor
  · refine ⟨fuel, ['L'], _, P, z, _, h, hraw, hn.trans (by norm_num), ?_, ?_, ?_, by linarith, ?_⟩
    · intro p hp
      cases ps with
      | nil => cases hp
      | cons q ps =>
        cases hp
        obtain ⟨h1, h2, h3, h4⟩ := hps q (by simp)
        exact ⟨dec_bd (k := 17) (h3.trans (by norm_num)) (by norm_num), dec_bd (k := 17) (h4.trans (by norm_num)) (by norm_num)⟩
    · intro l hl
      obtain ⟨⟨x, y, a1, a2, a3⟩, ⟨x', y', b1, b2, b3⟩, -, -⟩ := q1 l hl
      exact ⟨⟨x, y, a1, a2.trans (by norm_num), a3.trans (by norm_num)⟩, ⟨x', y', b1, b2.trans (by norm_num), b3.trans (by norm_num)⟩⟩
    · intro l hl
      exact .inr (q1 l hl).2.2.2
    · intro L zL hL
      obtain ⟨L', zL', hL', L0, -⟩ : In32 0 (_ * pow2 19) (MultiCurve.totalLength (D := F64) _) :=
        totalLength_bound (processLinear (ps.map (fun p => (⟨p.1.value, p.2.value⟩ : Vec F32)))) (by norm_num) (by norm_num) (fun l hl => by
          have vb : ∀ p, VB (2 ^ 12) p → VBd ((17 : ℕ) : ℤ) p := by
            rintro p ⟨x, y, ⟨a, b, rfl⟩, hx, hy⟩
            exact ⟨⟨x, a, rfl, by rw [pow2_nat]; exact hx.trans (by norm_num)⟩, ⟨y, b, rfl, by rw [pow2_nat]; exact hy.trans (by norm_num)⟩⟩
          exact length_in (k := 17) (vb _ (q1 l hl).1) (vb _ (q1 l hl).2.1) (by norm_num) (by decide +kernel)) (hn.trans (by norm_num))
      rw [hL] at hL'
      cases hL'
      linarith
  · rcases poly_pos hps with he | hpos
    · refine ⟨0, false, ?_, le_rfl, by linarith⟩
      unfold MultiCurve.newT at h
      rw [hraw, he] at h
      obtain ⟨lines, h1, h⟩ := bind_ok h
      cases h1
      obtain ⟨fp, -, h⟩ := bind_ok h
      cases h
      have h0 : ¬ (MultiCurve.totalLength (S := F32) (D := F64) [] >. lit 0) = true := by decide +kernel
      show MultiCurve.totalLength (D := F64) _ = _
      rw [if_neg h0]
      decide +kernel
    · obtain ⟨C, zC, hC, C0, hCP⟩ := C84_linear (k := 12) (j := 14) h hat (by rw [hcl]; omega) (by norm_num) (by norm_num) (by norm_num) hb hap
        (_root_.le_trans (by norm_num) hpos) (by linarith) (by rw [show pow2 14 = 2 ^ 14 from pow2_nat 14]; exact hP1)
      refine ⟨C, zC, hC, C0, ?_⟩
      obtain ⟨p0, p1⟩ := poly_le (by norm_num) hb
      rw [show pow2 14 = 2 ^ 14 from pow2_nat 14] at hCP
      rw [hcl] at hCP p1
      have hl : (ps.length : ℝ) ≤ 129 := by exact_mod_cast hlen
      have hPR : (P : ℝ) ≤ 2 ^ 14 := by exact_mod_cast hP1
      have hP0R : (0 : ℝ) ≤ P := by exact_mod_cast (by linarith : (0:ℚ) ≤ P)
      push_cast at p1 hCP
      have p2 : Spec.polyLength (coords ps) ≤ 129 * (3 * 2 ^ 12) := p1.trans (by gcongr)
      have t : (ps.length : ℝ) * (2 * Spec.polyLength (coords ps) + P) ≤ 129 * (2 * (129 * (3 * 2 ^ 12)) + 2 ^ 14) :=
        mul_le_mul hl (by linarith) (by linarith) (by norm_num)
      have t' : (ps.length : ℝ) * (2 * Spec.polyLength (coords ps) + P) / 2 ^ 21 ≤ 129 * (2 * (129 * (3 * 2 ^ 12)) + 2 ^ 14) / 2 ^ 21 :=
        div_le_div_of_nonneg_right t (by norm_num)
      have : (C : ℝ) ≤ P + 300 := by
        have := (abs_le.mp hCP).2
        norm_num at this t' ⊢
        linarith
      exact_mod_cast this

/-! ### The timing of a slider -/

/-- A slider whose spans together are at most 2^17 long gets its timing, and is tame. -/
theorem tame_timing [GoSort] [GoLibm F64] {t : Timings F64} (ht : FairTiming t) {b : HitObject F32 F64} {s : SliderData F32 F64} {pf : ℕ}
    {typ : Str} {points : List (Vec F32)} {len : F64} (hmc : MultiCurve.newT pf typ points len = .ok s.multiCurve)
    (hpath : Props.TamePath s.multiCurve) {C P : ℚ} {zC zP : Bool} (hC : s.multiCurve.length = fin C zC) (hP : s.pixelLength = fin P zP)
    {W : ℕ} (C0 : 0 ≤ C) (CW : C ≤ W) (P1 : 1 ≤ P) (W1 : 1 ≤ W) (R1 : 1 ≤ s.repeatCount) (RW : s.repeatCount * W ≤ 2 ^ 17)
    (hs : s.scorePoints = []) (hb : In (-2 ^ 38) (2 ^ 38) b.startTime) {fuel : ℕ} (hf : 2 ^ 26 + 4 ≤ fuel) :
    ∃ o2 s2, Obj.setTiming fuel t ⟨b, .slider s⟩ = .ok o2 ∧ o2.kind = .slider s2 ∧ Props.TameSlider t s2 := by
  obtain ⟨tp, htp, hat⟩ := ht.lookup b.startTime
  obtain ⟨T, zT, hT, T1, T2⟩ := ht.tick tp
  obtain ⟨V, zV, hV, V1, V2⟩ := ht.velocity htp
  have W1' : (1 : ℤ) ≤ W := by exact_mod_cast W1
  have hR17 : s.repeatCount ≤ 2 ^ 17 := by nlinarith
  have hW17 : (W : ℤ) ≤ 2 ^ 17 := by nlinarith
  have hWq : (W : ℚ) ≤ 2 ^ 17 := by exact_mod_cast hW17
  have hRWq : (s.repeatCount : ℚ) * W ≤ 2 ^ 17 := by exact_mod_cast RW
  have hRq : (1 : ℚ) ≤ s.repeatCount := by exact_mod_cast R1
  have hC17 : C ≤ 2 ^ 17 := CW.trans hWq
  have hstep : 1 / 4 ≤ Spec.tickStep T P C ∧ Spec.tickStep T P C ≤ 2 ^ 17 := by
    unfold Spec.tickStep
    split
    · exact ⟨le_min T1 (by linarith), (min_le_left _ _).trans (by linarith)⟩
    · exact ⟨T1, by linarith⟩
  have p900 : pow2 (-900) ≤ 1 / 4 := by
    have : pow2 (-2) = 1 / 4 := by decide +kernel
    rw [← this]; exact pow2_mono (by norm_num)
  obtain ⟨o, s', h1, h2, n, hn, hnC, -⟩ := C81_returns (fuel := fuel) hmc hat hT hP hC (by linarith) (by linarith) (fun _ => by linarith) C0
    (by linarith) (by linarith) (fun _ => by linarith) hf
  refine ⟨o, s', h1, h2, ?_⟩
  have h1' : Slider.setTiming fuel t b s = .ok o := h1
  obtain ⟨tp', pts, pos, e1, e2, e3, rfl⟩ := Slider.setTiming_iff.mp h1'
  rw [hat] at e1
  cases e1
  have hs' : s' = { s with
        tPoint := tp, spanDuration := (Slider.args t tp b s).spanDuration
        scorePoints := GoSort.slice (fun a b : TickPoint F64 => a.time <. b.time) (s.scorePoints ++ pts) } := by
    simp only [Kind.slider.injEq] at h2
    exact h2.symm
  have hn5 : (n : ℚ) ≤ 5 * C := by
    have h3 : (n : ℚ) * (1 / 4) ≤ n * Spec.tickStep T P C := mul_le_mul_of_nonneg_left hstep.1 (by positivity)
    have h4 : (n : ℚ) * (1 / 4) * (1 - 1 / 2 ^ 25) ≤ C := _root_.le_trans (mul_le_mul_of_nonneg_right h3 (by norm_num)) hnC
    have h5 : (0 : ℚ) ≤ n := by positivity
    norm_num at h4
    linarith
  have hcl : In 0 W (up s.multiCurve.length : F64) := by
    obtain ⟨z, hz⟩ : ∃ z, (up s.multiCurve.length : F64) = fin C z := by
      rw [hC]
      exact ⟨_, up_fin (hC ▸ length_wf hmc)⟩
    exact ⟨C, z, hz, C0, CW⟩
  have nW : Nice (W : ℚ) := nice_nat W (by omega)
  have n1000 : Nice (1000 : ℚ) := by exact nice_nat 1000 (by norm_num)
  have h1000 : In 0 (W * 2 ^ 10) (up s.multiCurve.length *. lit 1000 : F64) := by
    have : Nice ((W : ℚ) * 2 ^ 10) := by
      have := nice_nat (W * 2 ^ 10) (by omega)
      push_cast at this; exact this
    exact hcl.mul (in_lit n1000 n1000 le_rfl le_rfl : In 1000 1000 (lit 1000 : F64)) le_rfl (by norm_num) nice_zero this (by norm_num) (by
      have : (0 : ℚ) ≤ W := by positivity
      linarith)
  have hVin : In (1 / 2 ^ 11) (2 ^ 29) (t.getVelocity F32 tp) := ⟨V, zV, hV, V1, V2⟩
  have hspan : In 0 ((W * 2 ^ 21 : ℕ) : ℚ) (Slider.args t tp b s).spanDuration :=
    h1000.div' hVin le_rfl (by norm_num) nice_zero (nice_nat _ (by omega)) (by norm_num) (by push_cast; norm_num; linarith)
  have hRin : In s.repeatCount s.repeatCount (ofInt s.repeatCount : F64) := by
    have : Nice (s.repeatCount : ℚ) := nice_int (by rw [abs_of_nonneg (by omega)]; omega)
    exact in_ofInt this this le_rfl le_rfl
  have hall : In 0 (2 ^ 27) (up s.multiCurve.length *. lit 1000 *. ofInt s.repeatCount : F64) :=
    h1000.mul hRin le_rfl (by linarith) nice_zero (nice_pow 27 (by norm_num)) (by simp) (by linarith)
  have hdur : In 0 (2 ^ 38) (up s.multiCurve.length *. lit 1000 *. ofInt s.repeatCount /. t.getVelocity F32 tp : F64) :=
    hall.div' hVin le_rfl (by norm_num) nice_zero (nice_pow 38 (by norm_num)) (by norm_num) (by norm_num)
  have n39 : Nice (2 ^ 39 : ℚ) := nice_pow 39 (by norm_num)
  have hend : In (-2 ^ 39) (2 ^ 39) (Slider.args t tp b s).endTime := hb.add hdur n39.neg n39 (by norm_num) (by norm_num)
  have htimes := spanLoop_times (a := Slider.args t tp b s) (D := W * 2 ^ 21) (R := s.repeatCount) e2 (hcl.mono le_rfl hWq)
    (by
      obtain ⟨z, hz⟩ := distance_fin (t := t) (tp := tp) hT hP hC
      exact ⟨_, z, hz, hstep.1, hstep.2⟩) hb hspan hend rfl (by omega) (by
        push_cast; nlinarith)
  have n40 : Nice (2 ^ 40 : ℚ) := nice_pow 40 (by norm_num)
  have hmc' : s'.multiCurve = s.multiCurve := by rw [hs']
  have hr' : s'.repeatCount = s.repeatCount := by rw [hs']
  have htp' : s'.tPoint = tp := by rw [hs']
  refine ⟨by rw [hmc']; exact hpath, by rw [hr']; exact ⟨R1, by omega⟩, ?_, ?_, ?_⟩
  · rw [hn, hs, List.length_nil, Nat.zero_add]
    have h6 : (n : ℚ) ≤ 5 * W := by linarith
    have h6 : n ≤ 5 * W := by exact_mod_cast h6
    obtain ⟨r, hr⟩ : ∃ r : ℕ, s.repeatCount = r := ⟨s.repeatCount.toNat, by omega⟩
    rw [hr] at RW ⊢
    rw [Int.toNat_natCast]
    have RW' : r * W ≤ 2 ^ 17 := by exact_mod_cast RW
    nlinarith
  · intro p hp
    have hp : p ∈ pts := by
      have hp' : p ∈ GoSort.slice (fun a b : TickPoint F64 => a.time <. b.time) (s.scorePoints ++ pts) := by rw [hs'] at hp; exact hp
      have := (GoSort.slice_perm (fun a b : TickPoint F64 => a.time <. b.time) (s.scorePoints ++ pts)).mem_iff.mp hp'
      rw [hs] at this
      exact this
    exact (htimes p hp).within n40.neg n40
  · rw [htp']
    exact ⟨V, zV, hV, _root_.le_trans (by norm_num) V1, V2.trans (by norm_num)⟩

/-! ### The state after the lines of a written file -/

section
variable [GoSort] [GoLibm F64]

theorem file_timing {fuel : ℕ} {f : File} (hf : f.Good) {st : ParseState F32 F64} (hl : parseLines fuel f.lines ParseState.init = .ok st)
    (hne : f.points ≠ []) (hbeat : ∀ p ∈ f.points, 1 ≤ p.beatLength.whole ∧ p.beatLength.whole < 2 ^ 16)
    (hm : In (1 / 4) 8 (f.sliderMultiplier.value : F64)) (hr : In (1 / 4) 8 (f.tickRate.value : F64)) :
    FairTiming st.beatMap.timings.finalizePoints := by
  have h2 := difficulty_value (fun b => b.timings.sliderMult) (fun _ => rfl) "SliderMultiplier" parseFloat
    (fun k v b => (difficulty_fields k v b).2.1) hl
  have h3 := difficulty_value (fun b => b.timings.tickRate) (fun _ => rfl) "SliderTickRate" parseFloat
    (fun k v b => (difficulty_fields k v b).2.2) hl
  simp only [values_difficulty hf] at h2 h3
  simp [File.difficulty, lastOr, trimSpace_show, parseFloat_show] at h2 h3
  obtain ⟨p1, p2⟩ := points_value hl
  have hb : ∀ p ∈ st.beatMap.timings.points, p.beatLengthBase = p.beatLength := by
    intro p hp
    obtain ⟨fs, -, h⟩ := Props.forall₂_right p1 hp
    exact h.2
  obtain ⟨e1, -, e3⟩ := Props.parsed_timings p2 hb
  rw [(records_timing hf).2] at p1
  have hw := Props.points_written hf.points (p1.imp (fun _ _ h => h.1)) hb
  have hbase := Props.C16_base_beat_length st.beatMap.timings.points
  rw [e3, ← e1] at hbase
  have hmem : ∀ q ∈ GoSort.stable (fun a b : ControlPoint F64 => a.time <. b.time) st.beatMap.timings.points,
      ∃ l ∈ f.points, q.beatLength = l.beatLength.value := by
    intro q hq
    have := (GoSort.stable_perm _ _).mem_iff.mp hq
    rw [hw] at this
    obtain ⟨l, hl, rfl⟩ := List.mem_map.mp this
    exact ⟨l, hl, rfl⟩
  refine ⟨?_, ?_, ?_, ?_⟩
  · show In _ _ st.beatMap.timings.sliderMult
    rw [h2]; exact hm
  · show In _ _ st.beatMap.timings.tickRate
    rw [h3]; exact hr
  · intro p hp
    obtain ⟨i, hi, rfl⟩ := List.getElem_of_mem hp
    have hi' := hi
    rw [hbase.1] at hi'
    obtain ⟨j, a, -, ha, -, -, hL⟩ := hbase.2 i _ (List.getElem?_eq_getElem hi')
    rw [List.getElem?_eq_getElem hi] at hL
    obtain ⟨l, hl, hl'⟩ := hmem a (List.mem_of_getElem? ha)
    have : (st.beatMap.timings.finalizePoints.points[i]).beatLengthBase = l.beatLength.value := by
      rw [Option.some.inj hL]; exact hl'
    rw [this]
    exact dec_in_abs (by norm_num) (hbeat l hl).1 (hbeat l hl).2
  · intro hnil
    have := hbase.1
    rw [hnil, List.length_nil, (GoSort.stable_perm _ _).length_eq, hw, List.length_map] at this
    exact hne (List.length_eq_zero_iff.mp this.symm)

end

theorem fresh_all {S D : Type} [GoFloat S] [GoFloat D] [GoConv S D] [GoLibm D] {fuel : Nat} {ls : List (List Str)} {os : List (Option (Obj S D))}
    (h : ls.mapM (createObject fuel) = .ok os) : ∀ o ∈ os.reduceOption, ∀ s, o.kind = .slider s → s.scorePoints = [] := by
  induction ls generalizing os with
  | nil => cases h; intro o ho; cases ho
  | cons l ls ih =>
    rw [List.mapM_cons] at h
    obtain ⟨o, ho, h⟩ := bind_ok h
    obtain ⟨os', hos, h⟩ := bind_ok h
    cases h
    intro o' ho' s hk
    cases o with
    | none => exact ih hos o' ho' s hk
    | some o =>
      rcases List.mem_cons.mp ho' with rfl | ho'
      · obtain ⟨-, -, -, h⟩ := createObject_newT ho s hk
        exact h
      · exact ih hos o' ho' s hk

theorem setTimings_ok {S D : Type} [GoFloat S] [GoFloat D] [GoConv S D] [GoSort] {fuel : Nat} {t : Timings D} {l : List (Obj S D)}
    (h : ∀ o ∈ l, ∃ o', o.setTiming fuel t = .ok o') : ∃ l', setTimings fuel t l = .ok l' := by
  induction l with
  | nil => exact ⟨_, rfl⟩
  | cons o l ih =>
    obtain ⟨o', ho⟩ := h o (by simp)
    obtain ⟨l', hl⟩ := ih (fun x hx => h x (by simp [hx]))
    rw [setTimings, ho, ok_bind, hl]
    exact ⟨_, rfl⟩

theorem path_written {h : Head} {c : Char} {ps : List (Dec × Dec)} {r : Int} {len : Dec} (hc : c ∈ ['L', 'P', 'B', 'C']) :
    Spec.path (ObjectLine.slider h c ps r len).fields = [c] :: ps.map (fun p => p.1.show ++ ':' :: p.2.show) := by
  show split '|' (join '|' ([c] :: ps.map (fun p => p.1.show ++ ':' :: p.2.show))) = _
  apply split_join _ (by simp)
  have hn : ∀ d : Dec, '|' ∉ d.show := fun d hc => (numChar_props (show_chars d _ hc)).2.2.2.2.2.2.2.1 rfl
  intro p hp
  rcases List.mem_cons.mp hp with rfl | hp
  · intro hx
    simp only [List.mem_singleton] at hx
    subst hx
    exact absurd hc (by decide)
  · obtain ⟨q, -, rfl⟩ := List.mem_map.mp hp
    intro hx
    rcases List.mem_append.mp hx with hx | hx
    · exact hn _ hx
    · rcases List.mem_cons.mp hx with hx | hx
      · exact absurd hx (by decide)
      · exact hn _ hx

end GosuPP
