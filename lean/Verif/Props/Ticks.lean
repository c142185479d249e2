import Verif.Lemmas.Ticks
import Verif.Props.Slider
import Verif.Props.Curves
import Verif.Lemmas.EndToEnd

/-!
# C81: when setting the timing of a slider ends, in IEEE arithmetic
-/

namespace GosuPP
open Go Fl Slider

section
variable [GoSort] [GoLibm F64]

/-- The distance between ticks: that of the timing point, at most the pixel length if the path has a length. -/
def Spec.tickStep (T P C : ℚ) : ℚ := if 0 < C then min T P else T

omit [GoSort] [GoLibm F64] in
theorem distance_fin {t : Timings F64} {tp : ControlPoint F64} {s : SliderData F32 F64} {T P C : ℚ} {bT bP bC : Bool}
    (hT : t.getTickDistance F32 tp = fin T bT) (hP : s.pixelLength = fin P bP) (hC : s.multiCurve.length = fin C bC) :
    ∃ b, distance t tp s = fin (Spec.tickStep T P C) b := by
  have h0 : (lit 0 : F32) = fin 0 false := ofRat_zero _
  unfold distance Spec.tickStep
  rw [hT, hP, hC, h0]
  have e1 : ((fin C bC : F32) >. fin 0 false) = decide (0 < C) := rfl
  have e2 : ((fin T bT : F64) >. fin P bP) = decide (P < T) := rfl
  rw [e1, e2]
  by_cases hc : 0 < C
  · rw [if_pos hc]
    by_cases hp : P < T
    · simp only [hc, hp, decide_true, Bool.and_self, if_true, min_eq_right hp.le]
      exact ⟨_, rfl⟩
    · simp only [hc, hp, decide_true, decide_false, Bool.and_false, min_eq_left (not_lt.mp hp)]
      exact ⟨_, rfl⟩
  · simp only [hc, decide_false, Bool.false_and, if_false]
    exact ⟨_, rfl⟩

/-- C81 (IEEE). `SetTiming` returns for a slider whose path is at most `2 ^ 26` tick distances long. It adds the same
number of ticks in each span, and one more point; the number of ticks is the exact one up to one part in `2 ^ 25`: all
ticks are on the path, and the next one would not be, or would be less than 10 ms of travel before its end. -/
theorem C81_returns {t : Timings F64} {tp : ControlPoint F64} {h : HitObject F32 F64} {s : SliderData F32 F64} {pf : Nat}
    {typ : Str} {points : List (Vec F32)} {len : F64} (hmc : MultiCurve.newT pf typ points len = .ok s.multiCurve)
    (htp : t.getPointAt h.startTime = .ok tp) {T P C : ℚ} {bT bP bC : Bool}
    (hT : t.getTickDistance F32 tp = fin T bT) (hP : s.pixelLength = fin P bP) (hC : s.multiCurve.length = fin C bC)
    (hT1 : pow2 (-900) ≤ T) (hT2 : T ≤ 2 ^ 64) (hP1 : 0 < C → pow2 (-900) ≤ P) (hC0 : 0 ≤ C) (hC1 : C ≤ 2 ^ 64)
    (hCT : C ≤ 2 ^ 26 * T) (hCP : 0 < C → C ≤ 2 ^ 26 * P) {fuel : Nat} (hf : 2 ^ 26 + 4 ≤ fuel) :
    ∃ o s', Obj.setTiming fuel t ⟨h, .slider s⟩ = .ok o ∧ o.kind = .slider s' ∧
      ∃ n : ℕ, s'.scorePoints.length = s.scorePoints.length + s.repeatCount.toNat * (n + 1) ∧
        n * Spec.tickStep T P C * (1 - 1 / 2 ^ 25) ≤ C ∧
        (1 ≤ s.repeatCount → GoFloat.isNaN tp.beatLength = false →
          ∀ e be, (fin C bC : F64) -. t.getVelocity F32 tp *. lit 0.01 = fin e be →
            min e C ≤ (n + 1 : ℕ) * Spec.tickStep T P C * (1 + 1 / 2 ^ 25)) := by
  obtain ⟨b, hd⟩ := distance_fin hT hP hC
  have hcl : (args t tp h s).cLength = fin C bC := by
    show up s.multiCurve.length = _
    have := length_wf hmc
    rw [hC] at this ⊢
    exact up_fin this
  have hs1 : pow2 (-900) ≤ Spec.tickStep T P C := by
    unfold Spec.tickStep
    split
    · rename_i hc; exact le_min hT1 (hP1 hc)
    · exact hT1
  have hs2 : Spec.tickStep T P C ≤ 2 ^ 64 := by
    unfold Spec.tickStep
    split
    · exact (min_le_left _ _).trans hT2
    · exact hT2
  have hs3 : C ≤ 2 ^ 26 * Spec.tickStep T P C := by
    unfold Spec.tickStep
    split
    · rename_i hc
      rcases min_choice T P with e | e <;> rw [e]
      · exact hCT
      · exact hCP hc
    · exact hCT
  obtain ⟨l, h1, n, h2, h3, h4⟩ := spanLoop_ends (a := args t tp h s) hs1 hs2 hs3 hC1 hd hcl s.repeatCount.toNat hf
  obtain ⟨pos, hpos⟩ : ∃ pos, sliderPositionAt { h with endTime := (args t tp h s).endTime }
        { s with tPoint := tp, spanDuration := (args t tp h s).spanDuration, scorePoints := s.scorePoints }
        (args t tp h s).endTime = .ok pos := by
    unfold sliderPositionAt
    split
    · exact ⟨_, rfl⟩
    · exact C32_total hmc _
  refine ⟨_, _, setTiming_iff.mpr ⟨tp, _, pos, htp, h1, hpos, rfl⟩, rfl, n, ?_, ?_, ?_⟩
  · show (GoSort.slice _ _).length = _
    rw [(GoSort.slice_perm _ _).length_eq, List.length_append, h2]
  · rwa [max_eq_left hC0] at h3
  · intro hR hn e be he
    refine h4 (by omega) hn e be ?_
    rw [hcl]
    exact he

/-- C81 (IEEE, any library functions). `SetTiming` does not return for a slider with at least one span, a path that is
longer than 10 ms of travel and a tick distance or pixel length that is not positive: whatever number of steps the tick
loop is given, they do not suffice. -/
theorem C81_hangs {t : Timings F64} {tp : ControlPoint F64} {h : HitObject F32 F64} {s : SliderData F32 F64} {pf : Nat}
    {typ : Str} {points : List (Vec F32)} {len : F64} (hmc : MultiCurve.newT pf typ points len = .ok s.multiCurve)
    (htp : t.getPointAt h.startTime = .ok tp) (hnn : GoFloat.isNaN tp.beatLength = false) (hR : 1 ≤ s.repeatCount)
    (hc : (s.multiCurve.length >. lit 0) = true)
    (hm : ((up s.multiCurve.length -. t.getVelocity F32 tp *. lit 0.01 : F64) <=. lit 0) = false)
    (hT : GoFloat.isNaN (t.getTickDistance F32 tp) = false)
    (h0 : (t.getTickDistance F32 tp <=. lit 0) = true ∨ (s.pixelLength <=. lit 0) = true) (fuel : Nat) :
    Obj.setTiming fuel t ⟨h, .slider s⟩ = .error .hang := by
  have e0 : (lit 0 : F64) = fin 0 false := ofRat_zero _
  rw [e0] at h0 hm
  have hdist : le (distance t tp s) (fin 0 false) = true := by
    unfold distance
    have hT' : NN (t.getTickDistance F32 tp) := (isNaN_false_iff _).mp hT
    by_cases hlt : (t.getTickDistance F32 tp >. s.pixelLength) = true
    · rw [if_pos (by rw [Bool.and_eq_true]; exact ⟨hc, hlt⟩)]
      rcases h0 with h | h
      · exact Fl.le_of_lt (Fl.lt_of_lt_of_le hlt h)
      · exact h
    · rw [if_neg (by rw [Bool.and_eq_true]; exact fun h => hlt h.2)]
      rcases h0 with h | h
      · exact h
      · rw [Bool.not_eq_true] at hlt
        exact Fl.le_trans (Fl.le_of_not_lt hT' (le_nn h).1 hlt) h
  have hspan : spanLoop (args t tp h s) fuel s.repeatCount.toNat 0 = .error .hang := by
    obtain ⟨k, hk⟩ : ∃ k, s.repeatCount.toNat = k + 1 := ⟨s.repeatCount.toNat - 1, by omega⟩
    rw [hk]
    unfold spanLoop spanTicks
    have hnan : (args t tp h s).nanTimingPoint = false := hnn
    rw [hnan]
    have := tickLoop_down (sst := (args t tp h s).startTime +. ofInt 0 *. (args t tp h s).spanDuration)
      (sd := (args t tp h s).spanDuration) (rev := ((0 : Int) % 2 == 1)) (c := (args t tp h s).cLength)
      (td := (args t tp h s).tickDistance) (m := (args t tp h s).minDistanceFromEnd) hdist
      (by rw [← e0]; exact up_pos (length_wf hmc) hc) hm fuel (args t tp h s).tickDistance hdist
    simp only
    rw [this]
    rfl
  exact setTiming_error htp hspan

/-- C81 (IEEE, any library functions). Nor does it for a path of more than `2 ^ 55` tick distances: the sum of tick
distances stops growing before it reaches the end of the path. -/
theorem C81_stuck {t : Timings F64} {tp : ControlPoint F64} {h : HitObject F32 F64} {s : SliderData F32 F64} {pf : Nat}
    {typ : Str} {points : List (Vec F32)} {len : F64} (hmc : MultiCurve.newT pf typ points len = .ok s.multiCurve)
    (htp : t.getPointAt h.startTime = .ok tp) (hnn : GoFloat.isNaN tp.beatLength = false) (hR : 1 ≤ s.repeatCount)
    {T P C : ℚ} {bT bP bC : Bool} (hT : t.getTickDistance F32 tp = fin T bT) (hP : s.pixelLength = fin P bP)
    (hC : s.multiCurve.length = fin C bC) (h0 : pow2 (-900) ≤ Spec.tickStep T P C) (hlen : 2 ^ 55 * Spec.tickStep T P C ≤ C)
    (hm : ((fin C bC : F64) -. t.getVelocity F32 tp *. lit 0.01 <=. fin (2 ^ 55 * Spec.tickStep T P C) false) = false)
    (fuel : Nat) : Obj.setTiming fuel t ⟨h, .slider s⟩ = .error .hang := by
  obtain ⟨b, hd⟩ := distance_fin hT hP hC
  have hw := length_wf hmc
  rw [hC] at hw
  have hcl : (args t tp h s).cLength = fin C bC := by
    show up s.multiCurve.length = _
    rw [hC]
    exact up_fin hw
  have hpos : 0 < Spec.tickStep T P C := _root_.lt_of_lt_of_le (pow2_pos _) h0
  have hspan : spanLoop (args t tp h s) fuel s.repeatCount.toNat 0 = .error .hang := by
    obtain ⟨k, hk⟩ : ∃ k, s.repeatCount.toNat = k + 1 := ⟨s.repeatCount.toNat - 1, by omega⟩
    rw [hk]
    unfold spanLoop spanTicks
    have hnan : (args t tp h s).nanTimingPoint = false := hnn
    have htd : (args t tp h s).tickDistance = fin (Spec.tickStep T P C) b := hd
    rw [hnan, hcl, htd]
    have := tickLoop_stuck (sst := (args t tp h s).startTime +. ofInt 0 *. (args t tp h s).spanDuration)
      (sd := (args t tp h s).spanDuration) (rev := ((0 : Int) % 2 == 1)) (bT := b) (bC := bC)
      (m := (args t tp h s).minDistanceFromEnd) h0 hlen ?_ hm fuel (Spec.tickStep T P C) b hpos.le ?_
    · simp only
      rw [this]
      rfl
    · have := hw.2.1
      exact ((le_abs_self C).trans_lt this).le
    · refine (ilog2_spec hpos).2.le.trans (pow2_mono (by omega))
  exact setTiming_error htp hspan

omit [GoSort] [GoLibm F64] in
/-- The ratio of a timing point. -/
theorem pointRatio_in (tp : ControlPoint F64) : In (1 / 16) 10 (tp.getRatio F32) := by
  obtain ⟨h1, h2⟩ := Props.C17_ratio_bounds tp
  obtain ⟨v, c, hv, h3, h4⟩ := fin_of_between (Fl.le_trans (show Fl.le (fin (1 / 16) false) _ = true by decide +kernel) h1)
    (Fl.le_trans h2 (show Fl.le _ (fin 10 false) = true by decide +kernel))
  exact ⟨v, c, hv, h3, h4⟩

omit [GoSort] [GoLibm F64] in
/-- The tick distance for ordinary multipliers and tick rates. -/
theorem tickDistance_in {t : Timings F64} (tp : ControlPoint F64) (hm : In (1 / 16) 1024 t.sliderMult)
    (hr : In (1 / 16) 1024 t.tickRate) : In (1 / 4096) (2 ^ 25) (t.getTickDistance F32 tp) := by
  have n100 : Nice (100 : ℚ) := by exact nice_nat 100 (by norm_num)
  have n4 : Nice (4 : ℚ) := by exact nice_nat 4 (by norm_num)
  have n256 : Nice (1 / 256 : ℚ) := by have := nice_neg_pow 8 (by norm_num); norm_num at this ⊢; exact this
  have n4096 : Nice (1 / 4096 : ℚ) := by have := nice_neg_pow 12 (by norm_num); norm_num at this ⊢; exact this
  have h1 : In 4 (2 ^ 17) ((lit 100 : F64) *. t.sliderMult) :=
    (in_lit n100 n100 le_rfl le_rfl : In 100 100 (lit 100 : F64)).mul hm (by norm_num) (by norm_num) n4
      (nice_pow 17 (by norm_num)) (by norm_num) (by norm_num)
  have h2 : In (1 / 256) (2 ^ 21) (((lit 100 : F64) *. t.sliderMult) /. t.tickRate) :=
    h1.div' hr (by norm_num) (by norm_num) n256 (nice_pow 21 (by norm_num)) (by norm_num) (by norm_num)
  exact h2.div' (pointRatio_in tp) (by norm_num) (by norm_num) n4096 (nice_pow 25 (by norm_num)) (by norm_num) (by norm_num)

/-- C81 (IEEE). With a slider multiplier and a tick rate between 1/16 and 1024, a path of up to 16384 px and, unless the
path has no length, a pixel length of at least 1/4096, `SetTiming` returns, whatever the timing points are. -/
theorem C81_ordinary {t : Timings F64} {tp : ControlPoint F64} {h : HitObject F32 F64} {s : SliderData F32 F64} {pf : Nat}
    {typ : Str} {points : List (Vec F32)} {len : F64} (hmc : MultiCurve.newT pf typ points len = .ok s.multiCurve)
    (htp : t.getPointAt h.startTime = .ok tp) (hm : Spec.Within (1 / 16) 1024 t.sliderMult)
    (hr : Spec.Within (1 / 16) 1024 t.tickRate)
    (hl : ((lit 0 : F32) <=. s.multiCurve.length) = true ∧ (s.multiCurve.length <=. (lit 16384 : F32)) = true)
    (hp : Spec.Within 0 (2 ^ 60) s.pixelLength)
    (hp' : (s.multiCurve.length >. lit 0) = true → ((lit (1 / 4096) : F64) <=. s.pixelLength) = true) {fuel : Nat}
    (hf : 2 ^ 26 + 4 ≤ fuel) : ∃ o, Obj.setTiming fuel t ⟨h, .slider s⟩ = .ok o := by
  have n16 : Nice (1 / 16 : ℚ) := by have := nice_neg_pow 4 (by norm_num); norm_num at this ⊢; exact this
  have n1024 : Nice (1024 : ℚ) := by exact nice_nat 1024 (by norm_num)
  have n4096 : Nice (1 / 4096 : ℚ) := by have := nice_neg_pow 12 (by norm_num); norm_num at this ⊢; exact this
  obtain ⟨T, bT, hT, T1, T2⟩ := tickDistance_in tp (in_of_within hm n16 n1024) (in_of_within hr n16 n1024)
  obtain ⟨P, bP, hP, P1, P2⟩ := in_of_within hp nice_zero (nice_pow 60 (by norm_num))
  have e0 : (lit 0 : F32) = fin 0 false := ofRat_zero _
  have e1 : (lit 16384 : F32) = fin 16384 false := by decide +kernel
  have e2 : (lit (1 / 4096) : F64) = fin (1 / 4096) false := by decide +kernel
  have small : pow2 (-900) ≤ (1 / 4096 : ℚ) := by
    rw [show (1 / 4096 : ℚ) = pow2 (-12) by rw [pow2_eq, zpow_neg]; norm_num]
    exact pow2_mono (by decide)
  rw [e0, e1] at hl
  rw [e0, e2] at hp'
  obtain ⟨C, bC, hC, C1, C2⟩ : ∃ C bC, s.multiCurve.length = fin C bC ∧ 0 ≤ C ∧ C ≤ 16384 := by
    cases hx : s.multiCurve.length with
    | nan => rw [hx] at hl; cases hl.1
    | inf b => rw [hx] at hl; cases b <;> simp_all [Fl.le, go_le]
    | fin v b =>
      rw [hx] at hl
      exact ⟨v, b, rfl, of_decide_eq_true hl.1, of_decide_eq_true hl.2⟩
  have hP4 : 0 < C → 1 / 4096 ≤ P := by
    intro h
    have := hp' (by rw [hC]; exact decide_eq_true h)
    rw [hP] at this
    exact of_decide_eq_true this
  obtain ⟨o, s', ho, -⟩ := C81_returns (h := h) hmc htp hT hP hC (small.trans T1) (T2.trans (by norm_num))
    (fun h => small.trans (hP4 h)) C1 (C2.trans (by norm_num)) (by linarith) (fun h => by have := hP4 h; linarith) hf
  exact ⟨o, ho⟩

/-- C81 (IEEE, any library functions). A negative slider multiplier hangs every slider with at least one span and a path
with a length, if the tick rate and the beat length are positive and none of the three is infinite. -/
theorem C81_negative {t : Timings F64} {tp : ControlPoint F64} {h : HitObject F32 F64} {s : SliderData F32 F64} {pf : Nat}
    {typ : Str} {points : List (Vec F32)} {len : F64} (hmc : MultiCurve.newT pf typ points len = .ok s.multiCurve)
    (htp : t.getPointAt h.startTime = .ok tp) (hnn : GoFloat.isNaN tp.beatLength = false) (hR : 1 ≤ s.repeatCount)
    (hc : (s.multiCurve.length >. lit 0) = true) {sm tr bl : ℚ} {b1 b2 b3 : Bool} (hsm : t.sliderMult = fin sm b1)
    (htr : t.tickRate = fin tr b2) (hbl : tp.getBeatLength F32 = fin bl b3) (h1 : sm < 0) (h2 : 0 < tr) (h3 : 0 < bl)
    (fuel : Nat) : Obj.setTiming fuel t ⟨h, .slider s⟩ = .error .hang := by
  have e0 : (lit 0 : F64) = fin 0 false := ofRat_zero _
  have e100 : (lit 100 : F64) = fin 100 false := by decide +kernel
  have e1000 : (lit 1000 : F64) = fin 1000 false := by decide +kernel
  -- products and quotients with positive numbers stay at most zero, or become NaN
  have mulNP : ∀ x y : F64, (x = nan ∨ le x (fin 0 false) = true) → NonNeg y →
      (mul x y = nan ∨ le (mul x y) (fin 0 false) = true) := by
    intro x y hx hy
    rcases hx with rfl | hx
    · left; cases y <;> rfl
    · cases x with
      | nan => cases hx
      | inf a =>
        have : a = true := by cases a <;> simp_all [le]
        subst this
        cases y with
        | nan => left; rfl
        | inf c => cases c <;> simp_all [NonNeg, le, mul]
        | fin w c =>
          have hw : 0 ≤ w := nonNeg_fin.mp hy
          by_cases w0 : w = 0
          · left; simp [mul, w0]
          · right
            have hs : signbit (fin w c : F64) = false := by simp [signbit, w0, hw]
            simp [mul, w0, hs, le]
      | fin v a =>
        have hv : v ≤ 0 := of_decide_eq_true hx
        cases y with
        | nan => left; rfl
        | inf c =>
          have : c = false := by cases c <;> simp_all [NonNeg, le]
          subst this
          by_cases v0 : v = 0
          · left; simp [mul, v0]
          · right
            have hs : signbit (fin v a : F64) = true := by
              simp [signbit, v0]; exact lt_of_le_of_ne hv v0
            simp [mul, v0, hs, le]
        | fin w c =>
          right
          exact ofRat_nonpos (mul_nonpos_of_nonpos_of_nonneg hv (nonNeg_fin.mp hy)) _
  have divNP : ∀ (x : F64) (w : ℚ) (c : Bool), le x (fin 0 false) = true → 0 < w → le (div x (fin w c)) (fin 0 false) = true := by
    intro x w c hx hw
    have h4 := div_le_div_right hx hw c
    refine Fl.le_trans h4 ?_
    obtain ⟨d, hd⟩ := zero_div_fin (f := fmt64) false c hw.ne'
    rw [hd]
    cases d <;> decide
  have hsd : le t.getScoringDistance (fin 0 false) = true := by
    unfold Timings.getScoringDistance
    rw [hsm, htr, e100]
    refine divNP _ _ _ ?_ h2
    exact ofRat_nonpos (by linarith) _
  obtain ⟨r, br, hr, r1, -⟩ := pointRatio_in tp
  have htd : le (t.getTickDistance F32 tp) (fin 0 false) = true := by
    unfold Timings.getTickDistance
    rw [hr]
    exact divNP _ _ _ hsd (by linarith)
  have hv : t.getVelocity F32 tp = nan ∨ le (t.getVelocity F32 tp) (fin 0 false) = true := by
    have hv1 := mulNP t.getScoringDistance t.tickRate (.inr hsd) (by rw [htr]; exact nonNeg_fin.mpr h2.le)
    unfold Timings.getVelocity
    simp only
    split
    · refine mulNP _ _ hv1 ?_
      rw [hbl, e1000]
      exact Fl.div_nonneg (nonNeg_fin.mpr (by norm_num)) h3 _
    · exact hv1
  refine C81_hangs hmc htp hnn hR hc ?_ ((isNaN_false_iff _).mpr (le_nn htd).1) (.inl (by rw [e0]; exact htd)) fuel
  have hm := mulNP _ (lit 0.01) hv (by decide +kernel)
  have hcp := up_pos (length_wf hmc) hc
  rw [e0] at hcp ⊢
  rw [Bool.eq_false_iff]
  intro hle
  rcases hm with hm | hm
  · rw [go_mul] at hle
    rw [hm] at hle
    cases hx : (up s.multiCurve.length : F64) <;> rw [hx] at hle <;> cases hle
  · have hw : WF (up s.multiCurve.length : F64) := cvt_wf
    generalize (up s.multiCurve.length : F64) = c at *
    generalize hmm : (t.getVelocity F32 tp *. lit 0.01 : F64) = m at *
    rw [go_mul] at hmm
    rw [hmm] at hm
    have hsub : le c (sub c m) = true := by
      have hn : NN (sub c m) := (le_nn hle).1
      cases c with
      | nan => cases hcp
      | inf a =>
        have : a = false := by cases a <;> simp_all [lt]
        subst this
        cases m with
        | nan => cases hm
        | inf b => cases b <;> simp_all [le, sub, add, neg]
        | fin v b => simp [sub, add, neg, le]
      | fin x a =>
        have hz : sub (fin x a : F64) (fin 0 false) = fin x a ∨ le (fin x a : F64) (sub (fin x a) (fin 0 false)) = true := by
          right
          show le _ (ofRat fmt64 (x + -0) _) = true
          rw [neg_zero, add_zero, ofRat_of_rep hw.1 hw.2.1]
          simp [le]
        have h5 := sub_mono (x := fin x a) (x' := fin x a) (Fl.le_refl (by simp)) hm (by exact sub_fin_nn (by simp) _ _) hn
        rcases hz with hz | hz
        · rwa [hz] at h5
        · exact Fl.le_trans hz h5
    have := Fl.lt_of_lt_of_le hcp (Fl.le_trans hsub hle)
    rw [Fl.lt_irrefl] at this
    cases this

end

/-! ## Concrete cases -/

namespace Sample

/-- A file with one slider. -/
def oneSlider (mult rate slider : String) : Str :=
  ("osu file format v14\n[Metadata]\nTitle:a\n[Difficulty]\nSliderMultiplier:" ++ mult ++ "\nSliderTickRate:" ++ rate ++
    "\n[TimingPoints]\n0,500,4,1,0,100,1,0\n[HitObjects]\n" ++ slider ++ "\n").toList

/-- An ordinary slider: one tick at 140 px of 200, and the end. -/
example : Sample.observe (oneSlider "1.4" "1" "64,64,1000,2,0,L|264:64,1,200") (fun m => m.hitObjects.map fun o =>
    match o.kind with
    | .slider s => (s.scorePoints.length, decide (m.timings.getTickDistance F32 s.tPoint = (fin 140 false : F64)),
        decide (s.pixelLength = fin 200 false), decide (s.multiCurve.length = fin 200 false))
    | _ => (0, false, false, false)) = some [(2, true, true, true)] := by decide +kernel

/-- Its multiplier and tick rate are ordinary. -/
example : Spec.Within (1 / 16) 1024 (lit 1.4 : F64) ∧ Spec.Within (1 / 16) 1024 (lit 1 : F64) ∧ Spec.Within 0 (2 ^ 60) (lit 200 : F64) := by
  unfold Spec.Within
  decide +kernel

/-- The same slider does not end with a negative multiplier (100 steps do not
suffice; nor do any, by the theorems). -/
example : (match Sample.parse (oneSlider "-1.4" "1" "64,64,1000,2,0,L|264:64,1,200") with
    | .error .hang => true | _ => false) = true := by decide +kernel

/-- A slider of pixel length 0 whose path keeps a length of 3 px: the length of the path was computed as `2 ^ 24` although
its four lines have the lengths `2 ^ 24`, 1, 1 and 1. The theorem applies to it. -/
def absorbed : Result (MultiCurve F32) :=
  @MultiCurve.newT F32 F64 _ _ _ libm 10 "L".toList
    [⟨lit 0, lit 0⟩, ⟨lit 16777216, lit 0⟩, ⟨lit 16777216, lit 1⟩, ⟨lit 16777216, lit 2⟩, ⟨lit 16777216, lit 3⟩] (lit 0)

example : (match absorbed with
    | .ok mc => decide (mc.length = fin 3 false) &&
        decide ((((up mc.length : F64) -. (lit 280 : F64) *. lit 0.01) <=. lit 0) = false)
    | _ => false) = true := by decide +kernel

example : (match Sample.parse (oneSlider "1.4" "1" "0,0,1000,2,0,L|16777216:0|16777216:1|16777216:2|16777216:3,1,0") with
    | .error .hang => true | _ => false) = true := by decide +kernel

/-- A tick rate of `1e20`: 200 px are more than `2 ^ 55` tick distances. -/
example : (match Sample.parse (oneSlider "1.4" "1e20" "64,64,1000,2,0,L|264:64,1,200") with
    | .error .hang => true | _ => false) = true := by decide +kernel

example : ∃ T : ℚ, (lit 100 *. lit 1.4 /. lit 1e20 /. lit 1 : F64) = fin T false ∧ pow2 (-900) ≤ Spec.tickStep T 200 200 ∧
    2 ^ 55 * Spec.tickStep T 200 200 ≤ 200 ∧
    ((fin 200 false : F64) -. lit 280 *. lit 0.01 <=. fin (2 ^ 55 * Spec.tickStep T 200 200) false) = false := by
  refine ⟨rnd fmt64 (14 / 10 * 100 / 10 ^ 20), ?_⟩
  and_intros <;> decide +kernel

end Sample

end GosuPP
