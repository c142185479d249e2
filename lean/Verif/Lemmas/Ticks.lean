import Verif.Lemmas.SliderIEEE
import Verif.Lemmas.SectionsIEEE

/-! The tick loop in IEEE arithmetic. -/

namespace GosuPP
open Go Fl

/-- The sum of finite numbers that is not too large. -/
theorem add_fin {v w : ℚ} {a b : Bool} (h : |v + w| ≤ pow2 200) :
    ∃ c, (fin v a : F64) +. fin w b = fin (rnd fmt64 (v + w)) c := by
  have h1 : |rnd fmt64 (v + w)| ≤ pow2 200 := by
    have hr : Rep fmt64 (pow2 200) := Go.rep_pow2 (by decide)
    rw [abs_le] at h ⊢
    exact ⟨le_rnd hr.neg h.1, rnd_le hr h.2⟩
  have h2 : ¬ pow2 fmt64.emax ≤ |rnd fmt64 (v + w)| := not_le.mpr (small_lt h1 (by decide))
  rw [go_add]
  unfold Fl.add ofRat
  simp only
  rw [if_neg h2]
  exact ⟨_, rfl⟩

/-- One more tick distance: the error grows by at most `2 ^ -52` of the distance so far. -/
theorem tick_step {T x : ℚ} {j : ℕ} (hj : 1 ≤ j) (hj2 : j ≤ 2 ^ 27) (hT : pow2 (-900) ≤ T)
    (hx : |x - j * T| ≤ j * j * T * pow2 (-52)) :
    |rnd fmt64 (x + T) - (j + 1 : ℕ) * T| ≤ (j + 1 : ℕ) * (j + 1 : ℕ) * T * pow2 (-52) := by
  have hT0 : 0 < T := _root_.lt_of_lt_of_le (pow2_pos _) hT
  have e52 : pow2 (-52) = 1 / 2 ^ 52 := by rw [pow2_eq, zpow_neg]; norm_num
  have e53 : pow2 (-(fmt64.p : Int)) = 1 / 2 ^ 53 := by
    show pow2 (-53) = _
    rw [pow2_eq, zpow_neg]; norm_num
  have ht : pow2 (fmt64.emin - 1) ≤ T * (1 / 2 ^ 60) := by
    have h1 : pow2 (-960) ≤ T * (1 / 2 ^ 60) := by
      have : pow2 (-960) = pow2 (-900) * (1 / 2 ^ 60) := by
        rw [show (-960 : ℤ) = -900 + -60 by norm_num, pow2_add]
        congr 1
      rw [this]
      exact mul_le_mul_of_nonneg_right hT (by norm_num)
    exact _root_.le_trans (pow2_mono (by decide)) h1
  have hr := rnd_error_rel (f := fmt64) (x + T)
  rw [e53] at hr
  rw [e52] at hx ⊢
  have hjq : (1 : ℚ) ≤ j := by exact_mod_cast hj
  have hjq2 : (j : ℚ) ≤ 2 ^ 27 := by exact_mod_cast hj2
  have hb : (j : ℚ) * j * T ≤ 2 ^ 27 * (j * T) := by
    rw [mul_assoc]
    exact mul_le_mul_of_nonneg_right hjq2 (by positivity)
  have hxa := abs_le.mp hx
  have hjT : 0 < (j : ℚ) * T := by positivity
  have hxp : 0 ≤ x + T := by nlinarith
  rw [abs_of_nonneg hxp] at hr
  push_cast
  have hra := abs_le.mp hr
  have key : (x + T) * (1 / 2 ^ 53) + pow2 (fmt64.emin - 1) ≤ (2 * j + 1) * T * (1 / 2 ^ 52) := by
    nlinarith
  rw [abs_le]
  constructor <;> nlinarith

namespace Slider

/-- The tick loop ends when the path is at most `2 ^ 26` tick distances long. -/
theorem tickLoop_ends {T C : ℚ} {bT bC : Bool} {m sst sd : F64} {rev nan : Bool} (hT : pow2 (-900) ≤ T) (hT2 : T ≤ 2 ^ 64)
    (hC : C ≤ 2 ^ 26 * T) (hC2 : C ≤ 2 ^ 64) (k : ℕ) :
    ∀ (fuel j : ℕ) (x : ℚ) (b : Bool), 1 ≤ j → j + k = 2 ^ 26 + 4 → k < fuel →
      |x - j * T| ≤ j * j * T * pow2 (-52) →
      ∃ l, tickLoop (fin T bT : F64) (fin C bC) m sst sd rev nan fuel (fin x b) = .ok l ∧
        (∀ i < l.length, (j + i : ℕ) * T * (1 - 1 / 2 ^ 25) ≤ C) ∧
        (nan = false → ∀ e be, (fin C bC : F64) -. m = fin e be → min e C ≤ (j + l.length : ℕ) * T * (1 + 1 / 2 ^ 25)) ∧
        ∀ p ∈ l, ∃ y by', (fin y by' : F64) <=. fin C bC ∧ 0 ≤ y ∧
          p.time = sst +. (if rev then lit 1 -. (fin y by' : F64) /. fin C bC else (fin y by' : F64) /. fin C bC) *. sd := by
  have hT0 : 0 < T := _root_.lt_of_lt_of_le (pow2_pos _) hT
  have e52 : pow2 (-52) = 1 / 2 ^ 52 := by rw [pow2_eq, zpow_neg]; norm_num
  induction k with
  | zero =>
    intro fuel j x b hj hk hf hx
    obtain ⟨fuel, rfl⟩ : ∃ f, fuel = f + 1 := ⟨fuel - 1, by omega⟩
    have hj' : (j : ℚ) = 2 ^ 26 + 4 := by
      have : j = 2 ^ 26 + 4 := by omega
      rw [this]; push_cast; norm_num
    have hgt : C < x := by
      rw [e52, hj'] at hx
      have := (abs_le.mp hx).1
      nlinarith
    unfold tickLoop
    have hc : ¬ ((((fin x b : F64) <=. fin C bC) && !nan) = true) := by
      rw [Bool.and_eq_true, not_and]
      intro h
      have : x ≤ C := of_decide_eq_true h
      exact absurd this (not_le.mpr hgt)
    rw [if_neg hc]
    refine ⟨[], rfl, by simp, ?_, by simp⟩
    intro _ e be _
    refine (min_le_right _ _).trans ?_
    simp only [List.length_nil, Nat.add_zero, hj']
    nlinarith
  | succ k ih =>
    intro fuel j x b hj hk hf hx
    obtain ⟨fuel, rfl⟩ : ∃ f, fuel = f + 1 := ⟨fuel - 1, by omega⟩
    have hjq : (1 : ℚ) ≤ j := by exact_mod_cast hj
    have hjq2 : (j : ℚ) ≤ 2 ^ 26 + 4 := by
      have : j ≤ 2 ^ 26 + 4 := by omega
      exact_mod_cast this
    have hjT : 0 < (j : ℚ) * T := by positivity
    have hxa := abs_le.mp hx
    rw [e52] at hxa
    have hb : (j : ℚ) * j * T ≤ (2 ^ 26 + 4) * (j * T) := by
      rw [mul_assoc]
      exact mul_le_mul_of_nonneg_right hjq2 (by positivity)
    have hlo : j * T * (1 - 1 / 2 ^ 25) ≤ x := by nlinarith
    have hhi : x ≤ j * T * (1 + 1 / 2 ^ 25) := by nlinarith
    unfold tickLoop
    by_cases hc : (((fin x b : F64) <=. fin C bC) && !nan) = true
    · rw [if_pos hc]
      rw [Bool.and_eq_true] at hc
      have hxC : x ≤ C := of_decide_eq_true hc.1
      by_cases h2 : ((fin x b : F64) >=. (fin C bC : F64) -. m) = true
      · rw [if_pos h2]
        refine ⟨[], rfl, by simp, ?_, by simp⟩
        intro _ e be he
        rw [he] at h2
        have : e ≤ x := of_decide_eq_true h2
        simp only [List.length_nil, Nat.add_zero]
        exact (min_le_left _ _).trans (this.trans hhi)
      · rw [if_neg h2]
        have hx0 : 0 ≤ x := _root_.le_trans (by norm_num; positivity) hlo
        have hsum : |x + T| ≤ pow2 200 := by
          rw [abs_of_nonneg (by linarith)]
          have : x + T ≤ 2 ^ 65 := by
            have : (2 : ℚ) ^ 65 = 2 ^ 64 + 2 ^ 64 := by norm_num
            linarith
          refine this.trans ?_
          rw [show (2 : ℚ) ^ 65 = pow2 65 by rw [pow2_eq]; norm_num]
          exact pow2_mono (by decide)
        obtain ⟨c, hcadd⟩ := add_fin (a := b) (b := bT) hsum
        have hstep := tick_step hj (by omega) hT hx
        obtain ⟨l, h3, h4, h5, h6⟩ := ih fuel (j + 1) (rnd fmt64 (x + T)) c (by omega) (by omega) (by omega) hstep
        rw [← hcadd] at h3
        refine ⟨_, by simp only [h3, ok_bind]; rfl, ?_, ?_, ?_⟩
        · intro i hi
          cases i with
          | zero => exact hlo.trans hxC
          | succ i =>
            have := h4 i (by simpa using hi)
            rwa [show j + (i + 1) = j + 1 + i by omega]
        · intro hn e be he
          have := h5 hn e be he
          rw [List.length_cons]
          rwa [show j + (l.length + 1) = j + 1 + l.length by omega]
        · intro p hp
          rcases List.mem_cons.mp hp with rfl | hp
          · exact ⟨x, b, hc.1, hx0, rfl⟩
          · exact h6 p hp
    · rw [if_neg hc]
      refine ⟨[], rfl, by simp, ?_, by simp⟩
      intro hn e be he
      subst hn
      have hnc : ¬ x ≤ C := fun h => hc (by
        rw [Bool.and_eq_true]
        exact ⟨decide_eq_true h, rfl⟩)
      simp only [List.length_nil, Nat.add_zero]
      exact (min_le_right _ _).trans ((not_le.mp hnc).le.trans hhi)

/-- All spans end. -/
theorem spanLoop_ends {a : SpanArgs F64} {T C : ℚ} {bT bC : Bool} (hT : pow2 (-900) ≤ T) (hT2 : T ≤ 2 ^ 64)
    (hC : C ≤ 2 ^ 26 * T) (hC2 : C ≤ 2 ^ 64) (h1 : a.tickDistance = fin T bT) (h2 : a.cLength = fin C bC) (k : ℕ) {fuel : ℕ}
    (hf : 2 ^ 26 + 4 ≤ fuel) : ∃ l, spanLoop a fuel k 0 = .ok l ∧
      ∃ n : ℕ, l.length = k * (n + 1) ∧ n * T * (1 - 1 / 2 ^ 25) ≤ max C 0 ∧
        (k ≠ 0 → a.nanTimingPoint = false → ∀ e be, a.cLength -. a.minDistanceFromEnd = fin e be →
          min e C ≤ (n + 1 : ℕ) * T * (1 + 1 / 2 ^ 25)) := by
  have hstart : |T - (1 : ℕ) * T| ≤ (1 : ℕ) * (1 : ℕ) * T * pow2 (-52) := by
    have hT0 : 0 < T := _root_.lt_of_lt_of_le (pow2_pos _) hT
    have := pow2_pos (-52)
    rw [Nat.cast_one, one_mul, sub_self, abs_zero]
    positivity
  have each : ∀ i : ℤ, ∃ l, spanTicks a fuel i = .ok l ∧ ∃ n, l.length = n + 1 ∧ n * T * (1 - 1 / 2 ^ 25) ≤ max C 0 ∧
        (a.nanTimingPoint = false → ∀ e be, a.cLength -. a.minDistanceFromEnd = fin e be →
          min e C ≤ (n + 1 : ℕ) * T * (1 + 1 / 2 ^ 25)) := by
    intro i
    obtain ⟨l, h3, h4, h5, -⟩ := tickLoop_ends (bT := bT) (bC := bC) (m := a.minDistanceFromEnd)
      (sst := a.startTime +. ofInt i *. a.spanDuration) (sd := a.spanDuration) (rev := (i % 2 == 1))
      (nan := a.nanTimingPoint) hT hT2 hC hC2 (2 ^ 26 + 3) fuel 1 T bT le_rfl (by norm_num) (by omega) hstart
    rw [← h1, ← h2] at h3
    unfold spanTicks
    simp only [h3, ok_bind]
    refine ⟨_, rfl, l.length, by simp, ?_, ?_⟩
    · rcases Nat.eq_zero_or_pos l.length with h0 | h0
      · rw [h0]; simp
      · have := h4 (l.length - 1) (by omega)
        rw [show 1 + (l.length - 1) = l.length by omega] at this
        exact this.trans (le_max_left _ _)
    · rw [h2]
      intro hn e be he
      have := h5 hn e be he
      rwa [Nat.add_comm] at this
  choose f hf1 hf2 using each
  refine ⟨_, spanLoop_of_spans (f := f) (fun j _ _ => hf1 j), ?_⟩
  obtain ⟨n, hn1, hn2, hn3⟩ := hf2 0
  refine ⟨n, spans_length fun j _ _ => ?_, hn2, fun _ => hn3⟩
  rw [(spanTicks_length (hf1 0) (hf1 j)).1, hn1]

/-- A tick distance that is not positive makes the tick loop endless. -/
theorem tickLoop_down {td c m sst sd : F64} {rev : Bool} (htd : le td (fin 0 false) = true)
    (hc : lt (fin 0 false) c = true) (hm : le (sub c m) (fin 0 false) = false) (fuel : Nat) (d : F64) (hd : le d (fin 0 false) = true) :
    tickLoop td c m sst sd rev false fuel d = .error .hang := by
  induction fuel generalizing d with
  | zero => rfl
  | succ fuel ih =>
    unfold tickLoop
    have h1 : (d <=. c && !false) = true := by
      simp only [Bool.not_false, Bool.and_true]
      exact Fl.le_trans hd (Fl.le_of_lt hc)
    have h2 : ¬ ((d >=. c -. m) = true) := by
      intro h
      have : le (sub c m) (fin 0 false) = true := Fl.le_trans h hd
      rw [hm] at this
      cases this
    rw [if_pos h1, if_neg h2]
    have := ih (d +. td) (add_nonpos hd htd)
    simp only [this]
    rfl

theorem rnd_absorb {T : ℚ} (h0 : pow2 (-900) ≤ T) :
    rnd fmt64 (pow2 (ilog2 T + 55) + T) = pow2 (ilog2 T + 55) := by
  have hT : 0 < T := _root_.lt_of_lt_of_le (pow2_pos _) h0
  obtain ⟨l1, l2⟩ := ilog2_spec hT
  set L := ilog2 T with hL
  have hL0 : -900 ≤ L := by
    have := _root_.lt_of_le_of_lt h0 l2
    rw [pow2_lt] at this
    omega
  have hpos : 0 < pow2 (L + 55) + T := add_pos (pow2_pos _) hT
  have e2 : pow2 (L + 55 + 1) = pow2 (L + 55) + pow2 (L + 55) := by
    rw [pow2_add, show pow2 1 = 2 by rw [pow2_eq]; norm_num]; ring
  have hlog : ilog2 (pow2 (L + 55) + T) = L + 55 := by
    apply ilog2_unique
    · linarith
    · rw [e2]
      have := _root_.lt_of_lt_of_le l2 (pow2_mono (show L + 1 ≤ L + 55 by omega))
      linarith
  have hu : ulpExp fmt64 (pow2 (L + 55) + T) = L + 3 := by
    unfold ulpExp
    rw [hlog]
    show max (L + 55 + 1 - 53) (-1074) = _
    omega
  rw [rnd_pos hpos]
  unfold rndPos
  simp only [hu]
  have hq : (pow2 (L + 55) + T) / pow2 (L + 3) = 2 ^ 52 + T / pow2 (L + 3) := by
    rw [add_div]
    congr 1
    rw [div_eq_iff (pow2_ne _), show L + 55 = 52 + (L + 3) by ring, pow2_add]
    congr 1
  have hs : T / pow2 (L + 3) < 1 / 2 := by
    rw [div_lt_iff₀ (pow2_pos _)]
    have : pow2 (L + 1) ≤ 1 / 2 * pow2 (L + 3) := by
      rw [pow2_add L 1, pow2_add L 3, show pow2 1 = 2 by rw [pow2_eq]; norm_num, show pow2 3 = 8 by rw [pow2_eq]; norm_num]
      have := pow2_pos L
      linarith
    linarith
  have hs0 : 0 < T / pow2 (L + 3) := div_pos hT (pow2_pos _)
  have hr : roundEven (2 ^ 52 + T / pow2 (L + 3)) = 2 ^ 52 := by
    have hb := abs_le.mp (roundEven_bound (2 ^ 52 + T / pow2 (L + 3)))
    have h1 : ((2 ^ 52 - 1 : ℤ) : ℚ) < (roundEven (2 ^ 52 + T / pow2 (L + 3)) : ℚ) := by push_cast; linarith
    have h2 : (roundEven (2 ^ 52 + T / pow2 (L + 3)) : ℚ) < ((2 ^ 52 + 1 : ℤ) : ℚ) := by push_cast; linarith
    have h1' := Int.cast_lt.mp h1
    have h2' := Int.cast_lt.mp h2
    omega
  rw [hq, hr]
  rw [show L + 55 = 52 + (L + 3) by ring, pow2_add 52 (L + 3), show pow2 52 = 2 ^ 52 by rw [pow2_eq]; norm_num]
  push_cast
  rfl

/-- So does one that is much too small for the length of the path. -/
theorem tickLoop_stuck {T C : ℚ} {bT bC : Bool} {m sst sd : F64} {rev : Bool} (hT : pow2 (-900) ≤ T)
    (hC : 2 ^ 55 * T ≤ C) (hC2 : C ≤ pow2 128) (hm : le (sub (fin C bC) m) (fin (2 ^ 55 * T) false) = false) (fuel : Nat)
    (x : ℚ) (b : Bool) (h0 : 0 ≤ x) (hx : x ≤ pow2 (ilog2 T + 55)) :
    tickLoop (fin T bT : F64) (fin C bC) m sst sd rev false fuel (fin x b) = .error .hang := by
  have hT0 : 0 < T := _root_.lt_of_lt_of_le (pow2_pos _) hT
  have hB : pow2 (ilog2 T + 55) ≤ 2 ^ 55 * T := by
    rw [pow2_add, _root_.mul_comm, show pow2 55 = 2 ^ 55 by rw [pow2_eq]; norm_num]
    exact mul_le_mul_of_nonneg_left (ilog2_spec hT0).1 (by norm_num)
  induction fuel generalizing x b with
  | zero => rfl
  | succ fuel ih =>
    unfold tickLoop
    have h1 : (((fin x b : F64) <=. fin C bC) && !false) = true := by
      simp only [Bool.not_false, Bool.and_true]
      exact decide_eq_true (hx.trans (hB.trans hC))
    have h2 : ¬ (((fin x b : F64) >=. (fin C bC : F64) -. m) = true) := by
      intro h
      have : le (sub (fin C bC) m) (fin (2 ^ 55 * T) false) = true :=
        Fl.le_trans h (decide_eq_true (hx.trans hB))
      rw [hm] at this
      cases this
    rw [if_pos h1, if_neg h2]
    have hsum : |x + T| ≤ pow2 200 := by
      rw [abs_of_nonneg (by linarith)]
      have h3 : T ≤ 2 ^ 55 * T := by nlinarith
      have h4 : pow2 128 + pow2 128 ≤ pow2 200 := by
        have : pow2 128 + pow2 128 = pow2 129 := by
          rw [show (129 : ℤ) = 128 + 1 by norm_num, pow2_add, show pow2 1 = 2 by rw [pow2_eq]; norm_num]; ring
        rw [this]
        exact pow2_mono (by decide)
      linarith
    obtain ⟨c, hcadd⟩ := add_fin (a := b) (b := bT) hsum
    rw [hcadd]
    have hle : rnd fmt64 (x + T) ≤ pow2 (ilog2 T + 55) := by
      have := rnd_mono (f := fmt64) (add_le_add_left hx T)
      rwa [rnd_absorb hT] at this
    have := ih (rnd fmt64 (x + T)) c (rnd_nonneg (by linarith)) hle
    simp only [this]
    rfl

end Slider
end GosuPP
