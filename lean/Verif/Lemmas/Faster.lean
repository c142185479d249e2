import Verif.Lemmas.Enlarged
import Verif.Spec.Faster

/-!
# Playing faster adds no less to the strains
-/

namespace GosuPP.Exactly
open Go Spec

/-! ### Strains over a shorter time -/

theorem strainAt_faster {b : ℝ} (hb : 0 < b) (hb1 : b ≤ 1) {τ τ' v v' : ℕ → ℝ} {k : ℕ} (h0 : ∀ n, 0 ≤ v n)
    (hv : ∀ n, 1 ≤ n → n ≤ k → v n ≤ v' n) (hτ : ∀ i j, i ≤ j → τ' j - τ' i ≤ τ j - τ i) {n : ℕ} (hn : n ≤ k) :
    strainAt b τ v n ≤ strainAt b τ' v' n := by
  unfold strainAt
  refine Finset.sum_le_sum fun j hj => ?_
  obtain ⟨j1, j2⟩ := Finset.mem_Icc.mp hj
  have h := hv j j1 (j2.trans hn)
  refine mul_le_mul h ?_ (Real.rpow_nonneg hb.le _) ((h0 j).trans h)
  exact Real.rpow_le_rpow_of_exponent_ge hb hb1 (div_le_div_of_nonneg_right (hτ j n j2) (by norm_num))

/-- For each peak of a map there is one at least as high if it is played faster. -/
theorem peaks_faster {b : ℝ} (hb : 0 < b) (hb1 : b ≤ 1) {τ τ' v v' : ℕ → ℝ} {k : ℕ} (h0 : ∀ n, 0 ≤ v n)
    (hv : ∀ n, 1 ≤ n → n ≤ k → v n ≤ v' n) (hτ : ∀ i j, i ≤ j → τ' j - τ' i ≤ τ j - τ i)
    (hm' : ∀ i j, 1 ≤ i → i ≤ j → τ' i ≤ τ' j)
    {l l' : List (Option ℝ)} (h : PeakList b τ v (fun _ => 1) k l) (h' : PeakList b τ' v' (fun _ => 1) k l') :
    ∀ p ∈ l, ∃ q ∈ l', NoMore p q := by
  have hit : ∀ n, 1 ≤ n → n ≤ k → ∃ y, some y ∈ l' ∧ strainAt b τ v n ≤ y := by
    intro n n1 nk
    have s1 : section400 (τ' 1) ≤ section400 (τ' n) := section_mono (hm' 1 n le_rfl n1)
    have s2 : section400 (τ' n) ≤ section400 (τ' k) := section_mono (hm' n k n1 nk)
    obtain ⟨i, hi⟩ := Int.eq_ofNat_of_zero_le (sub_nonneg.mpr s1)
    have hl := h'.length
    have il : i < l'.length := by omega
    obtain ⟨y, hy, hg⟩ := h'.peak i _ (List.getElem?_eq_getElem il)
    refine ⟨y, hy ▸ List.getElem_mem il, ?_⟩
    refine (strainAt_faster hb hb1 h0 hv hτ nk).trans ?_
    have : strainAt b τ' v' n * (fun _ => (1 : ℝ)) n ≤ y := hg.2 (.inl ⟨n, n1, nk, by omega, rfl⟩)
    simpa using this
  intro p hp
  obtain ⟨i, hi, rfl⟩ := List.getElem_of_mem hp
  obtain ⟨y, hy, hg⟩ := h.peak i _ (List.getElem?_eq_getElem hi)
  have fin : ∀ n, 1 ≤ n → n ≤ k → 0 ≤ y → y ≤ strainAt b τ v n → ∃ q ∈ l', NoMore l[i] q := by
    intro n n1 nk y0 hyn
    obtain ⟨z, hz, hzn⟩ := hit n n1 nk
    exact ⟨_, hz, .inr ⟨y, z, hy, rfl, y0, hyn.trans hzn⟩⟩
  rcases hg.1 with ⟨n, n1, nk, -, e⟩ | ⟨n, hlast, e⟩
  · have s0 := strainAt_nonneg (τ := τ) hb h0 n
    simp only [mul_one] at e
    exact fin n n1 nk (e ▸ s0) e.le
  · have s0 := strainAt_nonneg (τ := τ) hb h0 n
    have hs : τ n ≤ 400 * (((section400 (τ 1) + i : ℤ) : ℝ) - 1) := by
      have h1 : section400 (τ n) ≤ section400 (τ 1) + i - 1 := by have := hlast.before; omega
      have h2 := Int.ceil_le.mp h1
      push_cast at h2 ⊢
      linarith
    have e1 : b ^ ((400 * (((section400 (τ 1) + i : ℤ) : ℝ) - 1) - τ n) / 1000) ≤ 1 :=
      Real.rpow_le_one hb.le hb1 (div_nonneg (by linarith) (by norm_num))
    have e0 := Real.rpow_nonneg hb.le ((400 * (((section400 (τ 1) + i : ℤ) : ℝ) - 1) - τ n) / 1000)
    simp only [mul_one] at e
    refine fin n hlast.pos hlast.le ?_ ?_
    · rw [e]; exact mul_nonneg s0 e0
    · rw [e]; exact mul_le_of_le_one_right s0 e1

/-! ### What a note adds -/

section
variable {c r r' : ℝ} {x : ℕ → Note}

theorem gap_faster (hx : Playable x) (hr : 0 < r) (hrr : r ≤ r') (n : ℕ) : gap r' x n ≤ gap r x n := by
  unfold gap
  refine max_le_max_right _ ?_
  rw [← sub_div, ← sub_div]
  exact div_le_div_of_nonneg_left (sub_nonneg.mpr (hx.sorted _ _ (Nat.sub_le _ _))) hr hrr

theorem gap_scaled (hr : 0 < r) (hrr : r ≤ r') {n : ℕ} (h : Unhurried r' x n) : gap r x n = r' / r * gap r' x n := by
  have hr' : 0 < r' := by linarith
  have e : (x n).time / r - (x (n - 1)).time / r = r' / r * ((x n).time / r' - (x (n - 1)).time / r') := by
    field_simp
  have q : 1 ≤ r' / r := by rwa [one_le_div hr]
  unfold Unhurried at h
  unfold gap
  rw [max_eq_left h, max_eq_left, e]
  rw [e]
  nlinarith

theorem slideTime_faster (hr : 0 < r) (hrr : r ≤ r') (s : Slide) : slideTime r' s ≤ slideTime r s := by
  unfold slideTime
  by_cases h : 0 ≤ s.duration
  · exact max_le_max_right _ (div_le_div_of_nonneg_left h hr hrr)
  · have h1 : s.duration / r' ≤ 0 := div_nonpos_of_nonpos_of_nonneg (by linarith) (by linarith)
    exact max_le (h1.trans (le_trans (by norm_num) (le_max_right _ _))) (le_max_right _ _)

/-- The time after a slider gets shorter, too. -/
theorem rest_faster (hx : Playable x) (hr : 0 < r) (hrr : r ≤ r') {n : ℕ} (h : Unhurried r' x n) (s : Slide) :
    max (gap r' x n - slideTime r' s) 25 ≤ max (gap r x n - slideTime r s) 25 := by
  have hr' : 0 < r' := by linarith
  have q : 1 ≤ r' / r := by rwa [one_le_div hr]
  rw [gap_scaled hr hrr h]
  have g := gap_ge (r := r') (x := x) n
  generalize gap r' x n = g' at g ⊢
  have e : s.duration / r = r' / r * (s.duration / r') := by field_simp
  unfold slideTime
  rw [e]
  generalize r' / r = a at q ⊢
  generalize s.duration / r' = t
  refine max_le ?_ (le_max_right _ _)
  rcases le_total t 25 with ht | ht
  · rw [max_eq_right ht]
    rcases le_total (a * t) 25 with h1 | h1
    · rw [max_eq_right h1]
      exact le_max_of_le_left (by nlinarith)
    · rw [max_eq_left h1]
      exact le_max_of_le_left (by nlinarith)
  · rw [max_eq_left ht, max_eq_left (show 25 ≤ a * t by nlinarith)]
    rcases le_total t g' with h1 | h1
    · exact le_max_of_le_left (by nlinarith)
    · exact le_max_of_le_right (by linarith)

theorem velocity_faster (hc0 : 0 < c) (hx : Playable x) (hr : 0 < r) (hrr : r ≤ r') (b : Bool) {n : ℕ} (h : Unhurried r' x n) :
    velocity c r x b n ≤ velocity c r' x b n := by
  have hg := gap_faster hx hr hrr n
  have hg0 := gap_ge (r := r') (x := x) n
  have h1 : jump c x n / gap r x n ≤ jump c x n / gap r' x n :=
    div_le_div_of_nonneg_left (jump_nonneg hc0 n) (by linarith) hg
  unfold velocity
  split
  · rename_i s hs
    split
    · refine max_le_max h1 (add_le_add ?_ ?_)
      · exact div_le_div_of_nonneg_left (le_max_left _ _) (lt_of_lt_of_le (by norm_num) (le_max_right _ _)) (rest_faster hx hr hrr h s)
      · have hl : 0 ≤ s.length := by
          unfold slideTo at hs
          split at hs
          · exact hx.length _ _ hs
          · cases hs
        exact div_le_div_of_nonneg_left hl (by linarith [slideTime_ge (r := r') s]) (slideTime_faster hr hrr s)
    · exact h1
  · exact h1

theorem slideBonus_faster (hx : Playable x) (hr : 0 < r) (hrr : r ≤ r') (n : ℕ) : slideBonus r x n ≤ slideBonus r' x n := by
  unfold slideBonus
  split
  · rename_i s hs
    have hl : 0 ≤ s.length := by
      unfold slideTo at hs
      split at hs
      · exact hx.length _ _ hs
      · cases hs
    exact div_le_div_of_nonneg_left hl (by linarith [slideTime_ge (r := r') s]) (slideTime_faster hr hrr s)
  · exact le_rfl

theorem sharpAfter_faster {θ θ' T T' J v v' : ℝ} (hT : 0 < T') (hTT : T' ≤ T) (hv : 0 ≤ v) (hvv : v ≤ v') :
    0 ≤ sharpAfter θ θ' T J v ∧ sharpAfter θ θ' T J v ≤ sharpAfter θ θ' T' J v' := by
  have w1 := wideness_range θ
  have w2 := wideness_range θ'
  have nn := (sharpAfter_le (θ := θ) (θ' := θ') (J := J) (T := T) (by linarith) hv le_rfl le_rfl).1
  refine ⟨nn, ?_⟩
  have nn' := (sharpAfter_le (θ := θ) (θ' := θ') (J := J) (T := T') hT (hv.trans hvv) le_rfl le_rfl).1
  unfold sharpAfter at nn' ⊢
  by_cases h : 100 < T
  · rw [if_pos h]
    exact nn'
  · rw [if_neg h, if_neg (by linarith)]
    have hq : 125 / T ≤ 125 / T' := div_le_div_of_nonneg_left (by norm_num) hT hTT
    have hq0 : 0 ≤ 125 / T := div_nonneg (by norm_num) (by linarith)
    refine mul_le_mul_of_nonneg_left ?_ (by linarith)
    refine mul_le_mul_of_nonneg_right ?_ (sq_nonneg _)
    refine mul_le_mul (mul_le_mul_of_nonneg_left (min_le_min hvv hq) (by linarith)) ?_ (sq_nonneg _)
      (mul_nonneg (by linarith) (le_min (hv.trans hvv) (hq0.trans hq)))
    refine sin_sq_le (le_min zero_le_one (div_nonneg (by linarith) (by norm_num))) ?_ (min_le_left _ _)
    exact min_le_min_left _ (div_le_div_of_nonneg_right (by linarith) (by norm_num))

theorem level_faster (hr : 0 < r) (hrr : r ≤ r') {n : ℕ} (h : Unhurried r' x n) (h1 : Unhurried r' x (n - 1)) : Level r' x n ↔ Level r x n := by
  have q0 : 0 < r' / r := div_pos (by linarith) hr
  unfold Level
  rw [gap_scaled hr hrr h, gap_scaled hr hrr h1, ← mul_max_of_nonneg _ _ q0.le, ← mul_min_of_nonneg _ _ q0.le,
    show ∀ a b : ℝ, 1.25 * (a * b) = a * (1.25 * b) from fun a b => by ring, mul_lt_mul_iff_right₀ q0]

theorem turns_faster (hc0 : 0 < c) (hx : Playable x) (hr : 0 < r) (hrr : r ≤ r') (b : Bool) {n : ℕ} (h : Unhurried r' x n)
    (h1 : Unhurried r' x (n - 1)) :
    (turnsAt c r x b n).1 ≤ (turnsAt c r' x b n).1 ∧ (turnsAt c r x b n).2 ≤ (turnsAt c r' x b n).2 := by
  have hv : 0 ≤ min (velocity c r x b n) (velocity c r x b (n - 1)) :=
    le_min (velocity_nonneg hc0 _ n) (velocity_nonneg hc0 _ _)
  have hvv : min (velocity c r x b n) (velocity c r x b (n - 1)) ≤ min (velocity c r' x b n) (velocity c r' x b (n - 1)) :=
    min_le_min (velocity_faster hc0 hx hr hrr b h) (velocity_faster hc0 hx hr hrr b h1)
  have hlev := level_faster hr hrr h h1
  have hg := gap_ge (r := r') (x := x) n
  have hgg := gap_faster hx hr hrr n
  unfold turnsAt
  generalize min (velocity c r x b n) (velocity c r x b (n - 1)) = v at hv hvv ⊢
  generalize min (velocity c r' x b n) (velocity c r' x b (n - 1)) = v' at hvv ⊢
  split
  · rename_i θ θ' θ'' _ _ _
    have w1 := wideness_range θ
    by_cases hl : Level r x n
    · rw [if_pos hl, if_pos (hlev.mpr hl)]
      refine ⟨?_, ?_⟩
      · dsimp only
        unfold wideAfter
        have : min (wideness θ) (wideness θ' ^ 3) ≤ 1 := (min_le_left _ _).trans w1.2
        exact mul_le_mul_of_nonneg_left (mul_le_mul_of_nonneg_right hvv (by linarith)) w1.1
      · dsimp only
        obtain ⟨s0, s1⟩ := sharpAfter_faster (θ := θ) (θ' := θ') (J := jump c x n) (by linarith) hgg hv hvv
        exact sharpRepeated_le s0 s1
    · rw [if_neg hl, if_neg (mt hlev.mp hl)]
      exact ⟨le_rfl, le_rfl⟩
  · exact ⟨le_rfl, le_rfl⟩

theorem change_faster (hc0 : 0 < c) (hx : Playable x) (hr : 0 < r) (hrr : r ≤ r') (b : Bool) {n : ℕ} (h : Unhurried r' x n)
    (h1 : Unhurried r' x (n - 1)) : changeAt c r x b n ≤ changeAt c r' x b n := by
  have hq : 1 ≤ r' / r := by rwa [one_le_div hr]
  have q0 : 0 < r' / r := by linarith
  by_cases hz : velocity c r x b (n - 1) = 0 ∧ velocity c r x b n = 0
  · have : changeAt c r x b n = 0 := by unfold changeAt; rw [if_pos hz]
    rw [this]
    exact change_nonneg b n
  have hz' : ¬ (velocity c r' x b (n - 1) = 0 ∧ velocity c r' x b n = 0) := by
    rintro ⟨e1, e2⟩
    have a1 := velocity_faster hc0 hx hr hrr b h
    have a2 := velocity_faster hc0 hx hr hrr b h1
    exact hz ⟨le_antisymm (a2.trans e1.le) (velocity_nonneg hc0 b _), le_antisymm (a1.trans e2.le) (velocity_nonneg hc0 b _)⟩
  have ep : ∀ m, Unhurried r' x m → pace c r' x m = r' / r * pace c r x m := by
    intro m hm
    unfold pace
    rw [gap_scaled hr hrr hm]
    have := (lt_of_lt_of_le (by norm_num : (0:ℝ) < 25) (gap_ge (r := r') (x := x) m)).ne'
    have : r' ≠ 0 := by linarith
    field_simp
  unfold changeAt
  rw [if_neg hz, if_neg hz']
  simp only [ep n h, ep (n - 1) h1, gap_scaled hr hrr h, gap_scaled hr hrr h1]
  have g1 := gap_ge (r := r') (x := x) n
  have g2 := gap_ge (r := r') (x := x) (n - 1)
  generalize gap r' x n = g at g1 ⊢
  generalize gap r' x (n - 1) = g' at g2 ⊢
  generalize r' / r = q at hq q0 ⊢
  have e1 : |q * pace c r x (n - 1) - q * pace c r x n| = q * |pace c r x (n - 1) - pace c r x n| := by
    rw [← mul_sub, abs_mul, abs_of_pos q0]
  rw [e1, ← mul_max_of_nonneg _ _ q0.le, ← mul_max_of_nonneg _ _ q0.le, ← mul_min_of_nonneg _ _ q0.le]
  have hd := abs_nonneg (pace c r x (n - 1) - pace c r x n)
  generalize |pace c r x (n - 1) - pace c r x n| = Δ at hd ⊢
  generalize max (pace c r x (n - 1)) (pace c r x n) = p
  have hT : 25 ≤ min g g' := le_min g1 g2
  generalize min g g' = T at hT ⊢
  rw [show goPi / 2 * (q * Δ) = q * (goPi / 2 * Δ) by ring, mul_div_mul_left _ _ q0.ne', mul_div_mul_left _ _ q0.ne']
  refine mul_le_mul_of_nonneg_right (mul_le_mul_of_nonneg_right ?_ (sq_nonneg _)) (sq_nonneg _)
  have hΔ : Δ ≤ q * Δ := le_mul_of_one_le_left hd hq
  refine max_le_max (min_le_min ?_ hΔ) (mul_le_mul_of_nonneg_right hΔ (sq_nonneg _))
  exact div_le_div_of_nonneg_left (by norm_num) (by linarith) (by nlinarith)

/-- A note that is at least 25 ms after the one before adds no less to the aim strain if it is played faster. -/
theorem aimHit_faster (hc0 : 0 < c) (hx : Playable x) (hr : 0 < r) (hrr : r ≤ r') (b : Bool) {n : ℕ} (h : Unhurried r' x n)
    (h1 : Unhurried r' x (n - 1)) : aimHit c r x b n ≤ aimHit c r' x b n := by
  unfold aimHit
  split
  · obtain ⟨t1, t2⟩ := turns_faster hc0 hx hr hrr b h h1
    have t3 := change_faster hc0 hx hr hrr b h h1
    have t4 := velocity_faster hc0 hx hr hrr b h
    have t5 := slideBonus_faster hx hr hrr n
    have : max (2 * (turnsAt c r x b n).2) (1.5 * (turnsAt c r x b n).1 + 0.75 * changeAt c r x b n) ≤
        max (2 * (turnsAt c r' x b n).2) (1.5 * (turnsAt c r' x b n).1 + 0.75 * changeAt c r' x b n) :=
      max_le_max (by linarith) (by linarith)
    refine add_le_add (add_le_add t4 this) ?_
    split
    · linarith
    · exact le_rfl
  · exact le_rfl

/-- Played faster, a note adds no less to the flashlight strain. -/
theorem flashHit_faster (hc0 : 0 < c) (hx : Playable x) (hr : 0 < r) (hrr : r ≤ r') (n : ℕ) : flashHit c r x n ≤ flashHit c r' x n := by
  unfold flashHit
  split
  · exact le_rfl
  · have s0 : 0 ≤ inSight x n := by
      unfold inSight
      split
      · positivity
      · norm_num
    have r0 : ∀ j, 0 ≤ recall c r x n j := fun j => by
      unfold recall
      have := jump_nonneg (x := x) hc0 j
      have := remembered_nonneg (r := r) (x := x) n j
      positivity
    refine pow_le_pow_left₀ (mul_nonneg s0 (Finset.sum_nonneg fun j _ => ?_)) ?_ 2
    · split
      · exact le_rfl
      · exact r0 j
    · refine mul_le_mul_of_nonneg_left (Finset.sum_le_sum fun j hj => ?_) s0
      by_cases hsp : (x j).spinner = true
      · rw [if_pos hsp, if_pos hsp]
      · rw [if_neg hsp, if_neg hsp]
        unfold recall
        have hj0 := jump_nonneg (x := x) hc0 j
        have hle : rememberedFor r' x n j ≤ rememberedFor r x n j := by
          unfold rememberedFor
          refine Finset.sum_le_sum fun m _ => ?_
          split
          · exact le_rfl
          · exact gap_faster hx hr hrr m
        have hpos : 0 < rememberedFor r' x n j := by
          unfold rememberedFor
          refine lt_of_lt_of_le (by norm_num : (0 : ℝ) < 25) ?_
          refine le_trans ?_ (Finset.single_le_sum (f := fun m => if (x m).spinner then 0 else gap r' x m) (fun m _ => ?_)
            (Finset.mem_Icc.mpr ⟨le_rfl, (Finset.mem_Icc.mp hj).2⟩))
          · rw [if_neg hsp]
            exact gap_ge j
          · split
            · exact le_rfl
            · linarith [gap_ge (r := r') (x := x) m]
        exact div_le_div_of_nonneg_left (by positivity) hpos hle

end
end GosuPP.Exactly
