import Verif.Spec.Zero
import Verif.Lemmas.Rating

/-!
# When ratings are zero, in exact arithmetic
-/

namespace GosuPP.Exactly
open Go Spec
attribute [local instance] exactLibm

theorem weighted_zero {w : ℝ} {l : List ℝ} (h : ∀ x ∈ l, x = 0) : weighted w l = 0 := by
  induction l with
  | nil => rfl
  | cons y l ih => rw [weighted, h y (by simp), ih fun x hx => h x (by simp [hx])]; ring

theorem eased_zero {count i : ℕ} {l : List ℝ} (h : ∀ x ∈ l, x = 0) : ∀ x ∈ easedFrom count i l, x = 0 := by
  induction l generalizing i with
  | nil => intro x hx; simp [easedFrom] at hx
  | cons y l ih =>
    intro x hx
    rw [easedFrom, List.mem_cons] at hx
    rcases hx with rfl | hx
    · rw [h y (by simp), zero_mul]
    · exact ih (fun z hz => h z (by simp [hz])) x hx

theorem rating_zero {count : ℕ} {w m : ℝ} (hw : 0 ≤ w) (hm : 0 < m) {l : List ℝ} (h : ∀ x ∈ l, 0 ≤ x) :
    ratingOf (peakValue count w m l) = 0 ↔ ∀ x ∈ l, x = 0 := by
  constructor
  · intro h0 y hy
    have h1 := peakValue_ge (count := count) hw hm.le h hy
    have h2 := peakValue_nonneg (count := count) hw hm.le h
    have h3 : peakValue count w m l = 0 := by
      unfold ratingOf at h0
      have := mul_eq_zero.mp h0
      rcases this with h | h
      · norm_num at h
      · rwa [Real.sqrt_eq_zero h2] at h
    rw [h3] at h1
    have h4 := h y hy
    by_contra hne
    have : 0 < y := lt_of_le_of_ne h4 (Ne.symm hne)
    have : 0 < m * (0.75 * y) := by positivity
    linarith
  · intro h0
    have : peakValue count w m l = 0 := by
      unfold peakValue
      rw [weighted_zero, mul_zero]
      intro x hx
      exact eased_zero (fun z hz => h0 z (hardestFirst_mem.mp hz)) x (hardestFirst_mem.mp hx)
    rw [this]
    simp [ratingOf]

section
variable {b : ℝ} {τ v β : ℕ → ℝ} {k : ℕ} {l : List ℝ}

theorem hits_zero (hb : 0 < b) (hτ : ∀ i j, 1 ≤ i → i ≤ j → τ i ≤ τ j) (hv : ∀ n, 0 ≤ v n) (hβ : ∀ n, 0 ≤ β n)
    (h : PeakList b τ v β k (l.map some)) (h0 : ∀ x ∈ l, x = 0) {n : ℕ} (h1 : 1 ≤ n) (h2 : n ≤ k) : v n * β n = 0 := by
  have hlen := h.length
  rw [List.length_map] at hlen
  have s1 := section_mono (hτ 1 n le_rfl h1)
  have s2 := section_mono (hτ n k h1 h2)
  obtain ⟨i, hi⟩ : ∃ i : ℕ, section400 (τ n) = section400 (τ 1) + i := ⟨(section400 (τ n) - section400 (τ 1)).toNat, by omega⟩
  have hil : i < l.length := by omega
  obtain ⟨y, e, -, hy⟩ := h.peak i _ (List.getElem?_eq_getElem (by rw [List.length_map]; exact hil))
  rw [List.getElem_map] at e
  have e' := Option.some.inj e
  have hy0 : y = 0 := e' ▸ h0 _ (List.getElem_mem hil)
  have h3 := hy (.inl ⟨n, h1, h2, hi, rfl⟩)
  have h4 : v n ≤ strainAt b τ v n := by
    unfold strainAt
    refine le_trans (le_of_eq ?_) (Finset.single_le_sum (f := fun j => v j * b ^ ((τ n - τ j) / 1000))
      (fun j _ => mul_nonneg (hv j) (Real.rpow_nonneg hb.le _)) (Finset.mem_Icc.mpr ⟨h1, le_rfl⟩))
    simp
  have h5 := mul_le_mul_of_nonneg_right h4 (hβ n)
  have h6 := mul_nonneg (hv n) (hβ n)
  rw [hy0] at h3
  linarith

theorem peaks_zero (h : PeakList b τ v β k (l.map some)) (h0 : ∀ n, 1 ≤ n → n ≤ k → v n = 0) : ∀ x ∈ l, x = 0 := by
  have hs : ∀ n, n ≤ k → strainAt b τ v n = 0 := by
    intro n hn
    unfold strainAt
    refine Finset.sum_eq_zero fun j hj => ?_
    rw [Finset.mem_Icc] at hj
    rw [h0 j hj.1 (hj.2.trans hn), zero_mul]
  intro x hx
  obtain ⟨i, hi, rfl⟩ := List.getElem_of_mem hx
  obtain ⟨y, e, hy, -⟩ := h.peak i _ (List.getElem?_eq_getElem (by rw [List.length_map]; exact hi))
  rw [List.getElem_map] at e
  rw [Option.some.inj e]
  rcases hy with ⟨n, -, h2, -, rfl⟩ | ⟨n, h1, rfl⟩
  · rw [hs n h2, zero_mul]
  · rw [hs n h1.le, zero_mul, zero_mul]

end

section
variable {c r w : ℝ} {x : ℕ → Note}

theorem jump_zero (hc0 : 0 < c) {n : ℕ} (hm : Moves x n) : jump c x n = 0 ↔ (x n).head = (x (n - 1)).leave := by
  unfold jump
  rw [if_pos hm]
  have hp : 0 < jumpLength c 1 := by
    unfold jumpLength
    refine mul_pos (mul_pos one_pos (by positivity)) ?_
    split
    · have := le_min_iff.mpr ⟨show (0 : ℝ) ≤ 30 - c by linarith, show (0 : ℝ) ≤ 5 by norm_num⟩
      linarith
    · norm_num
  rw [jumpLength_mul, mul_eq_zero, norm_eq_zero, sub_eq_zero]
  exact ⟨fun h => h.resolve_right hp.ne', .inl⟩

theorem rests_iff (hc0 : 0 < c) (n : ℕ) : Rests x n ↔ jump c x n = 0 ∧ slid x n = 0 := by
  by_cases hm : Moves x n
  · unfold Rests slid slideTo
    rw [jump_zero hc0 hm, if_pos hm]
    constructor
    · intro h
      obtain ⟨h1, h2⟩ := h hm
      refine ⟨h1, ?_⟩
      cases hs : (x (n - 1)).slide with
      | none => rfl
      | some s => exact h2 s hs
    · rintro ⟨h1, h2⟩ -
      refine ⟨h1, fun s hs => ?_⟩
      rw [hs] at h2
      exact h2
  · unfold Rests slid slideTo jump
    simp [hm]

theorem velocity_zero (hc0 : 0 < c) (hx : Playable x) (n : ℕ) : velocity c r x true n = 0 ↔ jump c x n = 0 ∧ slid x n = 0 := by
  constructor
  · intro h
    have hT : (0 : ℝ) < gap r x n := by linarith [gap_ge (r := r) (x := x) n]
    have hJ := jump_nonneg (x := x) hc0 n
    have hS := slid_nonneg hx n
    have hq : 0 ≤ jump c x n / gap r x n := div_nonneg hJ hT.le
    have key : jump c x n / gap r x n = 0 → jump c x n = 0 := fun h => by
      rcases div_eq_zero_iff.mp h with h | h
      · exact h
      · linarith
    unfold velocity at h
    unfold slid at hS ⊢
    cases hs : slideTo x n with
    | none => rw [hs] at h; exact ⟨key h, rfl⟩
    | some s =>
      rw [hs] at h hS
      simp only [if_true] at h hS ⊢
      have hs0 := slideTime_ge (r := r) s
      have hm : 0 ≤ max 0 (min (jump c x n - 30) (jumpLength c ‖(x n).head - (x (n - 1)).tail‖ - 120)) / max (gap r x n - slideTime r s) 25 :=
        div_nonneg (le_max_left _ _) (le_max_of_le_right (by norm_num))
      have hl : 0 ≤ s.length / slideTime r s := div_nonneg hS (by linarith)
      have h1 := le_max_left (jump c x n / gap r x n)
        (max 0 (min (jump c x n - 30) (jumpLength c ‖(x n).head - (x (n - 1)).tail‖ - 120)) / max (gap r x n - slideTime r s) 25 +
          s.length / slideTime r s)
      have h2 := le_max_right (jump c x n / gap r x n)
        (max 0 (min (jump c x n - 30) (jumpLength c ‖(x n).head - (x (n - 1)).tail‖ - 120)) / max (gap r x n - slideTime r s) 25 +
          s.length / slideTime r s)
      rw [h] at h1 h2
      refine ⟨key (by linarith), ?_⟩
      have : s.length / slideTime r s = 0 := by linarith
      rcases div_eq_zero_iff.mp this with h | h
      · exact h
      · linarith
  · rintro ⟨h1, h2⟩
    by_contra h
    have := pace_pos (r := r) hc0 hx true h
    unfold pace at this
    rw [h1, h2] at this
    simp at this

theorem aimHit_zero (hc0 : 0 < c) (hx : Playable x) {n : ℕ} (hn : 3 ≤ n) :
    aimHit c r x true n = 0 ↔ (Moves x n → Rests x n ∧ Rests x (n - 1)) := by
  rw [rests_iff hc0, rests_iff hc0, ← velocity_zero (r := r) hc0 hx, ← velocity_zero (r := r) hc0 hx]
  unfold aimHit
  by_cases hm : Moves x n
  swap
  · simp [hm]
  rw [if_pos ⟨hn, hm⟩]
  have hv := velocity_nonneg (r := r) (x := x) hc0 true n
  have ht := turns_nonneg (r := r) (x := x) hc0 true n
  have hch := change_nonneg (c := c) (r := r) (x := x) true n
  have hsl := slideBonus_nonneg (r := r) hx n
  simp only [if_true]
  constructor
  · intro h _
    have m1 := le_max_left (2 * (turnsAt c r x true n).2) (1.5 * (turnsAt c r x true n).1 + 0.75 * changeAt c r x true n)
    have m2 := le_max_right (2 * (turnsAt c r x true n).2) (1.5 * (turnsAt c r x true n).1 + 0.75 * changeAt c r x true n)
    have hv0 : velocity c r x true n = 0 := by linarith
    refine ⟨hv0, ?_⟩
    by_contra hne
    have hc : changeAt c r x true n = 0 := by linarith
    have p1 := pace_pos (r := r) hc0 hx true hne
    have p0 : pace c r x n = 0 := by
      obtain ⟨h1, h2⟩ := (velocity_zero hc0 hx n).mp hv0
      unfold pace
      rw [h1, h2]; simp
    unfold changeAt at hc
    rw [if_neg (fun h => hne h.1)] at hc
    simp only [p0, sub_zero, abs_of_pos p1, max_eq_left p1.le] at hc
    have g1 := gap_ge (r := r) (x := x) n
    have g2 := gap_ge (r := r) (x := x) (n - 1)
    have hT : 0 < min (gap r x n) (gap r x (n - 1)) := lt_min (by linarith) (by linarith)
    have hM : 0 < max (gap r x n) (gap r x (n - 1)) := lt_max_of_lt_left (by linarith)
    have hsin : 0 < Real.sin (goPi / 2 * pace c r x (n - 1) / pace c r x (n - 1)) := by
      rw [mul_div_assoc, div_self p1.ne', mul_one]
      refine Real.sin_pos_of_pos_of_lt_pi (by have := goPi_pos; linarith) ?_
      have : goPi < 4 := by
        unfold goPi
        have : piConst < 4 := by unfold piConst; norm_num
        exact_mod_cast this
      linarith [Real.two_le_pi]
    have : 0 < max (min (125 / min (gap r x n) (gap r x (n - 1))) (pace c r x (n - 1)))
        (pace c r x (n - 1) * Real.sin (goPi / 2 * min 1 (min (jump c x n) (jump c x (n - 1)) / 100)) ^ 2) *
      Real.sin (goPi / 2 * pace c r x (n - 1) / pace c r x (n - 1)) ^ 2 *
      (min (gap r x n) (gap r x (n - 1)) / max (gap r x n) (gap r x (n - 1))) ^ 2 := by
      refine mul_pos (mul_pos (lt_max_of_lt_left (lt_min (by positivity) p1)) (by positivity)) (by positivity)
    linarith
  · intro h
    obtain ⟨h1, h2⟩ := h hm
    have t0 : (turnsAt c r x true n).1 = 0 ∧ (turnsAt c r x true n).2 = 0 := by
      unfold turnsAt
      rw [h1, h2]
      simp only [min_self]
      split
      · split
        · have hg := gap_ge (r := r) (x := x) n
          have hq : 0 ≤ 125 / gap r x n := div_nonneg (by norm_num) (by linarith)
          refine ⟨by simp [wideAfter], ?_⟩
          simp only [sharpRepeated, sharpAfter]
          rw [min_eq_left hq]
          simp
        · exact ⟨rfl, rfl⟩
      · exact ⟨rfl, rfl⟩
    have c0 : changeAt c r x true n = 0 := by
      unfold changeAt
      rw [if_pos ⟨h2, h1⟩]
    have s0 : slideBonus r x n = 0 := by
      have := ((velocity_zero hc0 hx n).mp h1).2
      unfold slid at this
      unfold slideBonus
      cases hs : slideTo x n with
      | none => rfl
      | some s =>
        rw [hs] at this
        simp only at this ⊢
        rw [this, zero_div]
    rw [h1, t0.1, t0.2, c0, s0]
    simp

theorem speedHit_pos (hc0 : 0 < c) (hr0 : 0 < r) (hw : 0 < w) (hx : Playable x) {n : ℕ} (hn : (x n).spinner = false) :
    0 < speedHit r w x c n := by
  unfold speedHit
  rw [if_neg (by simp [hn])]
  have hg : 0 < tapGap r w x n := tapGap_pos hr0 hw _
  have hm : 0 < min 1 (max 0.92 (tapGap r w x n / (2 * w / r) / 0.93)) := by
    rw [lt_min_iff]
    exact ⟨by norm_num, lt_max_of_lt_left (by norm_num)⟩
  have hT' : 0 < doubletapTime (tapGap r w x n) (2 * w / r) := div_pos hg hm
  have hJ : 0 ≤ slid x n + jump c x n := add_nonneg (slid_nonneg hx n) (jump_nonneg hc0 n)
  have hJ' : 0 ≤ min 125 (slid x n + jump c x n) / 125 := div_nonneg (le_min (by norm_num) hJ) (by norm_num)
  unfold speedValue
  simp only
  apply div_pos _ hT'
  apply mul_pos
  · split <;> positivity
  · have := Real.rpow_nonneg hJ' 3.5
    linarith

theorem rhythmFactor_pos (hr : 0 < r) (hx : Playable x) {n : ℕ} {l : List (ℕ × ℕ)} (hl : Islands r x n l)
    (hn : (x n).spinner = false) : 0 < rhythmFactor r w x n l := by
  unfold rhythmFactor
  rw [if_neg (by simp [hn])]
  have := complexity_nonneg (w := w) hr hx (s := 0) (e := 0) (ρ := 0) fun i hi => (hl.all i).mp hi
  exact div_pos (Real.sqrt_pos.mpr (by linarith)) (by norm_num)

end
end GosuPP.Exactly
