import Verif.Lemmas.IEEE
import Verif.Lemmas.ModScore
import Verif.Spec.Difficulty

/-! Helper lemmas for `Difficulty`. -/

namespace Go.Fl
variable {f : Fmt} [f.Ok]

theorem fin_mul_mono {x y : Fl f} (h : le x y = true) {v : ℚ} (hv : 0 < v) (b : Bool) :
    le (mul (fin v b) x) (mul (fin v b) y) = true :=
  mul_le_mul_left h (nonNeg_fin.mpr hv.le) (fin_mul_nn (le_nn h).1 hv.ne' _)
    (fin_mul_nn (le_nn h).2 hv.ne' _)

theorem mul_fin_mono {x y : Fl f} (h : le x y = true) {v : ℚ} (hv : 0 < v) (b : Bool) :
    le (mul x (fin v b)) (mul y (fin v b)) = true :=
  mul_le_mul_right h (nonNeg_fin.mpr hv.le) (mul_fin_nn (le_nn h).1 hv.ne' _)
    (mul_fin_nn (le_nn h).2 hv.ne' _)

theorem fin_mul_anti {x y : Fl f} (h : le x y = true) {v : ℚ} (hv : v < 0) (b : Bool) :
    le (mul (fin v b) y) (mul (fin v b) x) = true := by
  have hv0 : v ≠ 0 := hv.ne
  cases x with
  | nan => simp [le] at h
  | inf s =>
    cases s
    · have : y = inf false := by cases y <;> simp_all [le]
      subst this
      exact le_refl (fin_mul_nn (by simp) hv0 _)
    · have : mul (fin v b) (inf true) = (inf false : Fl f) := by simp [mul, hv0, signbit, hv]
      rw [this]
      exact top_le (fin_mul_nn (le_nn h).2 hv0 _)
  | fin u a =>
    cases y with
    | nan => simp [le] at h
    | inf t =>
      have : t = false := by cases t <;> simp_all [le]
      subst this
      have : mul (fin v b) (inf false) = (inf true : Fl f) := by simp [mul, hv0, signbit, hv]
      rw [this]
      exact bot_le (fin_mul_nn (by simp) hv0 _)
    | fin w c =>
      simp only [le, decide_eq_true_eq] at h
      simp only [mul]
      apply ofRat_mono
      exact mul_le_mul_of_nonpos_left h hv.le

end Go.Fl

namespace GosuPP
open Go Fl

/-! ### histories -/

section
variable {D : Type} [GoFloat D]

theorem calculate_congr {d d' : Difficulty D} (h1 : d.hp = d'.hp) (h2 : d.cs = d'.cs)
    (h3 : d.od = d'.od) (h4 : d.ar = d'.ar) (h5 : d.mods = d'.mods)
    (h6 : d.customSpeed = d'.customSpeed) : d.calculate = d'.calculate := by
  cases d; cases d'
  simp only at h1 h2 h3 h4 h5 h6
  subst h1 h2 h3 h4 h5 h6
  rfl

theorem fresh_eq (i : Spec.DiffInput D) :
    i.fresh = Difficulty.calculate
      { hp := i.hp, cs := i.cs, od := i.od, ar := i.ar, customSpeed := i.speed, mods := i.mods
        preempt := lit 0, circleRadius := lit 0, hit50 := lit 0, hit100 := lit 0, hit300 := lit 0
        hpMod := lit 0, spinnerRatio := lit 0, speed := lit 0, arReal := lit 0, odReal := lit 0 } := by
  unfold Spec.DiffInput.fresh Difficulty.setCustomSpeed
  exact calculate_congr rfl rfl rfl rfl rfl rfl

theorem run_fresh (i : Spec.DiffInput D) (op : Spec.DiffOp D) :
    Spec.runDiffOp i.fresh op = (i.apply op).fresh := by
  rw [fresh_eq (i.apply op)]
  cases op <;> exact calculate_congr rfl rfl rfl rfl rfl rfl

end

/-! ### the rate formula in IEEE arithmetic -/

variable {f : Fmt} [f.Ok]

/-- the branch of `DifficultyRate` above 5 -/
def rateUp (mid max five x : Fl f) : Fl f := add mid (div (mul (sub max mid) (sub x five)) five)
/-- the branch below 5 -/
def rateDn (min mid five x : Fl f) : Fl f := sub mid (div (mul (sub mid min) (sub five x)) five)

theorem difficultyRate_eq (x mn md mx : Fl f) :
    difficultyRate x mn md mx =
      if lt (lit 5) x then rateUp md mx (lit 5) x
      else if lt x (lit 5) then rateDn mn md (lit 5) x else md := rfl

/-- Constants for which the formula is decreasing. -/
structure RateDown (mn md mx : Fl f) : Prop where
  five : (lit 5 : Fl f) = fin 5 false
  mid : ∃ m b, md = fin m b
  up : ∃ v b, sub mx md = fin v b ∧ v < 0
  dn : ∃ v b, sub md mn = fin v b ∧ v < 0
  upFive : rateUp md mx (lit 5) (lit 5) = md
  dnFive : rateDn mn md (lit 5) (lit 5) = md

/-- Constants for which the formula is increasing. -/
structure RateUp (mn md mx : Fl f) : Prop where
  five : (lit 5 : Fl f) = fin 5 false
  mid : ∃ m b, md = fin m b
  up : ∃ v b, sub mx md = fin v b ∧ 0 < v
  dn : ∃ v b, sub md mn = fin v b ∧ 0 < v
  upFive : rateUp md mx (lit 5) (lit 5) = md
  dnFive : rateDn mn md (lit 5) (lit 5) = md

theorem RateDown.anti {mn md mx : Fl f} (R : RateDown mn md mx) {x y : Fl f} (h : le x y = true) :
    le (difficultyRate y mn md mx) (difficultyRate x mn md mx) = true := by
  obtain ⟨m, mb, hm⟩ := R.mid
  obtain ⟨v1, b1, hv1, hn1⟩ := R.up
  obtain ⟨v2, b2, hv2, hn2⟩ := R.dn
  have h5 := R.five
  have hup : ∀ {x y : Fl f}, le x y = true →
      le (rateUp md mx (lit 5) y) (rateUp md mx (lit 5) x) = true := by
    intro x y h
    unfold rateUp
    rw [hv1, hm, h5]
    have e1 := sub_mono h (le_refl (nn_fin (f := f) 5 false)) (sub_fin_nn (le_nn h).1 _ _)
      (sub_fin_nn (le_nn h).2 _ _)
    have e2 := fin_mul_anti e1 hn1 b1
    have e3 := div_le_div_right e2 (v := 5) (by norm_num) false
    exact add_mono (le_refl (nn_fin _ _)) e3 (fin_add_nn (le_nn e3).1 _ _)
      (fin_add_nn (le_nn e3).2 _ _)
  have hdn : ∀ {x y : Fl f}, le x y = true →
      le (rateDn mn md (lit 5) y) (rateDn mn md (lit 5) x) = true := by
    intro x y h
    unfold rateDn
    rw [hv2, hm, h5]
    have e1 := sub_mono (le_refl (nn_fin (f := f) 5 false)) h (fin_sub_nn (le_nn h).2 _ _)
      (fin_sub_nn (le_nn h).1 _ _)
    have e2 := fin_mul_anti e1 hn2 b2
    have e3 := div_le_div_right e2 (v := 5) (by norm_num) false
    exact sub_mono (le_refl (nn_fin _ _)) e3 (fin_sub_nn (le_nn e3).2 _ _)
      (fin_sub_nn (le_nn e3).1 _ _)
  have ⟨hx, hy⟩ := le_nn h
  have n5 : NN (lit 5 : Fl f) := by rw [h5]; simp
  have hmr : le md md = true := by rw [hm]; exact le_refl (by simp)
  rw [difficultyRate_eq, difficultyRate_eq]
  by_cases y5 : lt (lit 5) y = true
  · rw [if_pos y5]
    by_cases x5 : lt (lit 5) x = true
    · rw [if_pos x5]; exact hup h
    · rw [if_neg x5]
      have a : le (rateUp md mx (lit 5) y) md = true := by
        have := hup (le_of_lt y5); rwa [R.upFive] at this
      by_cases x5' : lt x (lit 5) = true
      · rw [if_pos x5']
        have b : le md (rateDn mn md (lit 5) x) = true := by
          have := hdn (le_of_lt x5'); rwa [R.dnFive] at this
        exact Fl.le_trans a b
      · rw [if_neg x5']; exact a
  · rw [if_neg y5]
    have y5' : le y (lit 5) = true := le_of_not_lt hy n5 (by simpa using y5)
    have x5 : ¬ lt (lit 5) x = true := by
      rw [not_lt_of_le (Fl.le_trans h y5')]; simp
    rw [if_neg x5]
    by_cases y5'' : lt y (lit 5) = true
    · rw [if_pos y5'', if_pos (lt_of_le_of_lt h y5'')]; exact hdn h
    · rw [if_neg y5'']
      by_cases x5' : lt x (lit 5) = true
      · rw [if_pos x5']
        have := hdn (le_of_lt x5'); rwa [R.dnFive] at this
      · rw [if_neg x5']; exact hmr

theorem RateUp.mono {mn md mx : Fl f} (R : RateUp mn md mx) {x y : Fl f} (h : le x y = true) :
    le (difficultyRate x mn md mx) (difficultyRate y mn md mx) = true := by
  obtain ⟨m, mb, hm⟩ := R.mid
  obtain ⟨v1, b1, hv1, hn1⟩ := R.up
  obtain ⟨v2, b2, hv2, hn2⟩ := R.dn
  have h5 := R.five
  have hup : ∀ {x y : Fl f}, le x y = true →
      le (rateUp md mx (lit 5) x) (rateUp md mx (lit 5) y) = true := by
    intro x y h
    unfold rateUp
    rw [hv1, hm, h5]
    have e1 := sub_mono h (le_refl (nn_fin (f := f) 5 false)) (sub_fin_nn (le_nn h).1 _ _)
      (sub_fin_nn (le_nn h).2 _ _)
    have e2 := fin_mul_mono e1 hn1 b1
    have e3 := div_le_div_right e2 (v := 5) (by norm_num) false
    exact add_mono (le_refl (nn_fin _ _)) e3 (fin_add_nn (le_nn e3).1 _ _)
      (fin_add_nn (le_nn e3).2 _ _)
  have hdn : ∀ {x y : Fl f}, le x y = true →
      le (rateDn mn md (lit 5) x) (rateDn mn md (lit 5) y) = true := by
    intro x y h
    unfold rateDn
    rw [hv2, hm, h5]
    have e1 := sub_mono (le_refl (nn_fin (f := f) 5 false)) h (fin_sub_nn (le_nn h).2 _ _)
      (fin_sub_nn (le_nn h).1 _ _)
    have e2 := fin_mul_mono e1 hn2 b2
    have e3 := div_le_div_right e2 (v := 5) (by norm_num) false
    exact sub_mono (le_refl (nn_fin _ _)) e3 (fin_sub_nn (le_nn e3).2 _ _)
      (fin_sub_nn (le_nn e3).1 _ _)
  have ⟨hx, hy⟩ := le_nn h
  have n5 : NN (lit 5 : Fl f) := by rw [h5]; simp
  have hmr : le md md = true := by rw [hm]; exact le_refl (by simp)
  rw [difficultyRate_eq, difficultyRate_eq]
  by_cases y5 : lt (lit 5) y = true
  · rw [if_pos y5]
    by_cases x5 : lt (lit 5) x = true
    · rw [if_pos x5]; exact hup h
    · rw [if_neg x5]
      have a : le md (rateUp md mx (lit 5) y) = true := by
        have := hup (le_of_lt y5); rwa [R.upFive] at this
      by_cases x5' : lt x (lit 5) = true
      · rw [if_pos x5']
        have b : le (rateDn mn md (lit 5) x) md = true := by
          have := hdn (le_of_lt x5'); rwa [R.dnFive] at this
        exact Fl.le_trans b a
      · rw [if_neg x5']; exact a
  · rw [if_neg y5]
    have y5' : le y (lit 5) = true := le_of_not_lt hy n5 (by simpa using y5)
    have x5 : ¬ lt (lit 5) x = true := by
      rw [not_lt_of_le (Fl.le_trans h y5')]; simp
    rw [if_neg x5]
    by_cases y5'' : lt y (lit 5) = true
    · rw [if_pos y5'', if_pos (lt_of_le_of_lt h y5'')]; exact hdn h
    · rw [if_neg y5'']
      by_cases x5' : lt x (lit 5) = true
      · rw [if_pos x5']
        have := hdn (le_of_lt x5'); rwa [R.dnFive] at this
      · rw [if_neg x5']; exact hmr

/-! ### the constants of the code, binary64 -/

theorem rate_ar : RateDown (lit 1800 : F64) (lit 1200) (lit 450) :=
  ⟨by decide +kernel, ⟨1200, false, by decide +kernel⟩, ⟨-750, false, by decide +kernel⟩,
    ⟨-600, false, by decide +kernel⟩, by decide +kernel, by decide +kernel⟩

theorem rate_h300 : RateDown (lit 80 : F64) (lit 50) (lit 20) :=
  ⟨by decide +kernel, ⟨50, false, by decide +kernel⟩, ⟨-30, false, by decide +kernel⟩,
    ⟨-30, false, by decide +kernel⟩, by decide +kernel, by decide +kernel⟩

theorem rate_h100 : RateDown (lit 140 : F64) (lit 100) (lit 60) :=
  ⟨by decide +kernel, ⟨100, false, by decide +kernel⟩, ⟨-40, false, by decide +kernel⟩,
    ⟨-40, false, by decide +kernel⟩, by decide +kernel, by decide +kernel⟩

theorem rate_h50 : RateDown (lit 200 : F64) (lit 150) (lit 100) :=
  ⟨by decide +kernel, ⟨150, false, by decide +kernel⟩, ⟨-50, false, by decide +kernel⟩,
    ⟨-50, false, by decide +kernel⟩, by decide +kernel, by decide +kernel⟩

/-- the numeric value of a finite float -/
def valOf : Fl f → ℚ
  | .fin v _ => v
  | _ => 0

theorem fin_exists {x : Fl f} {P : ℚ → Prop} (h : (match x with | .fin v _ => P v | _ => False)) :
    ∃ v b, x = fin v b ∧ P v := by
  cases x with
  | nan => exact h.elim
  | inf s => exact h.elim
  | fin v b => exact ⟨v, b, rfl, h⟩

theorem fin_neg_of {x : Fl f} (h : lt x (fin 0 false) = true) (hi : x ≠ inf true) :
    ∃ v b, x = fin v b ∧ v < 0 := by
  cases x with
  | nan => simp [lt] at h
  | inf s => cases s <;> simp_all [lt]
  | fin v b => exact ⟨v, b, rfl, by simpa [lt] using h⟩

theorem fin_pos_of {x : Fl f} (h : lt (fin 0 false) x = true) (hi : x ≠ inf false) :
    ∃ v b, x = fin v b ∧ 0 < v := by
  cases x with
  | nan => simp [lt] at h
  | inf s => cases s <;> simp_all [lt]
  | fin v b => exact ⟨v, b, rfl, by simpa [lt] using h⟩

theorem rate_cs : RateDown (lit 54.4 : F64) (lit 32) (lit 9.6) :=
  ⟨by decide +kernel, ⟨32, false, by decide +kernel⟩,
    fin_neg_of (by decide +kernel) (by decide +kernel),
    fin_neg_of (by decide +kernel) (by decide +kernel), by decide +kernel, by decide +kernel⟩

theorem rate_spin : RateUp (lit 3 : F64) (lit 5) (lit 7.5) :=
  ⟨by decide +kernel, ⟨5, false, by decide +kernel⟩, ⟨5/2, false, by decide +kernel⟩,
    ⟨2, false, by decide +kernel⟩, by decide +kernel, by decide +kernel⟩

/-! ### HardRock and Easy -/

theorem adjust_mono (m : Modifier) {k : ℚ} {kv : ℚ} {kb : Bool} (hk : (lit k : F64) = fin kv kb)
    (hkv : 0 < kv) {x y : F64} (h : le x y = true) :
    le (Difficulty.adjust m k x) (Difficulty.adjust m k y) = true := by
  unfold Difficulty.adjust
  have h2 : (lit 2 : F64) = fin 2 false := by decide +kernel
  have h10 : (lit 10 : F64) = fin 10 false := by decide +kernel
  simp only [go_mul, go_div, hk, h2, h10]
  have e1 : le (if Modifier.active m Mod.HardRock then fmin (mul x (fin kv kb)) (fin 10 false) else x)
      (if Modifier.active m Mod.HardRock then fmin (mul y (fin kv kb)) (fin 10 false) else y) = true := by
    split
    · exact fmin_mono (mul_fin_mono h hkv kb) (le_refl (by simp))
    · exact h
  split
  · exact div_le_div_right e1 (by norm_num) false
  · exact e1

theorem adjust_range (m : Modifier) {k : ℚ} {kv : ℚ} {kb : Bool} (hk : (lit k : F64) = fin kv kb)
    (hkv : 0 < kv) {x : F64} (h0 : le (lit 0) x = true) (h10 : le x (lit 10) = true) :
    le (lit 0) (Difficulty.adjust m k x) = true ∧ le (Difficulty.adjust m k x) (lit 10) = true := by
  unfold Difficulty.adjust
  have e0 : (lit 0 : F64) = fin 0 false := by decide +kernel
  have e2 : (lit 2 : F64) = fin 2 false := by decide +kernel
  have e10 : (lit 10 : F64) = fin 10 false := by decide +kernel
  rw [e0] at h0 ⊢
  rw [e10] at h10
  simp only [go_mul, go_div, hk, e2, e10]
  have e1 : ∀ y, y = (if Modifier.active m Mod.HardRock then fmin (mul x (fin kv kb)) (fin 10 false) else x) →
      le (fin 0 false) y = true ∧ le y (fin 10 false) = true := by
    rintro y rfl
    split
    · have a := mul_nonneg h0 (nonNeg_fin (b := kb) |>.mpr hkv.le) (mul_fin_nn (le_nn h0).2 hkv.ne' _)
      have sp := fmin_spec (le_nn a).2 (nn_fin (f := fmt64) 10 false)
      refine ⟨?_, sp.2.1⟩
      rcases sp.2.2 with h | h <;> rw [h]
      · exact a
      · decide
    · exact ⟨h0, h10⟩
  obtain ⟨a, b⟩ := e1 _ rfl
  split
  · refine ⟨Fl.div_nonneg a (by norm_num) false, ?_⟩
    have := div_le_div_right b (v := 2) (by norm_num) false
    exact Fl.le_trans this (by decide +kernel)
  · exact ⟨a, b⟩

theorem lit14 : ∃ v b, (lit 1.4 : F64) = fin v b ∧ 0 < v :=
  fin_pos_of (by decide +kernel) (by decide +kernel)
theorem lit13 : ∃ v b, (lit 1.3 : F64) = fin v b ∧ 0 < v :=
  fin_pos_of (by decide +kernel) (by decide +kernel)

end GosuPP

namespace GosuPP
open Go Fl

/-- Upper bound of `DiffFromRate` on nonnegative rates: its value at 0. -/
theorem diffFromRate_le {mn md mx : F64} {a b c d : ℚ} {ab bb cb db : Bool}
    (hmn : mn = fin a ab) (hmd : md = fin b bb)
    (h1 : div (sub mn md) (lit 5) = fin c cb) (hc : 0 < c)
    (h2 : div (sub md mx) (lit 5) = fin d db) (hd : 0 < d)
    (h5 : le (div (neg (sub md mn)) (fin c cb)) (sub (lit 5) (div (sub (fin 0 false) md) (fin d db))) = true)
    {r : F64} (hr : NonNeg r) :
    le (diffFromRate r mn md mx) (sub (lit 5) (div (sub (fin 0 false) md) (fin d db))) = true := by
  have l5 : (lit 5 : F64) = fin 5 false := by decide +kernel
  unfold diffFromRate
  simp only [go_div, go_sub, go_lt, fneg, go_neg]
  rw [h1, h2]
  split
  · rename_i h
    refine Fl.le_trans ?_ h5
    apply div_le_div_right _ hc
    apply Fl.neg_le_neg
    rw [hmn, hmd]
    rw [hmd] at h
    exact sub_mono (le_of_lt h) (Fl.le_refl (nn_fin _ _)) (fin_sub_nn (nn_fin _ _) _ _)
      (sub_fin_nn (lt_nn h).2 _ _)
  · rw [hmd, l5]
    have e1 := sub_mono hr (Fl.le_refl (nn_fin (f := fmt64) b bb)) (fin_sub_nn (nn_fin _ _) _ _)
      (sub_fin_nn (le_nn hr).2 _ _)
    have e2 := div_le_div_right e1 hd db
    exact sub_mono (Fl.le_refl (nn_fin _ _)) e2 (fin_sub_nn (le_nn e2).2 _ _)
      (fin_sub_nn (le_nn e2).1 _ _)

theorem mul_signbit_pos {k : ℚ} {kb : Bool} (hk : 0 < k) {x : F64} (hx : lt (lit 0) x = true) :
    NN (mul (fin k kb) x) ∧ signbit (mul (fin k kb) x) = false := by
  have hk' : ¬ k < 0 := not_lt.mpr hk.le
  have l0 : (lit 0 : F64) = fin 0 false := by decide +kernel
  rw [l0] at hx
  refine ⟨fin_mul_nn (lt_nn hx).2 hk.ne' _, ?_⟩
  cases x with
  | nan => simp [lt] at hx
  | inf s => cases s <;> simp_all [lt, mul, signbit, hk.ne']
  | fin v b =>
    have hv : 0 < v := by simpa [lt] using hx
    have hkv : 0 < k * v := by positivity
    have hnn := rnd_nonneg (f := fmt64) hkv.le
    have hkv' : ¬ k * v < 0 := not_lt.mpr hkv.le
    simp only [mul, ofRat]
    split
    · simp [signbit, hkv']
    · simp only [signbit, hkv.ne', if_false, hkv', decide_false, Bool.and_false]
      split
      · rfl
      · simpa using hnn

theorem div_nonneg' {x y : F64} {v : ℚ} {b : Bool} (hx : x = fin v b) (hv : 0 < v)
    (hy : NN y) (hs : signbit y = false) : NonNeg (div x y) := by
  subst hx
  have hv' : ¬ v < 0 := not_lt.mpr hv.le
  cases y with
  | nan => simp at hy
  | inf s =>
    have : s = false := by simpa [signbit] using hs
    subst this
    simp [div, NonNeg, le]
  | fin w c =>
    by_cases hw : w = 0
    · subst hw
      have : c = false := by simpa [signbit] using hs
      subst this
      simp [div, hv.ne', signbit, NonNeg, le, hv']
    · have hw' : 0 ≤ w := by simpa [signbit, hw] using hs
      simp only [div, hw, if_false]
      exact ofRat_nonneg (by positivity) _

theorem modifiedTime_nonneg (m : Modifier) {s t : F64} (hs : lt (lit 0) s = true) {v : ℚ} {b : Bool}
    (ht : t = fin v b) (hv : 0 < v) : NonNeg (Difficulty.modifiedTime m s t) := by
  unfold Difficulty.modifiedTime
  simp only [go_div, go_mul]
  have l15 : (lit 1.5 : F64) = fin (3/2) false := by decide +kernel
  have l075 : (lit 0.75 : F64) = fin (3/4) false := by decide +kernel
  have l0 : (lit 0 : F64) = fin 0 false := by decide +kernel
  rw [l15, l075]
  split
  · have := mul_signbit_pos (k := 3/2) (kb := false) (by norm_num) hs
    exact div_nonneg' ht hv this.1 this.2
  · split
    · have := mul_signbit_pos (k := 3/4) (kb := false) (by norm_num) hs
      exact div_nonneg' ht hv this.1 this.2
    · refine div_nonneg' ht hv (lt_nn hs).2 ?_
      rw [l0] at hs
      cases s with
      | nan => simp [lt] at hs
      | inf s => cases s <;> simp_all [lt, signbit]
      | fin w c =>
        have hw : 0 < w := by simpa [lt] using hs
        simp only [signbit, hw.ne', if_false, decide_eq_false_iff_not]
        exact not_lt.mpr hw.le

/-- A value between two finite ones is finite. -/
theorem fin_of_between {x : F64} {a b : ℚ} {ab bb : Bool} (h1 : le (fin a ab) x = true)
    (h2 : le x (fin b bb) = true) : ∃ v c, x = fin v c ∧ a ≤ v ∧ v ≤ b := by
  cases x with
  | nan => simp [le] at h1
  | inf s => cases s <;> simp_all [le]
  | fin v c => exact ⟨v, c, rfl, by simpa [le] using h1, by simpa [le] using h2⟩

end GosuPP
