import Verif.Lemmas.Rnd

/-! Lemmas about the IEEE operations: order, monotonicity, well-formedness. -/

namespace Go
namespace Fl
variable {f : Fmt}

/-- The value is not NaN. -/
def NN (x : Fl f) : Prop := x ≠ nan

instance (x : Fl f) : Decidable (NN x) := inferInstanceAs (Decidable (_ ≠ _))

/-- The value is finite. -/
def Fin (x : Fl f) : Prop := ∃ v nz, x = fin v nz

/-- Values that actually occur in the format. -/
def WF : Fl f → Prop
  | nan => True
  | inf _ => True
  | fin v nz => Rep f v ∧ |v| < pow2 f.emax ∧ (v ≠ 0 → nz = false)

theorem Fin.nn {x : Fl f} (h : Fin x) : NN x := by
  obtain ⟨v, nz, rfl⟩ := h; simp [NN]

@[simp] theorem nn_fin (v : ℚ) (nz : Bool) : NN (fin v nz : Fl f) := by simp [NN]
@[simp] theorem nn_inf (s : Bool) : NN (inf s : Fl f) := by simp [NN]
@[simp] theorem not_nn_nan : ¬ NN (nan : Fl f) := by simp [NN]

theorem isNaN_iff (x : Fl f) : isNaN x = true ↔ x = nan := by cases x <;> simp [isNaN]
theorem isNaN_false_iff (x : Fl f) : isNaN x = false ↔ NN x := by cases x <;> simp [isNaN, NN]

/-! ### comparisons -/

theorem le_refl {x : Fl f} (h : NN x) : le x x = true := by
  cases x <;> simp_all [le]

theorem le_trans {x y z : Fl f} (h1 : le x y = true) (h2 : le y z = true) : le x z = true := by
  cases x with
  | nan => simp [le] at h1
  | inf s =>
    cases y with
    | nan => simp [le] at h1
    | inf t => cases z <;> cases s <;> cases t <;> simp_all [le]
    | fin w b => cases z <;> cases s <;> simp_all [le]
  | fin v a =>
    cases y with
    | nan => simp [le] at h1
    | inf t => cases z <;> cases t <;> simp_all [le]
    | fin w b =>
      cases z with
      | nan => simp [le] at h2
      | inf t => cases t <;> simp_all [le]
      | fin u c => simp only [le, decide_eq_true_eq] at *; exact h1.trans h2

theorem le_total {x y : Fl f} (hx : NN x) (hy : NN y) : le x y = true ∨ le y x = true := by
  cases x with
  | nan => simp at hx
  | inf s => cases y <;> cases s <;> simp_all [le]
  | fin v a =>
    cases y with
    | nan => simp at hy
    | inf t => cases t <;> simp [le]
    | fin w b => simp only [le, decide_eq_true_eq]; exact _root_.le_total v w

theorem le_nn {x y : Fl f} (h : le x y = true) : NN x ∧ NN y := by
  cases x <;> cases y <;> simp_all [le]

theorem lt_nn {x y : Fl f} (h : lt x y = true) : NN x ∧ NN y := by
  cases x <;> cases y <;> simp_all [lt]

theorem lt_eq_not_le {x y : Fl f} (hx : NN x) (hy : NN y) : lt x y = !le y x := by
  cases x with
  | nan => simp at hx
  | inf s =>
    cases y with
    | nan => simp at hy
    | inf t => cases s <;> cases t <;> simp [le, lt]
    | fin w b => cases s <;> simp [le, lt]
  | fin v a =>
    cases y with
    | nan => simp at hy
    | inf t => cases t <;> simp [le, lt]
    | fin w b =>
      simp only [le, lt]
      rw [← decide_not]
      simp only [not_le]

theorem le_eq_not_lt {x y : Fl f} (hx : NN x) (hy : NN y) : le x y = !lt y x := by
  rw [lt_eq_not_le hy hx, Bool.not_not]

theorem le_of_lt {x y : Fl f} (h : lt x y = true) : le x y = true := by
  have ⟨hx, hy⟩ := lt_nn h
  rw [lt_eq_not_le hx hy] at h
  rcases le_total hx hy with h' | h'
  · exact h'
  · simp [h'] at h

theorem lt_of_le_of_lt {x y z : Fl f} (h1 : le x y = true) (h2 : lt y z = true) : lt x z = true := by
  have ⟨hx, hy⟩ := le_nn h1
  have ⟨_, hz⟩ := lt_nn h2
  rw [lt_eq_not_le hx hz]
  rw [lt_eq_not_le hy hz] at h2
  cases h : le z x
  · rfl
  · rw [le_trans h h1] at h2; simp at h2

theorem lt_of_lt_of_le {x y z : Fl f} (h1 : lt x y = true) (h2 : le y z = true) : lt x z = true := by
  have ⟨hx, hy⟩ := lt_nn h1
  have ⟨_, hz⟩ := le_nn h2
  rw [lt_eq_not_le hx hz]
  rw [lt_eq_not_le hx hy] at h1
  cases h : le z x
  · rfl
  · rw [le_trans h2 h] at h1; simp at h1

theorem lt_trans {x y z : Fl f} (h1 : lt x y = true) (h2 : lt y z = true) : lt x z = true :=
  lt_of_lt_of_le h1 (le_of_lt h2)

theorem lt_irrefl (x : Fl f) : lt x x = false := by
  cases x with
  | nan => rfl
  | inf s => cases s <;> rfl
  | fin v a => simp [lt]

theorem not_lt_of_le {x y : Fl f} (h : le x y = true) : lt y x = false := by
  have ⟨hx, hy⟩ := le_nn h
  rw [lt_eq_not_le hy hx, h]; rfl

theorem le_of_not_lt {x y : Fl f} (hx : NN x) (hy : NN y) (h : lt y x = false) : le x y = true := by
  rw [le_eq_not_lt hx hy, h]; rfl

theorem eq_iff_le {x y : Fl f} : eq x y = true ↔ le x y = true ∧ le y x = true := by
  cases x with
  | nan => simp [eq, le]
  | inf s =>
    cases y with
    | nan => simp [eq, le]
    | inf t => cases s <;> cases t <;> simp [le, eq]
    | fin w b => cases s <;> simp [le, eq]
  | fin v a =>
    cases y with
    | nan => simp [eq, le]
    | inf t => cases t <;> simp [le, eq]
    | fin w b =>
      simp only [le, eq, decide_eq_true_eq]
      exact _root_.le_antisymm_iff

/-- Two well-formed values that compare equal are equal, except for the sign of zero. -/
theorem eq_of_le_le {x y : Fl f} (hx : WF x) (hy : WF y) (h0 : ∀ s, x ≠ fin 0 s)
    (h1 : le x y = true) (h2 : le y x = true) : x = y := by
  cases x with
  | nan => simp [le] at h1
  | inf s => cases y <;> cases s <;> simp_all [le]
  | fin v a =>
    cases y with
    | nan => simp [le] at h1
    | inf t => cases t <;> simp_all [le]
    | fin w b =>
      simp only [le, decide_eq_true_eq] at h1 h2
      have hv : v = w := le_antisymm h1 h2
      subst hv
      by_cases hv0 : v = 0
      · subst hv0; exact absurd rfl (h0 a)
      · rw [hx.2.2 hv0, hy.2.2 hv0]

theorem top_le {x : Fl f} (h : NN x) : le x (inf false) = true := by
  cases x with
  | nan => simp at h
  | inf s => cases s <;> simp [le]
  | fin v b => simp [le]

theorem bot_le {x : Fl f} (h : NN x) : le (inf true) x = true := by
  cases x with
  | nan => simp at h
  | inf s => cases s <;> simp [le]
  | fin v b => simp [le]

/-! ### rounding into the format -/

theorem ofRat_nn (q : ℚ) (z : Bool) : NN (ofRat f q z) := by
  unfold ofRat; simp only; split <;> simp

theorem ofRat_wf (q : ℚ) (z : Bool) : WF (ofRat f q z) := by
  unfold ofRat
  simp only
  split
  · trivial
  · rename_i h
    refine ⟨rnd_rep q, not_le.mp h, ?_⟩
    intro h0
    simp [h0]

theorem ofRat_of_rep [f.Ok] {q : ℚ} (h : Rep f q) (hb : |q| < pow2 f.emax) (z : Bool) :
    ofRat f q z = fin q (decide (q = 0) && z) := by
  unfold ofRat
  simp only
  rw [rnd_of_rep h, if_neg (not_le.mpr hb)]
  by_cases hq : q = 0 <;> simp [hq]

theorem ofRat_zero [f.Ok] (z : Bool) : ofRat f 0 z = fin 0 z := by
  rw [ofRat_of_rep Rep.zero (by simpa using pow2_pos _)]; simp

/-- A well-formed finite value is not changed by rounding. -/
theorem ofRat_fin [f.Ok] {v : ℚ} {nz : Bool} (h : WF (fin v nz : Fl f)) :
    ofRat f v nz = fin v nz := by
  rw [ofRat_of_rep h.1 h.2.1]
  by_cases hv : v = 0
  · simp [hv]
  · simp [hv, h.2.2 hv]

theorem ofRat_mono [f.Ok] {q q' : ℚ} (h : q ≤ q') (z z' : Bool) :
    le (ofRat f q z) (ofRat f q' z') = true := by
  unfold ofRat
  simp only
  have hr := rnd_mono (f := f) h
  have hp := pow2_pos f.emax
  have nn : ∀ {x : ℚ}, 0 ≤ x → 0 ≤ rnd f x := fun hx => rnd_nonneg hx
  have np : ∀ {x : ℚ}, x ≤ 0 → rnd f x ≤ 0 := by
    intro x hx
    have := rnd_nonneg (f := f) (q := -x) (by linarith)
    rw [rnd_neg] at this; linarith
  by_cases h1 : pow2 f.emax ≤ |rnd f q| <;> by_cases h2 : pow2 f.emax ≤ |rnd f q'|
  · rw [if_pos h1, if_pos h2]
    simp only [le]
    by_cases h0 : q < 0
    · simp [h0]
    · have : ¬ q' < 0 := by linarith [not_lt.mp h0]
      simp [this]
  · rw [if_pos h1, if_neg h2]
    simp only [le]
    rw [decide_eq_true_eq]
    by_contra h0
    have h0 := not_lt.mp h0
    rw [abs_of_nonneg (nn h0)] at h1
    rw [abs_of_nonneg (nn (h0.trans h))] at h2
    linarith
  · rw [if_neg h1, if_pos h2]
    simp only [le]
    rw [Bool.not_eq_true', decide_eq_false_iff_not]
    intro h0
    rw [abs_of_nonpos (np h0.le)] at h2
    rw [abs_of_nonpos (np (h.trans h0.le))] at h1
    linarith
  · rw [if_neg h1, if_neg h2]
    simpa only [le, decide_eq_true_eq] using hr

theorem le_ofRat_iff_fin {v : ℚ} {b : Bool} {w : ℚ} {c : Bool} :
    le (fin v b : Fl f) (fin w c) = true ↔ v ≤ w := by simp [le]

theorem lt_fin_iff {v : ℚ} {b : Bool} {w : ℚ} {c : Bool} :
    lt (fin v b : Fl f) (fin w c) = true ↔ v < w := by simp [lt]

/-! ### negation -/

@[simp] theorem neg_nn {x : Fl f} : NN (neg x) ↔ NN x := by cases x <;> simp [neg, NN]

theorem neg_le_neg {x y : Fl f} (h : le x y = true) : le (neg y) (neg x) = true := by
  cases x <;> cases y <;> simp_all [le, neg]
  rename_i a b
  cases a <;> cases b <;> simp_all

theorem neg_lt_neg {x y : Fl f} (h : lt x y = true) : lt (neg y) (neg x) = true := by
  cases x <;> cases y <;> simp_all [lt, neg]

theorem neg_wf {x : Fl f} (h : WF x) : WF (neg x) := by
  cases x with
  | nan => trivial
  | inf s => trivial
  | fin v a =>
    refine ⟨h.1.neg, by rw [abs_neg]; exact h.2.1, ?_⟩
    intro h0
    have : v ≠ 0 := by simpa using h0
    simp [this]

/-! ### addition -/

theorem add_wf {x y : Fl f} : WF x → WF y → WF (add x y) := by
  intro _ _
  cases x <;> cases y <;> simp only [add] <;> try trivial
  · split <;> trivial
  · exact ofRat_wf _ _

theorem sub_wf {x y : Fl f} (hx : WF x) (hy : WF y) : WF (sub x y) := add_wf hx (neg_wf hy)

theorem add_mono [f.Ok] {x y x' y' : Fl f} (h1 : le x x' = true) (h2 : le y y' = true)
    (hn : NN (add x y)) (hn' : NN (add x' y')) : le (add x y) (add x' y') = true := by
  cases x with
  | nan => simp [le] at h1
  | inf s =>
    cases y with
    | nan => simp [le] at h2
    | inf t =>
      have hst : s = t := by
        by_contra hc; simp [add, hc] at hn
      subst hst
      simp only [add, if_true]
      cases s
      · -- +inf
        have hx' : x' = inf false := by
          cases x' <;> simp_all [le]
        have hy' : y' = inf false := by
          cases y' <;> simp_all [le]
        subst hx' hy'
        simp [add, le]
      · exact bot_le hn'
    | fin w b =>
      simp only [add]
      cases s
      · have hx' : x' = inf false := by cases x' <;> simp_all [le]
        subst hx'
        cases y' with
        | nan => simp [le] at h2
        | inf t => cases t <;> simp_all [le, add]
        | fin w' b' => simp [add, le]
      · exact bot_le hn'
  | fin v a =>
    cases y with
    | nan => simp [le] at h2
    | inf t =>
      simp only [add]
      cases t
      · have hy' : y' = inf false := by cases y' <;> simp_all [le]
        subst hy'
        cases x' with
        | nan => simp [le] at h1
        | inf t => cases t <;> simp_all [le, add]
        | fin w' b' => simp [add, le]
      · exact bot_le hn'
    | fin w b =>
      cases x' with
      | nan => simp [le] at h1
      | inf s' =>
        have : s' = false := by cases s' <;> simp_all [le]
        subst this
        have : add (inf false) y' = (inf false : Fl f) := by
          cases y' with
          | nan => simp [le] at h2
          | inf t => cases t <;> simp_all [le, add]
          | fin w' b' => simp [add]
        rw [this]
        rcases hx : add (fin v a) (fin w b) with _ | s | ⟨u, c⟩
        · rw [hx] at hn; simp at hn
        · cases s <;> simp [le]
        · simp [le]
      | fin v' a' =>
        cases y' with
        | nan => simp [le] at h2
        | inf t =>
          have : t = false := by cases t <;> simp_all [le]
          subst this
          simp only [add]
          rcases hx : ofRat f (v + w) ((fin v a : Fl f).signbit && (fin w b : Fl f).signbit) with _ | s | ⟨u, c⟩
          · have := ofRat_nn (f := f) (v + w) ((fin v a : Fl f).signbit && (fin w b : Fl f).signbit)
            rw [hx] at this; simp at this
          · cases s <;> simp [le]
          · simp [le]
        | fin w' b' =>
          simp only [add]
          apply ofRat_mono
          simp only [le, decide_eq_true_eq] at h1 h2
          linarith

theorem sub_mono [f.Ok] {x y x' y' : Fl f} (h1 : le x x' = true) (h2 : le y' y = true)
    (hn : NN (sub x y)) (hn' : NN (sub x' y')) : le (sub x y) (sub x' y') = true :=
  add_mono h1 (neg_le_neg h2) hn hn'

theorem add_fin_nn {x : Fl f} (hx : NN x) (v : ℚ) (b : Bool) : NN (add x (fin v b)) := by
  cases x with
  | nan => simp at hx
  | inf s => simp [add]
  | fin w a => exact ofRat_nn _ _

theorem fin_add_nn {x : Fl f} (hx : NN x) (v : ℚ) (b : Bool) : NN (add (fin v b) x) := by
  cases x with
  | nan => simp at hx
  | inf s => simp [add]
  | fin w a => exact ofRat_nn _ _

theorem sub_fin_nn {x : Fl f} (hx : NN x) (v : ℚ) (b : Bool) : NN (sub x (fin v b)) :=
  add_fin_nn hx _ _

theorem fin_sub_nn {x : Fl f} (hx : NN x) (v : ℚ) (b : Bool) : NN (sub (fin v b) x) :=
  fin_add_nn (neg_nn.mpr hx) _ _

/-! ### multiplication -/

theorem mul_wf {x y : Fl f} : WF (mul x y) := by
  cases x <;> cases y <;> simp only [mul] <;> try trivial
  · split <;> trivial
  · split <;> trivial
  · exact ofRat_wf _ _

theorem mul_fin_nn {x : Fl f} (hx : NN x) {v : ℚ} (hv : v ≠ 0) (b : Bool) : NN (mul x (fin v b)) := by
  cases x with
  | nan => simp at hx
  | inf s => simp [mul, hv]
  | fin w a => exact ofRat_nn _ _

theorem fin_mul_nn {x : Fl f} (hx : NN x) {v : ℚ} (hv : v ≠ 0) (b : Bool) : NN (mul (fin v b) x) := by
  cases x with
  | nan => simp at hx
  | inf s => simp [mul, hv]
  | fin w a => exact ofRat_nn _ _

theorem mul_comm (x y : Fl f) : mul x y = mul y x := by
  cases x <;> cases y <;> simp only [mul]
  · rw [Bool.xor_comm]
  · rw [_root_.mul_comm, Bool.xor_comm]

/-- A value with `0 ≤ c` (either zero allowed). -/
abbrev NonNeg (c : Fl f) : Prop := le (fin 0 false) c = true

theorem nonNeg_fin {v : ℚ} {b : Bool} : NonNeg (fin v b : Fl f) ↔ 0 ≤ v := by simp [NonNeg, le]

theorem ofRat_nonneg [f.Ok] {q : ℚ} (h : 0 ≤ q) (z : Bool) : NonNeg (ofRat f q z) := by
  have := ofRat_mono (f := f) h false z
  rwa [ofRat_zero] at this

theorem ofRat_nonpos [f.Ok] {q : ℚ} (h : q ≤ 0) (z : Bool) :
    le (ofRat f q z) (fin 0 false) = true := by
  have := ofRat_mono (f := f) h z false
  rwa [ofRat_zero] at this

theorem mul_le_mul_right [f.Ok] {x y c : Fl f} (h : le x y = true) (hc : NonNeg c)
    (hn : NN (mul x c)) (hn' : NN (mul y c)) : le (mul x c) (mul y c) = true := by
  cases c with
  | nan => simp [NonNeg, le] at hc
  | inf s =>
    have : s = false := by cases s <;> simp_all [NonNeg, le]
    subst this
    cases x with
    | nan => simp [le] at h
    | inf s =>
      cases s
      · have : y = inf false := by cases y <;> simp_all [le]
        subst this
        exact le_refl hn
      · exact bot_le hn'
    | fin v a =>
      have hv : v ≠ 0 := by rintro rfl; simp [mul] at hn
      cases y with
      | nan => simp [le] at h
      | inf t =>
        have : t = false := by cases t <;> simp_all [le]
        subst this
        exact top_le hn
      | fin w b =>
        have hw : w ≠ 0 := by rintro rfl; simp [mul] at hn'
        simp only [le, decide_eq_true_eq] at h
        simp only [mul, hv, hw, if_false, signbit, Bool.false_xor, le]
        by_cases h0 : v < 0
        · simp [h0]
        · have : ¬ w < 0 := by linarith [not_lt.mp h0]
          simp [this]
  | fin u c =>
    rw [nonNeg_fin] at hc
    cases x with
    | nan => simp [le] at h
    | inf s =>
      have hu : u ≠ 0 := by rintro rfl; simp [mul] at hn
      have hu' : ¬ u < 0 := not_lt.mpr hc
      cases s
      · have : y = inf false := by cases y <;> simp_all [le]
        subst this
        exact le_refl hn
      · have : mul (inf true) (fin u c) = (inf true : Fl f) := by
          simp [mul, hu, signbit, hu']
        rw [this]
        exact bot_le hn'
    | fin v a =>
      cases y with
      | nan => simp [le] at h
      | inf t =>
        have hu : u ≠ 0 := by rintro rfl; simp [mul] at hn'
        have hu' : ¬ u < 0 := not_lt.mpr hc
        have : t = false := by cases t <;> simp_all [le]
        subst this
        have : mul (inf false) (fin u c) = (inf false : Fl f) := by
          simp [mul, hu, signbit, hu']
        rw [this]
        exact top_le hn
      | fin w b =>
        simp only [le, decide_eq_true_eq] at h
        simp only [mul]
        apply ofRat_mono
        exact mul_le_mul_of_nonneg_right h hc

theorem mul_le_mul_left [f.Ok] {x y c : Fl f} (h : le x y = true) (hc : NonNeg c)
    (hn : NN (mul c x)) (hn' : NN (mul c y)) : le (mul c x) (mul c y) = true := by
  rw [mul_comm c x] at *
  rw [mul_comm c y] at *
  exact mul_le_mul_right h hc hn hn'

theorem mul_neg_right (x c : Fl f) (h : WF x) (h' : WF c) : mul x (neg c) = neg (mul x c) := by
  have key : ∀ (q : ℚ) (z : Bool), ofRat f (-q) (!z) = neg (ofRat f q z) := by
    intro q z
    unfold ofRat
    simp only [rnd_neg, abs_neg]
    split
    · rename_i h
      have hq : q ≠ 0 := by
        rintro rfl
        rw [rnd_zero, abs_zero] at h
        have := pow2_pos f.emax
        linarith
      simp only [neg]
      congr 1
      rcases lt_or_gt_of_ne hq with h | h
      · have : ¬ (-q < 0) := by linarith
        simp [h, this]
      · have : ¬ (q < 0) := by linarith
        simp [h, this]
    · simp only [neg, neg_eq_zero]
      congr 1
      by_cases hr : rnd f q = 0
      · simp only [hr, decide_true, Bool.true_and]
        by_cases hq : q = 0
        · simp [hq]
        · rcases lt_or_gt_of_ne hq with h | h
          · have : ¬ (-q < 0) := by linarith
            simp [h, this, hq]
          · have : ¬ (q < 0) := by linarith
            simp [h, this, hq]
      · simp [hr]
  have sb : ∀ (v : ℚ) (a : Bool), signbit (fin (-v) (decide (v = 0) && !a) : Fl f) = !signbit (fin v a : Fl f) := by
    intro v a
    simp only [signbit, neg_eq_zero]
    by_cases hv : v = 0
    · simp [hv]
    · rcases lt_or_gt_of_ne hv with h | h
      · have : ¬ (-v < 0) := by linarith
        simp [h, this, hv]
      · have : ¬ (v < 0) := by linarith
        simp [h, this, hv]
  cases x with
  | nan => cases c <;> simp [mul, neg]
  | inf s =>
    cases c with
    | nan => simp [mul, neg]
    | inf t => simp [mul, neg]
    | fin w b =>
      simp only [neg, mul, neg_eq_zero, sb]
      split <;> simp [neg]
  | fin v a =>
    cases c with
    | nan => simp [mul, neg]
    | inf t =>
      simp only [neg, mul]
      split <;> simp [neg]
    | fin w b =>
      simp only [neg, mul, sb]
      rw [mul_neg, Bool.xor_not, key]
      rfl

/-! ### division -/

theorem div_wf {x y : Fl f} : WF (div x y) := by
  have h0 : ∀ z, WF (fin 0 z : Fl f) := fun z => ⟨Rep.zero, by simpa using pow2_pos _, by simp⟩
  cases x <;> cases y <;> simp only [div] <;> try trivial
  · exact h0 _
  · split
    · split <;> trivial
    · exact ofRat_wf _ _

theorem div_fin_nn {x : Fl f} (hx : NN x) {v : ℚ} (hv : v ≠ 0) (b : Bool) : NN (div x (fin v b)) := by
  cases x with
  | nan => simp at hx
  | inf s => simp [div]
  | fin w a => simp only [div, hv, if_false]; exact ofRat_nn _ _

/-- Division by a positive finite value is monotone. -/
theorem div_le_div_right [f.Ok] {x y : Fl f} (h : le x y = true) {v : ℚ} (hv : 0 < v) (b : Bool) :
    le (div x (fin v b)) (div y (fin v b)) = true := by
  have hv' : ¬ v < 0 := not_lt.mpr hv.le
  cases x with
  | nan => simp [le] at h
  | inf s =>
    cases s
    · have : y = inf false := by cases y <;> simp_all [le]
      subst this
      exact le_refl (by simp [div])
    · have : div (inf true) (fin v b) = (inf true : Fl f) := by
        simp [div, signbit, hv.ne', hv']
      rw [this]
      exact bot_le (div_fin_nn (le_nn h).2 hv.ne' _)
  | fin u a =>
    cases y with
    | nan => simp [le] at h
    | inf t =>
      have : t = false := by cases t <;> simp_all [le]
      subst this
      have : div (inf false) (fin v b) = (inf false : Fl f) := by
        simp [div, signbit, hv.ne', hv']
      rw [this]
      exact top_le (div_fin_nn (by simp) hv.ne' _)
    | fin w c =>
      simp only [le, decide_eq_true_eq] at h
      simp only [div, hv.ne', if_false]
      exact ofRat_mono (div_le_div_of_nonneg_right h hv.le) _ _

/-- Division of a nonnegative finite value by larger positive values gives smaller results. -/
theorem div_le_div_left [f.Ok] {x y : Fl f} {v : ℚ} {b : Bool} (hv : 0 ≤ v)
    (hx : lt (fin 0 false) x = true) (h : le x y = true) :
    le (div (fin v b) y) (div (fin v b) x) = true := by
  cases x with
  | nan => simp [lt] at hx
  | inf s =>
    have : s = false := by cases s <;> simp_all [lt]
    subst this
    have : y = inf false := by cases y <;> simp_all [le]
    subst this
    exact le_refl (by simp [div])
  | fin u a =>
    have hu : 0 < u := by simpa [lt] using hx
    cases y with
    | nan => simp [le] at h
    | inf t =>
      have : t = false := by cases t <;> simp_all [le]
      subst this
      simp only [div, hu.ne', if_false]
      have := ofRat_nonneg (f := f) (q := v / u) (by positivity)
        (signbit (fin v b : Fl f) ^^ signbit (fin u a : Fl f))
      rcases hc : ofRat f (v / u) (signbit (fin v b : Fl f) ^^ signbit (fin u a : Fl f)) with _ | s | ⟨w, c⟩ <;>
        rw [hc] at this <;> simp_all [le, NonNeg]
    | fin w c =>
      simp only [le, decide_eq_true_eq] at h
      have hw : 0 < w := hu.trans_le h
      simp only [div, hu.ne', hw.ne', if_false]
      apply ofRat_mono
      exact div_le_div_of_nonneg_left hv hu h

theorem div_nonneg [f.Ok] {x : Fl f} (hx : NonNeg x) {v : ℚ} (hv : 0 < v) (b : Bool) :
    NonNeg (div x (fin v b)) := by
  have := div_le_div_right hx hv b
  rwa [show div (fin 0 false) (fin v b) = (fin 0 false : Fl f) by
    have hv' : ¬ v < 0 := not_lt.mpr hv.le
    simp [div, hv.ne', signbit, ofRat_zero, hv']] at this

theorem mul_nonneg [f.Ok] {x y : Fl f} (hx : NonNeg x) (hy : NonNeg y) (hn : NN (mul x y)) :
    NonNeg (mul x y) := by
  cases x with
  | nan => simp [NonNeg, le] at hx
  | inf s =>
    have : s = false := by cases s <;> simp_all [NonNeg, le]
    subst this
    cases y with
    | nan => simp [NonNeg, le] at hy
    | inf t => cases t <;> simp_all [NonNeg, le, mul]
    | fin w b =>
      rw [nonNeg_fin] at hy
      have hw : w ≠ 0 := by rintro rfl; simp [mul] at hn
      have hw' : ¬ w < 0 := not_lt.mpr hy
      simp [mul, hw, signbit, hw', NonNeg, le]
  | fin v a =>
    rw [nonNeg_fin] at hx
    cases y with
    | nan => simp [NonNeg, le] at hy
    | inf t =>
      have : t = false := by cases t <;> simp_all [NonNeg, le]
      subst this
      have hv : v ≠ 0 := by rintro rfl; simp [mul] at hn
      have hv' : ¬ v < 0 := not_lt.mpr hx
      simp [mul, hv, signbit, hv', NonNeg, le]
    | fin w b =>
      rw [nonNeg_fin] at hy
      exact ofRat_nonneg (by positivity) _

theorem add_nonneg [f.Ok] {x y : Fl f} (hx : NonNeg x) (hy : NonNeg y) : NonNeg (add x y) := by
  cases x with
  | nan => simp [NonNeg, le] at hx
  | inf s =>
    have : s = false := by cases s <;> simp_all [NonNeg, le]
    subst this
    cases y with
    | nan => simp [NonNeg, le] at hy
    | inf t => cases t <;> simp_all [NonNeg, le, add]
    | fin w b => simp [add, NonNeg, le]
  | fin v a =>
    rw [nonNeg_fin] at hx
    cases y with
    | nan => simp [NonNeg, le] at hy
    | inf t =>
      have : t = false := by cases t <;> simp_all [NonNeg, le]
      subst this
      simp [add, NonNeg, le]
    | fin w b =>
      rw [nonNeg_fin] at hy
      exact ofRat_nonneg (by positivity) _

/-! ### conversion -/

theorem cvt_wf {g : Fmt} {x : Fl f} : WF (cvt g x) := by
  cases x <;> simp only [cvt] <;> first | trivial | exact ofRat_wf _ _

theorem cvt_nn {g : Fmt} {x : Fl f} : NN (cvt g x) ↔ NN x := by
  cases x <;> simp [cvt, ofRat_nn]

theorem cvt_mono {g : Fmt} [g.Ok] {x y : Fl f} (h : le x y = true) :
    le (cvt g x) (cvt g y) = true := by
  cases x with
  | nan => simp [le] at h
  | inf s =>
    cases s
    · have : y = inf false := by cases y <;> simp_all [le]
      subst this
      simp [cvt, le]
    · exact bot_le (cvt_nn.mpr (le_nn h).2)
  | fin v a =>
    cases y with
    | nan => simp [le] at h
    | inf t =>
      have : t = false := by cases t <;> simp_all [le]
      subst this
      exact top_le (cvt_nn.mpr (by simp))
    | fin w b =>
      simp only [le, decide_eq_true_eq] at h
      exact ofRat_mono h _ _

/-! ### the interface operations -/

theorem go_add (x y : Fl f) : GoFloat.add x y = add x y := rfl
theorem go_sub (x y : Fl f) : GoFloat.sub x y = sub x y := rfl
theorem go_mul (x y : Fl f) : GoFloat.mul x y = mul x y := rfl
theorem go_div (x y : Fl f) : GoFloat.div x y = div x y := rfl
theorem go_neg (x : Fl f) : GoFloat.neg x = neg x := rfl
theorem go_lt (x y : Fl f) : GoFloat.lt x y = lt x y := rfl
theorem go_le (x y : Fl f) : GoFloat.le x y = le x y := rfl
theorem go_eq (x y : Fl f) : GoFloat.eq x y = eq x y := rfl
theorem go_lit (q : ℚ) : (GoFloat.lit q : Fl f) = ofRat f q false := rfl
theorem lit_nn (q : ℚ) : NN (GoFloat.lit q : Fl f) := ofRat_nn q false
theorem ofInt_nn (n : Int) : NN (GoFloat.ofInt n : Fl f) := ofRat_nn _ false
theorem go_ofInt (n : Int) : (GoFloat.ofInt n : Fl f) = ofRat f (n : ℚ) false := rfl
theorem go_isNaN (x : Fl f) : GoFloat.isNaN x = isNaN x := rfl
theorem go_isPosInf (x : Fl f) : GoFloat.isPosInf x = isPosInf x := rfl
theorem go_isNegInf (x : Fl f) : GoFloat.isNegInf x = isNegInf x := rfl
theorem go_signbit (x : Fl f) : GoFloat.signbit x = signbit x := rfl
theorem go_nan : (GoFloat.nan : Fl f) = nan := rfl
theorem go_inf (s : Bool) : (GoFloat.inf s : Fl f) = inf s := rfl

/-- `math.Max` on non-NaN values is one of its arguments and an upper bound of both. -/
theorem fmax_spec [f.Ok] {x y : Fl f} (hx : NN x) (hy : NN y) :
    le x (fmax x y) = true ∧ le y (fmax x y) = true ∧ (fmax x y = x ∨ fmax x y = y) := by
  unfold fmax
  simp only [go_isPosInf, go_isNaN, go_inf, go_nan, go_eq, go_lt, go_signbit, go_lit, ofRat_zero]
  have h1 : isNaN x = false := (isNaN_false_iff x).mpr hx
  have h2 : isNaN y = false := (isNaN_false_iff y).mpr hy
  rw [h1, h2]
  split
  · rename_i h
    refine ⟨top_le hx, top_le hy, ?_⟩
    simp only [Bool.or_eq_true] at h
    rcases h with h | h
    · left; cases x with
      | inf s => cases s <;> simp_all [isPosInf]
      | _ => simp [isPosInf] at h
    · right; cases y with
      | inf s => cases s <;> simp_all [isPosInf]
      | _ => simp [isPosInf] at h
  · simp only [Bool.or_self, Bool.false_eq_true, if_false]
    split
    · rename_i h
      simp only [Bool.and_eq_true] at h
      have h' := eq_iff_le.mp h.2
      split
      · exact ⟨h'.1, le_refl hy, .inr rfl⟩
      · exact ⟨le_refl hx, h'.2, .inl rfl⟩
    · split
      · rename_i h
        exact ⟨le_refl hx, le_of_lt h, .inl rfl⟩
      · rename_i h
        have h : lt y x = false := by simpa using h
        exact ⟨le_of_not_lt hx hy h, le_refl hy, .inr rfl⟩

/-- `math.Min` on non-NaN values. -/
theorem fmin_spec [f.Ok] {x y : Fl f} (hx : NN x) (hy : NN y) :
    le (fmin x y) x = true ∧ le (fmin x y) y = true ∧ (fmin x y = x ∨ fmin x y = y) := by
  unfold fmin
  simp only [go_isNegInf, go_isNaN, go_inf, go_nan, go_eq, go_lt, go_signbit, go_lit, ofRat_zero]
  have h1 : isNaN x = false := (isNaN_false_iff x).mpr hx
  have h2 : isNaN y = false := (isNaN_false_iff y).mpr hy
  rw [h1, h2]
  split
  · rename_i h
    refine ⟨bot_le hx, bot_le hy, ?_⟩
    simp only [Bool.or_eq_true] at h
    rcases h with h | h
    · left; cases x with
      | inf s => cases s <;> simp_all [isNegInf]
      | _ => simp [isNegInf] at h
    · right; cases y with
      | inf s => cases s <;> simp_all [isNegInf]
      | _ => simp [isNegInf] at h
  · simp only [Bool.or_self, Bool.false_eq_true, if_false]
    split
    · rename_i h
      simp only [Bool.and_eq_true] at h
      have h' := eq_iff_le.mp h.2
      split
      · exact ⟨le_refl hx, h'.1, .inl rfl⟩
      · exact ⟨h'.2, le_refl hy, .inr rfl⟩
    · split
      · rename_i h
        exact ⟨le_refl hx, le_of_lt h, .inl rfl⟩
      · rename_i h
        have h : lt x y = false := by simpa using h
        exact ⟨le_of_not_lt hy hx h, le_refl hy, .inr rfl⟩

theorem fmax_nn [f.Ok] {x y : Fl f} (hx : NN x) (hy : NN y) : NN (fmax x y) :=
  (le_nn (fmax_spec hx hy).1).2

theorem fmin_nn [f.Ok] {x y : Fl f} (hx : NN x) (hy : NN y) : NN (fmin x y) :=
  (le_nn (fmin_spec hx hy).1).1

theorem fmin_mono [f.Ok] {x y x' y' : Fl f} (h1 : le x x' = true) (h2 : le y y' = true) :
    le (fmin x y) (fmin x' y') = true := by
  have ⟨a, b, _⟩ := fmin_spec (le_nn h1).1 (le_nn h2).1
  have ⟨_, _, c⟩ := fmin_spec (le_nn h1).2 (le_nn h2).2
  rcases c with c | c <;> rw [c]
  · exact le_trans a h1
  · exact le_trans b h2

theorem fmax_mono [f.Ok] {x y x' y' : Fl f} (h1 : le x x' = true) (h2 : le y y' = true) :
    le (fmax x y) (fmax x' y') = true := by
  have ⟨_, _, c⟩ := fmax_spec (le_nn h1).1 (le_nn h2).1
  have ⟨a, b, _⟩ := fmax_spec (le_nn h1).2 (le_nn h2).2
  rcases c with c | c <;> rw [c]
  · exact le_trans h1 a
  · exact le_trans h2 b

theorem fmax_nan_left (y : Fl f) (h : isPosInf y = false) : fmax nan y = nan := by
  unfold fmax
  simp only [go_isPosInf, go_isNaN]
  rw [h]
  simp [isPosInf, isNaN, go_nan]

theorem fmax_nan_right (x : Fl f) (h : isPosInf x = false) : fmax x nan = nan := by
  unfold fmax
  simp only [go_isPosInf, go_isNaN]
  rw [h]
  simp [isPosInf, isNaN, go_nan]

theorem fmin_nan_right (x : Fl f) (h : isNegInf x = false) : fmin x nan = nan := by
  unfold fmin
  simp only [go_isNegInf, go_isNaN]
  rw [h]
  simp [isNegInf, isNaN, go_nan]

theorem fmin_nan_left (y : Fl f) (h : isNegInf y = false) : fmin nan y = nan := by
  unfold fmin
  simp only [go_isNegInf, go_isNaN]
  rw [h]
  simp [isNegInf, isNaN, go_nan]

end Fl
end Go
