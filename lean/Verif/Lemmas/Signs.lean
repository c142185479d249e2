import Verif.Lemmas.DiffObjects
import Verif.Lemmas.PeakGrowth
import Verif.Spec.Signs

/-! Signs: no strain is negative. -/

namespace GosuPP.Fl
open Go Go.Fl Spec
variable {f : Fmt}

/-- A possible divisor: NaN or nonnegative, and not `-0`. -/
def Dn (x : Fl f) : Prop := NN0 x ∧ x ≠ fin 0 true

/-- NaN or at most one. -/
def Le1 (x : Fl f) : Prop := NN x → Fl.le x (fin 1 false) = true

theorem nn0_nan : NN0 (.nan : Fl f) := fun h => absurd rfl h
theorem nn0_fin {v : ℚ} {b : Bool} : NN0 (fin v b : Fl f) ↔ 0 ≤ v := by
  unfold NN0; rw [nonNeg_fin]; simp
theorem nn0_inf {s : Bool} : NN0 (.inf s : Fl f) ↔ s = false := by
  unfold NN0 NonNeg; cases s <;> simp [NN, Fl.le]

theorem fmax_cases [f.Ok] (x y : Fl f) : fmax x y = x ∨ fmax x y = y ∨ fmax x y = .nan := by
  by_cases hx : NN x
  · by_cases hy : NN y
    · rcases (fmax_spec hx hy).2.2 with h | h <;> simp [h]
    · have hy : y = .nan := not_not.mp hy
      subst hy
      by_cases hp : isPosInf x = true
      · left
        have : x = .inf false := by cases x with
          | inf s => cases s <;> simp_all [isPosInf]
          | _ => simp [isPosInf] at hp
        subst this; rfl
      · right; right; exact fmax_nan_right x (by simpa using hp)
  · have hx : x = .nan := not_not.mp hx
    subst hx
    by_cases hp : isPosInf y = true
    · right; left
      have : y = .inf false := by cases y with
        | inf s => cases s <;> simp_all [isPosInf]
        | _ => simp [isPosInf] at hp
      subst this; rfl
    · right; right; exact fmax_nan_left y (by simpa using hp)

theorem fmin_cases [f.Ok] (x y : Fl f) : fmin x y = x ∨ fmin x y = y ∨ fmin x y = .nan := by
  unfold fmin
  simp only [go_isNegInf, go_isNaN, go_inf, go_nan, go_eq, go_lt, go_signbit, go_lit, ofRat_zero]
  split
  · rename_i h
    rw [Bool.or_eq_true] at h
    rcases h with h | h
    · left; cases x with
        | inf s => cases s <;> simp_all [isNegInf]
        | _ => simp [isNegInf] at h
    · right; left; cases y with
        | inf s => cases s <;> simp_all [isNegInf]
        | _ => simp [isNegInf] at h
  · split
    · simp
    · split
      · split <;> simp
      · split <;> simp

theorem NN0.fmax [f.Ok] {x y : Fl f} (hx : NN0 x) (hy : NN0 y) : NN0 (fmax x y) := by
  rcases fmax_cases x y with h | h | h <;> rw [h] <;> first | assumption | exact nn0_nan
theorem NN0.fmin [f.Ok] {x y : Fl f} (hx : NN0 x) (hy : NN0 y) : NN0 (fmin x y) := by
  rcases fmin_cases x y with h | h | h <;> rw [h] <;> first | assumption | exact nn0_nan
theorem dn_nan : Dn (.nan : Fl f) := ⟨nn0_nan, by simp⟩
theorem Dn.fmax [f.Ok] {x y : Fl f} (hx : Dn x) (hy : Dn y) : Dn (fmax x y) := by
  rcases fmax_cases x y with h | h | h <;> rw [h] <;> first | assumption | exact dn_nan
theorem Dn.fmin [f.Ok] {x y : Fl f} (hx : Dn x) (hy : Dn y) : Dn (fmin x y) := by
  rcases fmin_cases x y with h | h | h <;> rw [h] <;> first | assumption | exact dn_nan

theorem nn0_fmax_zero [f.Ok] (x : Fl f) : NN0 (fmax (lit 0) x) := atLeast_zero.mp (atLeast_fmax_left x 0)

theorem ofRat_ne_negzero {q : ℚ} (h : 0 ≤ q) : ofRat f q false ≠ fin 0 true := by
  unfold ofRat
  simp only
  split
  · simp
  · intro hc
    simp only [Fl.fin.injEq, Bool.and_eq_true] at hc
    have h2 := hc.2.2
    split at h2
    · cases h2
    · simp at h2; linarith

theorem dn_ofRat [f.Ok] {q : ℚ} (h : 0 ≤ q) : Dn (ofRat f q false) :=
  ⟨fun _ => ofRat_nonneg h _, ofRat_ne_negzero h⟩

theorem dn_lit [f.Ok] {q : ℚ} (h : 0 ≤ q) : Dn (lit q : Fl f) := dn_ofRat h
theorem nn0_lit [f.Ok] {q : ℚ} (h : 0 ≤ q) : NN0 (lit q : Fl f) := (dn_lit h).1
theorem dn_ofInt [f.Ok] {n : Int} (h : 0 ≤ n) : Dn (ofInt n : Fl f) := dn_ofRat (by exact_mod_cast h)

theorem Dn.signbit {x : Fl f} (h : Dn x) : Go.Fl.signbit x = false := by
  cases x with
  | nan => rfl
  | inf s => rw [Dn, nn0_inf] at h; rw [h.1]; rfl
  | fin v b =>
    rw [Dn, nn0_fin] at h
    show (if v = 0 then b else decide (v < 0)) = false
    split
    · rename_i hv
      subst hv
      cases b
      · rfl
      · exact absurd rfl h.2
    · simp [h.1]

theorem NN0.div [f.Ok] {x y : Fl f} (hx : NN0 x) (hy : Dn y) : NN0 (Go.Fl.div x y) := by
  have hsy := hy.signbit
  cases x with
  | nan => exact nn0_nan
  | inf s =>
    rw [nn0_inf] at hx
    subst hx
    cases y with
    | nan => exact nn0_nan
    | inf t => exact nn0_nan
    | fin w c => simp only [Go.Fl.div]; rw [hsy, nn0_inf]; rfl
  | fin v b =>
    rw [nn0_fin] at hx
    cases y with
    | nan => exact nn0_nan
    | inf t => simp only [Go.Fl.div]; rw [nn0_fin]
    | fin w c =>
      have hw : 0 ≤ w := nn0_fin.mp hy.1
      simp only [Go.Fl.div]
      split
      · split
        · exact nn0_nan
        · rename_i hv
          have : 0 < v := lt_of_le_of_ne hx (Ne.symm hv)
          rw [hsy, nn0_inf]
          simp [Go.Fl.signbit, hv, hx]
      · exact fun _ => ofRat_nonneg (_root_.div_nonneg hx hw) _

theorem Dn.div [f.Ok] {x y : Fl f} (hx : Dn x) (hy : Dn y) : Dn (Go.Fl.div x y) := by
  refine ⟨hx.1.div hy, ?_⟩
  have hsx := hx.signbit
  have hsy := hy.signbit
  cases x with
  | nan => simp [Go.Fl.div]
  | inf s => cases y <;> simp [Go.Fl.div]
  | fin v b =>
    cases y with
    | nan => simp [Go.Fl.div]
    | inf t =>
      have : t = false := nn0_inf.mp hy.1
      subst this
      simp only [Go.Fl.div]; rw [hsx]; simp
    | fin w c =>
      simp only [Go.Fl.div]
      split
      · split <;> simp
      · rw [hsx, hsy]
        exact ofRat_ne_negzero (_root_.div_nonneg (nn0_fin.mp hx.1) (nn0_fin.mp hy.1))

theorem atLeast_nn0 [f.Ok] {q : ℚ} {x : Fl f} (hq : 0 ≤ q) (h : AtLeast (lit q) x) : NN0 x := by
  rw [atLeast_iff] at h
  intro hn
  refine Fl.le_trans ?_ (h hn)
  exact ofRat_nonneg hq _

/-- Numbers of at least 25 are divisors. -/
theorem atLeast_dn {x : F64} (h : AtLeast (lit 25) x) : Dn x := by
  refine ⟨atLeast_nn0 (by norm_num) h, ?_⟩
  rintro rfl
  rw [atLeast_iff] at h
  exact absurd (h (by simp)) (by decide +kernel)

theorem le1_iff {x : F64} : AtMost (lit 1) x ↔ Le1 x := by
  have e : (lit 1 : F64) = fin 1 false := by decide +kernel
  unfold AtMost Le1
  rw [go_isNaN, go_le, isNaN_iff, e]
  constructor
  · rintro (h | h) hn
    · exact absurd h hn
    · exact h
  · intro h
    by_cases hx : x = .nan
    · exact .inl hx
    · exact .inr (h hx)

theorem le1_fmin_left [f.Ok] {x y : Fl f} (hx : Le1 x) : Le1 (fmin x y) := by
  intro hn
  by_cases hx' : NN x
  · by_cases hy' : NN y
    · exact Fl.le_trans (fmin_spec hx' hy').1 (hx hx')
    · have : y = .nan := not_not.mp hy'
      subst this
      rcases fmin_cases x .nan with h | h | h
      · rw [h]; exact hx hx'
      · rw [h] at hn; exact absurd rfl hn
      · rw [h] at hn; exact absurd rfl hn
  · have : x = .nan := not_not.mp hx'
    subst this
    unfold Go.fmin at hn ⊢
    simp only [go_isNegInf, go_isNaN, go_inf, go_nan] at hn ⊢
    split
    · rfl
    · rename_i h
      rw [if_neg h] at hn
      exact absurd (by simp [Go.Fl.isNaN]) hn

theorem le1_fmin_right [f.Ok] {x y : Fl f} (hy : Le1 y) : Le1 (fmin x y) := by
  intro hn
  by_cases hx' : NN x
  · by_cases hy' : NN y
    · exact Fl.le_trans (fmin_spec hx' hy').2.1 (hy hy')
    · have : y = .nan := not_not.mp hy'
      subst this
      unfold Go.fmin at hn ⊢
      simp only [go_isNegInf, go_isNaN, go_inf, go_nan] at hn ⊢
      split
      · rfl
      · rename_i h
        rw [if_neg h] at hn
        exact absurd (by simp [Go.Fl.isNaN]) hn
  · have : x = .nan := not_not.mp hx'
    subst this
    rcases fmin_cases .nan y with h | h | h
    · rw [h] at hn; exact absurd rfl hn
    · rw [h]
      rw [h] at hn
      exact hy hn
    · rw [h] at hn; exact absurd rfl hn

theorem lit_one_eq : (lit 1 : F64) = fin 1 false := by decide +kernel

/-- `1 - x` is nonnegative when `x` is at most one. -/
theorem one_sub_nn0 {x : F64} (h : Le1 x) : NN0 (lit 1 -. x) := by
  rw [lit_one_eq, go_sub]
  cases x with
  | nan => exact nn0_nan
  | inf s =>
    have := h (by simp [NN])
    cases s
    · cases this
    · exact nn0_inf.mpr rfl
  | fin v b =>
    have h1 := h (by simp)
    simp only [Go.Fl.le, decide_eq_true_eq] at h1
    exact fun _ => ofRat_nonneg (by show 0 ≤ 1 + -v; linarith) _

theorem one_sub_le1 {x : F64} (h : NN0 x) : Le1 (lit 1 -. x) := by
  rw [lit_one_eq, go_sub]
  have e1 : ofRat fmt64 1 false = fin 1 false := by decide +kernel
  cases x with
  | nan => exact fun h => absurd rfl h
  | inf s =>
    rw [nn0_inf] at h
    subst h
    exact fun _ => rfl
  | fin v b =>
    rw [nn0_fin] at h
    intro _
    have := ofRat_mono (f := fmt64) (show 1 + -v ≤ 1 by linarith)
      (Go.Fl.signbit (fin 1 false : F64) && Go.Fl.signbit (Go.Fl.neg (fin v b : F64))) false
    rw [e1] at this
    exact this

theorem nn0_congr {x y : F64} (h : NN0 x) (e : y = x) : NN0 y := e ▸ h

/-- Interpolating from `p` down towards `c` never goes below zero. -/
theorem lerp_dn {p c w : F64} (hp : WF p) (hc : AtLeast (lit 25) c) (hcw : (c <. w) = true)
    (hpc : (p >. c) = true) : Dn (lerpF64 p c (c /. w)) := by
  have hc0 := atLeast_dn hc
  unfold lerpF64
  rw [go_lt] at hcw hpc
  rw [go_add, go_mul, go_sub, go_div]
  cases c with
  | nan => cases hcw
  | inf s =>
    have : s = false := nn0_inf.mp hc0.1
    subst this
    cases w with
    | nan => cases hcw
    | inf t => cases t <;> cases hcw
    | fin => cases hcw
  | fin cv cb =>
    have hcv : 0 ≤ cv := nn0_fin.mp hc0.1
    cases p with
    | nan => cases hpc
    | inf s =>
      cases s
      · -- the previous interval is infinite: the result is NaN
        have key : ∀ r : F64, Dn (Go.Fl.add (.inf false) (Go.Fl.mul (Go.Fl.sub (fin cv cb) (.inf false)) r)) ∨ Go.Fl.signbit r = true := by
          intro r
          cases r with
          | nan => exact .inl dn_nan
          | inf t =>
            cases t
            · exact .inl dn_nan
            · exact .inr rfl
          | fin v b =>
            by_cases hv : v = 0
            · left; subst hv; exact dn_nan
            · by_cases hs : Go.Fl.signbit (fin v b : F64) = true
              · exact .inr hs
              · left
                have : Go.Fl.mul (Go.Fl.sub (fin cv cb) (.inf false)) (fin v b : F64) = .inf true := by
                  show (if v = 0 then (.nan : F64) else .inf (true ^^ Go.Fl.signbit (fin v b : F64))) = _
                  rw [if_neg hv, Bool.not_eq_true _ |>.mp hs]; rfl
                rw [this]; exact dn_nan
        rcases key (Go.Fl.div (fin cv cb) w) with h | h
        · exact h
        · have hw : Dn w := by
            cases w with
            | nan => cases hcw
            | inf t =>
              cases t
              · exact ⟨nn0_inf.mpr rfl, by simp⟩
              · cases hcw
            | fin wv wb =>
              rw [lt_fin_iff] at hcw
              exact ⟨nn0_fin.mpr (by linarith), by intro e; cases e; linarith⟩
          rw [(hc0.div hw).signbit] at h
          cases h
      · cases hpc
    | fin pv pb =>
      rw [lt_fin_iff] at hpc
      have hpv : 0 < pv := by linarith
      -- the ratio is between 0 and 1
      obtain ⟨rv, rb, hr, hr0, hr1⟩ : ∃ rv rb, Go.Fl.div (fin cv cb) w = fin rv rb ∧ 0 ≤ rv ∧ rv ≤ 1 := by
        cases w with
        | nan => cases hcw
        | inf t => exact ⟨0, _, rfl, by norm_num, by norm_num⟩
        | fin wv wb =>
          rw [lt_fin_iff] at hcw
          have hwv : 0 < wv := by linarith
          have e : Go.Fl.div (fin cv cb : F64) (fin wv wb) =
              ofRat fmt64 (cv / wv) (Go.Fl.signbit (fin cv cb : F64) ^^ Go.Fl.signbit (fin wv wb : F64)) := by
            simp only [Go.Fl.div]; rw [if_neg (ne_of_gt hwv)]
          rw [e]
          generalize (Go.Fl.signbit (fin cv cb : F64) ^^ Go.Fl.signbit (fin wv wb : F64)) = z
          have hb0 : NonNeg (ofRat fmt64 (cv / wv) z) := ofRat_nonneg (by positivity) _
          have hb1 : Fl.le (ofRat fmt64 (cv / wv) z) (fin 1 false) = true := by
            have e1 : ofRat fmt64 1 false = fin 1 false := by decide +kernel
            rw [← e1]
            exact ofRat_mono (by rw [div_le_one hwv]; exact hcw.le) _ _
          obtain ⟨v, b, hv⟩ := Fin.of_le hb0 hb1 ⟨_, _, rfl⟩
          rw [hv] at hb0 hb1 ⊢
          rw [nonNeg_fin] at hb0
          simp only [Go.Fl.le, decide_eq_true_eq] at hb1
          exact ⟨v, b, rfl, hb0, hb1⟩
      rw [hr]
      have hbound : ∀ q : ℚ, -pv ≤ q → q ≤ 0 → ∀ z, ∃ v b, ofRat fmt64 q z = fin v b ∧ -pv ≤ v ∧ v ≤ 0 := by
        intro q h1 h2 z
        have hrep := (neg_wf hp)
        have e : ofRat fmt64 (-pv) false = fin (-pv) (decide (-pv = 0) && false) := by
          refine ofRat_of_rep hrep.1 ?_ _
          exact hrep.2.1
        have l1 := ofRat_mono (f := fmt64) h1 false z
        have l2 := ofRat_nonpos (f := fmt64) h2 z
        rw [e] at l1
        cases ho : ofRat fmt64 q z with
        | nan => exact absurd ho (ofRat_nn q z)
        | inf s =>
          rw [ho] at l1 l2
          cases s
          · cases l2
          · cases l1
        | fin v b =>
          rw [ho] at l1 l2
          simp only [Go.Fl.le, decide_eq_true_eq] at l1 l2
          exact ⟨v, b, rfl, l1, l2⟩
      obtain ⟨dv, db, hd, hd1, hd2⟩ : ∃ dv db, Go.Fl.sub (fin cv cb) (fin pv pb : F64) = fin dv db ∧ -pv ≤ dv ∧ dv ≤ 0 := by
        show ∃ dv db, ofRat fmt64 (cv + -pv) _ = _ ∧ _
        exact hbound _ (by linarith) (by linarith) _
      rw [hd]
      obtain ⟨ev, eb, he, he1, he2⟩ : ∃ ev eb, Go.Fl.mul (fin dv db) (fin rv rb : F64) = fin ev eb ∧ -pv ≤ ev ∧ ev ≤ 0 := by
        show ∃ dv db, ofRat fmt64 (_ * _) _ = _ ∧ _
        exact hbound _ (by nlinarith) (by nlinarith) _
      rw [he]
      have hs : Go.Fl.signbit (fin pv pb : F64) = false := by
        simp [Go.Fl.signbit, hpv.ne', hpv.le]
      have e : Go.Fl.add (fin pv pb : F64) (fin ev eb) = ofRat fmt64 (pv + ev) false := by
        simp only [Go.Fl.add]; rw [hs]; rfl
      rw [e]
      exact dn_ofRat (by linarith)

end GosuPP.Fl
