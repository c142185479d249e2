import Verif.Go.ExactLibm
import Verif.Spec.Order
import Verif.Lemmas.Peaks
import Verif.Model.DifficultyCalc
import Mathlib.Tactic.Linarith
import Mathlib.Tactic.Positivity
import Mathlib.Analysis.SpecialFunctions.Pow.Real

/-! Operations that keep the order of values in exact arithmetic. -/

namespace GosuPP.Exactly
open Go Spec
attribute [local instance] exactLibm

end GosuPP.Exactly

namespace GosuPP.Spec.NoMore
open Go GosuPP
attribute [local instance] exactLibm

variable {x y u v : Option ℝ}

theorem of_some {a b : ℝ} (h0 : 0 ≤ a) (h : a ≤ b) : NoMore (some a) (some b) := .inr ⟨a, b, rfl, rfl, h0, h⟩

theorem const {a : ℝ} (h0 : 0 ≤ a) : NoMore (some a) (some a) := of_some h0 le_rfl

theorem lit {q : ℚ} (h : 0 ≤ q) : NoMore (Go.lit q : Option ℝ) (Go.lit q) := by
  rw [Exact.lit]; exact const (by exact_mod_cast h)

theorem refl_left (h : NoMore x y) : NoMore x x := by
  rcases h with ⟨rfl, rfl⟩ | ⟨a, b, rfl, rfl, h0, h⟩
  · exact .inl ⟨rfl, rfl⟩
  · exact const h0

theorem refl_right (h : NoMore x y) : NoMore y y := by
  rcases h with ⟨rfl, rfl⟩ | ⟨a, b, rfl, rfl, h0, h⟩
  · exact .inl ⟨rfl, rfl⟩
  · exact const (h0.trans h)

theorem trans {z : Option ℝ} (h : NoMore x y) (h' : NoMore y z) : NoMore x z := by
  rcases h with ⟨rfl, rfl⟩ | ⟨a, b, rfl, rfl, h0, h⟩
  · rcases h' with ⟨_, rfl⟩ | ⟨a, b, e, _⟩
    · exact .inl ⟨rfl, rfl⟩
    · cases e
  · rcases h' with ⟨e, _⟩ | ⟨a', b', e, rfl, h0', h'⟩
    · cases e
    · cases e; exact of_some h0 (h.trans h')

theorem add (h : NoMore x y) (k : NoMore u v) : NoMore (x +. u) (y +. v) := by
  rcases h with ⟨rfl, rfl⟩ | ⟨a, b, rfl, rfl, h0, h⟩
  · exact .inl ⟨rfl, rfl⟩
  · rcases k with ⟨rfl, rfl⟩ | ⟨c, d, rfl, rfl, k0, k⟩
    · exact .inl ⟨rfl, rfl⟩
    · rw [Exact.add, Exact.add]; exact of_some (by positivity) (by linarith)

theorem mul (h : NoMore x y) (k : NoMore u v) : NoMore (x *. u) (y *. v) := by
  rcases h with ⟨rfl, rfl⟩ | ⟨a, b, rfl, rfl, h0, h⟩
  · exact .inl ⟨rfl, rfl⟩
  · rcases k with ⟨rfl, rfl⟩ | ⟨c, d, rfl, rfl, k0, k⟩
    · exact .inl ⟨rfl, rfl⟩
    · rw [Exact.mul, Exact.mul]; exact of_some (by positivity) (mul_le_mul h k k0 (h0.trans h))

theorem div {c d : ℝ} (hd : 0 < d) (hcd : d ≤ c) (h : NoMore x y) : NoMore (x /. some c) (y /. some d) := by
  rcases h with ⟨rfl, rfl⟩ | ⟨a, b, rfl, rfl, h0, h⟩
  · have : ∀ e : ℝ, (none : Option ℝ) /. some e = none := fun e => Exact.div_left _
    rw [this, this]; exact .inl ⟨rfl, rfl⟩
  · have hc : 0 < c := hd.trans_le hcd
    rw [Exact.div _ hc.ne', Exact.div _ hd.ne']
    exact of_some (by positivity) (div_le_div₀ (h0.trans h) h hd hcd)

theorem div_lit {q : ℚ} (hq : 0 < q) (h : NoMore x y) : NoMore (x /. Go.lit q) (y /. Go.lit q) := by
  rw [Exact.lit]; exact h.div (by exact_mod_cast hq) le_rfl

theorem sqrt (h : NoMore x y) : NoMore (GoFloat.sqrt x) (GoFloat.sqrt y) := by
  rcases h with ⟨rfl, rfl⟩ | ⟨a, b, rfl, rfl, h0, h⟩
  · exact .inl ⟨rfl, rfl⟩
  · rw [Exact.sqrt h0, Exact.sqrt (h0.trans h)]
    exact of_some (Real.sqrt_nonneg _) (Real.sqrt_le_sqrt h)

theorem pow {q : ℚ} (hq : 0 ≤ q) (h : NoMore x y) : NoMore (GoLibm.pow x (Go.lit q)) (GoLibm.pow y (Go.lit q)) := by
  rcases h with ⟨rfl, rfl⟩ | ⟨a, b, rfl, rfl, h0, h⟩
  · exact .inl ⟨rfl, rfl⟩
  · rw [Exact.lit, Exact.pow, Exact.pow]
    exact of_some (Real.rpow_nonneg h0 _) (Real.rpow_le_rpow h0 h (by exact_mod_cast hq))

theorem cbrt (h : NoMore x y) : NoMore (GoLibm.cbrt x) (GoLibm.cbrt y) := by
  rcases h with ⟨rfl, rfl⟩ | ⟨a, b, rfl, rfl, h0, h⟩
  · exact .inl ⟨rfl, rfl⟩
  · rw [Exact.cbrt h0, Exact.cbrt (h0.trans h)]
    exact of_some (Real.rpow_nonneg h0 _) (Real.rpow_le_rpow h0 h (by norm_num))

theorem fmax_none_left : fmax (none : Option ℝ) x = none := by
  unfold fmax; simp [GoFloat.isPosInf, GoFloat.isNaN]; rfl

theorem fmax_none_right : fmax x (none : Option ℝ) = none := by
  unfold fmax; simp [GoFloat.isPosInf, GoFloat.isNaN]; rfl

theorem fmin_none_left : fmin (none : Option ℝ) x = none := by
  unfold fmin; simp [GoFloat.isNegInf, GoFloat.isNaN]; rfl

theorem fmin_none_right : fmin x (none : Option ℝ) = none := by
  unfold fmin; simp [GoFloat.isNegInf, GoFloat.isNaN]; rfl

theorem fmax (h : NoMore x y) (k : NoMore u v) : NoMore (Go.fmax x u) (Go.fmax y v) := by
  rcases h with ⟨rfl, rfl⟩ | ⟨a, b, rfl, rfl, h0, h⟩
  · rw [fmax_none_left, fmax_none_left]; exact .inl ⟨rfl, rfl⟩
  · rcases k with ⟨rfl, rfl⟩ | ⟨c, d, rfl, rfl, k0, k⟩
    · rw [fmax_none_right, fmax_none_right]; exact .inl ⟨rfl, rfl⟩
    · rw [Exact.fmax, Exact.fmax]; exact of_some (le_max_of_le_left h0) (max_le_max h k)

theorem fmin (h : NoMore x y) (k : NoMore u v) : NoMore (Go.fmin x u) (Go.fmin y v) := by
  rcases h with ⟨rfl, rfl⟩ | ⟨a, b, rfl, rfl, h0, h⟩
  · rw [fmin_none_left, fmin_none_left]; exact .inl ⟨rfl, rfl⟩
  · rcases k with ⟨rfl, rfl⟩ | ⟨c, d, rfl, rfl, k0, k⟩
    · rw [fmin_none_right, fmin_none_right]; exact .inl ⟨rfl, rfl⟩
    · rw [Exact.fmin, Exact.fmin]; exact of_some (le_min h0 k0) (min_le_min h k)

/-- The square root is never negative. -/
theorem sqrt_self (x : Option ℝ) : NoMore (GoFloat.sqrt x) (GoFloat.sqrt x) := by
  rcases x with _ | a
  · exact .inl ⟨rfl, rfl⟩
  · by_cases h : 0 ≤ a
    · exact (const h).sqrt
    · have : GoFloat.sqrt (some a) = none := by
        show (if a < 0 then none else some (Real.sqrt a)) = _
        rw [if_pos (not_le.mp h)]
      rw [this]; exact .inl ⟨rfl, rfl⟩

end GosuPP.Spec.NoMore

namespace GosuPP.Exactly
open Go Spec
attribute [local instance] exactLibm

/-! ### The value of peaks -/

theorem gt_some (a b : ℝ) : ((some a : Option ℝ) >. some b) = decide (b < a) := Exact.lt b a

def num (x : Option ℝ) : Prop := ∃ a : ℝ, x = some a ∧ 0 ≤ a

noncomputable def leB (x y : Option ℝ) : Bool := match x, y with
  | some a, some b => decide (a ≤ b)
  | _, _ => false

theorem leB_trans (x y z : Option ℝ) (h : leB x y = true) (h' : leB y z = true) : leB x z = true := by
  rcases x with _ | x <;> rcases y with _ | y <;> rcases z with _ | z <;> simp_all [leB]
  exact h.trans h'

theorem sorted_desc [GoSort] {l : List (Option ℝ)} (h : ∀ x ∈ l, num x) :
    (Skill.reverseSort l).Pairwise (fun x y => leB y x = true) := by
  have hp := GoSort.slice_perm (fun a b : Option ℝ => a >. b) l
  have hs := GoSort.slice_sorted (fun a b : Option ℝ => a >. b) l
    { irrefl := by
        intro a ha
        obtain ⟨a, rfl, _⟩ := h a ha
        simp [Exact.lt]
      trans := by
        intro a ha b hb c hc h1 h2
        obtain ⟨a, rfl, _⟩ := h a ha
        obtain ⟨b, rfl, _⟩ := h b hb
        obtain ⟨c, rfl, _⟩ := h c hc
        simp only [Exact.lt, decide_eq_true_eq] at *
        exact h2.trans h1
      negTrans := by
        intro a ha b hb c hc h1 h2
        obtain ⟨a, rfl, _⟩ := h a ha
        obtain ⟨b, rfl, _⟩ := h b hb
        obtain ⟨c, rfl, _⟩ := h c hc
        simp only [Exact.lt, decide_eq_false_iff_not, not_lt] at *
        exact h1.trans h2 }
  refine List.Pairwise.imp_of_mem ?_ hs
  intro a b ha hb hab
  obtain ⟨a, rfl, _⟩ := h a (hp.mem_iff.mp ha)
  obtain ⟨b, rfl, _⟩ := h b (hp.mem_iff.mp hb)
  simp only [Exact.lt, decide_eq_false_iff_not, not_lt] at hab
  simpa [leB] using hab

theorem sort_le (g₁ g₂ : GoSort) {p q : List (Option ℝ)} (hp : ∀ x ∈ p, num x) (hq : ∀ x ∈ q, num x)
    (h : Dom leB num p q) : Under leB (@Skill.reverseSort (Option ℝ) _ g₁ p) (@Skill.reverseSort (Option ℝ) _ g₂ q) := by
  have e1 := @reverseSort_perm (Option ℝ) _ g₁ p
  have e2 := @reverseSort_perm (Option ℝ) _ g₂ q
  refine Dom.under (le := leB) (P := num) leB_trans ?_ ?_ (@sorted_desc g₁ _ hp) (@sorted_desc g₂ _ hq)
    (fun x hx => hp x (e1.mem_iff.mp hx)) (fun x hx => hq x (e2.mem_iff.mp hx)) ?_
  · rintro _ ⟨a, rfl, _⟩; simp [leB]
  · rintro _ _ ⟨a, rfl, _⟩ ⟨b, rfl, _⟩; simpa [leB] using le_total a b
  · intro x hx
    rw [e1.countP_eq, e2.countP_eq]
    exact h x hx

/-- The factor with which the hardest sections are multiplied. -/
theorem factor_num (count i : ℕ) (hc : 0 < count) :
    ∃ f : ℝ, 0 ≤ f ∧ (lerpF64 (lit 0.75) (lit 1) (GoLibm.log10 (lerpF64 (lit 1) (lit 10)
        (clampF64 (ofInt i /. ofInt count) (lit 0) (lit 1)))) : Option ℝ) = some f := by
  have hc' : ((count : ℤ) : ℝ) ≠ 0 := by exact_mod_cast hc.ne'
  simp only [Exact.ofInt, Exact.div _ hc', Exact.lit, Exact.clamp, lerpF64, Exact.sub, Exact.mul, Exact.add, Exact.log10]
  refine ⟨_, ?_, rfl⟩
  have h1 : (0 : ℝ) ≤ min ((1 : ℚ) : ℝ) (max ((0 : ℚ) : ℝ) (((i : ℤ) : ℝ) / ((count : ℤ) : ℝ))) := by
    refine le_min (by norm_num) (le_max_of_le_left (by norm_num))
  have h2 : 0 ≤ Real.logb 10 (((1 : ℚ) : ℝ) + (((10 : ℚ) : ℝ) - ((1 : ℚ) : ℝ)) *
      min ((1 : ℚ) : ℝ) (max ((0 : ℚ) : ℝ) (((i : ℤ) : ℝ) / ((count : ℤ) : ℝ)))) := by
    refine Real.logb_nonneg (by norm_num) ?_
    push_cast at h1 ⊢
    linarith
  have h3 : (((1 : ℚ) : ℝ) - ((0.75 : ℚ) : ℝ)) = 0.25 := by norm_num
  rw [h3]
  have : (0 : ℝ) ≤ ((0.75 : ℚ) : ℝ) := by norm_num
  nlinarith

theorem reduce_num {count : ℕ} (hc : 0 < count) (i : ℕ) {p : List (Option ℝ)} (hp : ∀ x ∈ p, num x) :
    ∀ x ∈ Skill.reduceLoop count (lit 0.75) i p, num x := by
  induction p generalizing i with
  | nil => unfold Skill.reduceLoop; simp
  | cons s rest ih =>
    unfold Skill.reduceLoop
    split
    · intro x hx
      rcases List.mem_cons.mp hx with rfl | hx
      · obtain ⟨f, hf, e⟩ := factor_num count i hc
        obtain ⟨a, rfl, ha⟩ := hp s (by simp)
        rw [e, Exact.mul]
        exact ⟨_, rfl, mul_nonneg ha hf⟩
      · exact ih (i + 1) (fun y hy => hp y (by simp [hy])) x hx
    · exact hp

theorem reduce_le {count : ℕ} (hc : 0 < count) (i : ℕ) {p q : List (Option ℝ)} (h : Under leB p q) :
    Under leB (Skill.reduceLoop count (lit 0.75) i p) (Skill.reduceLoop count (lit 0.75) i q) := by
  induction h generalizing i with
  | nil q => unfold Skill.reduceLoop; exact .nil _
  | @cons u v p q huv h ih =>
    unfold Skill.reduceLoop
    split
    · obtain ⟨f, hf, e⟩ := factor_num count i hc
      dsimp only
      rw [e]
      refine .cons ?_ (ih (i + 1))
      rcases u with _ | a <;> rcases v with _ | b <;> simp [leB] at huv
      simp only [Exact.mul, leB, decide_eq_true_eq]
      exact mul_le_mul_of_nonneg_right huv hf
    · exact .cons huv h

theorem sum_num {dw : ℝ} (hd : 0 ≤ dw) {q : List (Option ℝ)} (hq : ∀ x ∈ q, num x) {a w : ℝ} (ha : 0 ≤ a) (hw : 0 ≤ w) :
    ∃ b, Skill.weightedSum (some dw) q (some a) (some w) = some b ∧ a ≤ b := by
  induction q generalizing a w with
  | nil => exact ⟨a, rfl, le_rfl⟩
  | cons s rest ih =>
    obtain ⟨c, rfl, hc⟩ := hq s (by simp)
    unfold Skill.weightedSum
    rw [Exact.mul, Exact.mul, Exact.add]
    obtain ⟨b, e, hb⟩ := ih (fun y hy => hq y (by simp [hy])) (a := a + c * w) (w := w * dw) (by positivity) (by positivity)
    exact ⟨b, e, by nlinarith [mul_nonneg hc hw]⟩

theorem sum_le {dw : ℝ} (hd : 0 ≤ dw) {p q : List (Option ℝ)} (h : Under leB p q) (hp : ∀ x ∈ p, num x)
    (hq : ∀ x ∈ q, num x) {a b w : ℝ} (ha : 0 ≤ a) (hab : a ≤ b) (hw : 0 ≤ w) :
    NoMore (Skill.weightedSum (some dw) p (some a) (some w)) (Skill.weightedSum (some dw) q (some b) (some w)) := by
  induction h generalizing a b w with
  | nil q =>
    obtain ⟨c, e, hc⟩ := sum_num hd hq (ha.trans hab) hw
    rw [e]
    exact .of_some ha (hab.trans hc)
  | @cons u v p q huv h ih =>
    obtain ⟨c, rfl, hc⟩ := hp u (by simp)
    obtain ⟨d, rfl, hd'⟩ := hq v (by simp)
    have hcd : c ≤ d := by simpa [leB] using huv
    unfold Skill.weightedSum
    simp only [Exact.mul, Exact.add]
    refine ih (fun y hy => hp y (by simp [hy])) (fun y hy => hq y (by simp [hy])) (by positivity) ?_ (by positivity)
    have := mul_le_mul_of_nonneg_right hcd hw
    linarith

theorem sum_none {dw : Option ℝ} {p : List (Option ℝ)} {a w : Option ℝ} (h : a = none ∨ none ∈ p) :
    Skill.weightedSum dw p a w = none := by
  induction p generalizing a w with
  | nil => rcases h with h | h
           · unfold Skill.weightedSum; exact h
           · simp at h
  | cons s rest ih =>
    unfold Skill.weightedSum
    refine ih ?_
    rcases h with rfl | h
    · exact .inl rfl
    · rcases List.mem_cons.mp h with rfl | h
      · left; cases a <;> rfl
      · exact .inr h

theorem reduce_none {count : ℕ} {b : Option ℝ} {i : ℕ} {p : List (Option ℝ)} (h : none ∈ p) :
    none ∈ Skill.reduceLoop count b i p := by
  induction p generalizing i with
  | nil => simp at h
  | cons s rest ih =>
    unfold Skill.reduceLoop
    split
    · rcases List.mem_cons.mp h with rfl | h
      · exact List.mem_cons.mpr (.inl rfl)
      · exact List.mem_cons.mpr (.inr (ih h))
    · exact h

/-- The value of peaks is monotone in each peak. -/
theorem value_atMost [g : GoSort] {S : Type} {sk sk' : Skill S (Option ℝ)} {dw m : ℝ} (hd : 0 ≤ dw) (hm : 0 ≤ m)
    (hc : 0 < sk.reducedSectionCount) (hb : sk.reducedStrainBaseline = lit 0.75) (hdw : sk.decayWeight = some dw)
    (hmu : sk.difficultyMultiplier = some m)
    (hc' : sk'.reducedSectionCount = sk.reducedSectionCount) (hb' : sk'.reducedStrainBaseline = lit 0.75)
    (hdw' : sk'.decayWeight = some dw) (hmu' : sk'.difficultyMultiplier = some m)
    {p q : List (Option ℝ)} (h : List.Forall₂ NoMore p q) :
    NoMore (sk.valueOfPeaks p) (sk'.valueOfPeaks q) := by
  unfold Skill.valueOfPeaks
  simp only [hb, hb', hc', hdw, hdw', hmu, hmu']
  refine NoMore.mul ?_ (.const hm)
  by_cases hn : none ∈ p
  · have hn' : none ∈ q := by
      obtain ⟨i, hi, e⟩ := List.getElem_of_mem hn
      have hi' : i < q.length := h.length_eq ▸ hi
      have := h.get hi hi'
      rw [List.get_eq_getElem, List.get_eq_getElem, e] at this
      rcases this with ⟨_, h⟩ | ⟨a, b, h, _⟩
      · exact h ▸ List.getElem_mem hi'
      · cases h
    have key : ∀ l : List (Option ℝ), none ∈ l → none ∈ Skill.reverseSort (Skill.reduceLoop sk.reducedSectionCount (lit 0.75)
        0 (Skill.reverseSort l)) := by
      intro l hl
      rw [(reverseSort_perm _).mem_iff]
      exact reduce_none ((reverseSort_perm l).mem_iff.mpr hl)
    rw [sum_none (.inr (key p hn)), sum_none (.inr (key q hn'))]
    exact .inl ⟨rfl, rfl⟩
  · have hpq : (∀ x ∈ p, num x) ∧ (∀ x ∈ q, num x) ∧ List.Forall₂ (fun x y => leB x y = true) p q := by
      induction h with
      | nil => simp
      | @cons x y p q hxy h ih =>
        rw [List.mem_cons, not_or] at hn
        rcases hxy with ⟨rfl, rfl⟩ | ⟨a, b, rfl, rfl, h0, hab⟩
        · exact absurd rfl hn.1
        · obtain ⟨i1, i2, i3⟩ := ih hn.2
          refine ⟨?_, ?_, .cons (by simpa [leB] using hab) i3⟩
          · intro x hx
            rcases List.mem_cons.mp hx with rfl | hx
            · exact ⟨a, rfl, h0⟩
            · exact i1 x hx
          · intro x hx
            rcases List.mem_cons.mp hx with rfl | hx
            · exact ⟨b, rfl, h0.trans hab⟩
            · exact i2 x hx
    obtain ⟨hp, hq, hle⟩ := hpq
    have sn : ∀ l : List (Option ℝ), (∀ x ∈ l, num x) → ∀ x ∈ Skill.reverseSort l, num x :=
      fun l hl x hx => hl x ((reverseSort_perm l).mem_iff.mp hx)
    have h1 := sort_le g g hp hq (Dom.of_forall₂ leB_trans hle (List.Subperm.refl _))
    have h2 := reduce_le hc 0 h1
    have p1 := reduce_num hc 0 (sn p hp)
    have q1 := reduce_num hc 0 (sn q hq)
    have h3 := sort_le g g p1 q1 (h2.dom leB_trans)
    have e0 : (lit 0 : Option ℝ) = some 0 := by rw [Exact.lit]; norm_num
    have e1 : (lit 1 : Option ℝ) = some 1 := by rw [Exact.lit]; norm_num
    rw [e0, e1]
    exact sum_le hd h3 (sn _ p1) (sn _ q1) le_rfl le_rfl (by norm_num)

/-! ### The star rating -/

theorem ppBase_atMost {x y : Option ℝ} (h : NoMore x y) : NoMore (ppBase x) (ppBase y) := by
  have key : ∀ {x y : Option ℝ}, NoMore x y →
      NoMore (lit 5 *. fmax (lit 1) x -. lit 4) (lit 5 *. fmax (lit 1) y -. lit 4) := by
    intro x y h
    rcases h with ⟨rfl, rfl⟩ | ⟨a, b, rfl, rfl, h0, h⟩
    · rw [NoMore.fmax_none_right]; exact .inl ⟨rfl, rfl⟩
    · simp only [Exact.lit, Exact.fmax, Exact.mul, Exact.sub]
      refine .of_some ?_ ?_
      · have := le_max_left ((1 : ℚ) : ℝ) a
        push_cast at this ⊢; linarith
      · have := max_le_max_left ((1 : ℚ) : ℝ) h
        push_cast at this ⊢; linarith
  unfold ppBase
  exact ((key (h.div_lit (by norm_num))).pow (by norm_num)).div_lit (by norm_num)

theorem total_atMost {a a' s s' f f' : Option ℝ} (ha : NoMore a a') (hs : NoMore s s') (hf : NoMore f f') :
    NoMore (totalFromBases a s f) (totalFromBases a' s' f') := by
  unfold totalFromBases
  have h : NoMore (GoLibm.pow (GoLibm.pow a (lit 1.1) +. GoLibm.pow s (lit 1.1) +. GoLibm.pow f (lit 1.1)) (lit (1 / 1.1)))
      (GoLibm.pow (GoLibm.pow a' (lit 1.1) +. GoLibm.pow s' (lit 1.1) +. GoLibm.pow f' (lit 1.1)) (lit (1 / 1.1))) :=
    (((ha.pow (by norm_num)).add (hs.pow (by norm_num))).add (hf.pow (by norm_num))).pow (by norm_num)
  generalize GoLibm.pow (GoLibm.pow a (lit 1.1) +. GoLibm.pow s (lit 1.1) +. GoLibm.pow f (lit 1.1)) (lit (1 / 1.1)) = x at h
  generalize GoLibm.pow (GoLibm.pow a' (lit 1.1) +. GoLibm.pow s' (lit 1.1) +. GoLibm.pow f' (lit 1.1)) (lit (1 / 1.1)) = y at h
  have k : NoMore (lit 100000 /. GoLibm.pow (lit 2) (lit (1 / 1.1))) (lit 100000 /. GoLibm.pow (lit 2) (lit (1 / 1.1))) := by
    rw [Exact.lit, Exact.lit, Exact.lit, Exact.pow]
    have : (0 : ℝ) < ((2 : ℚ) : ℝ) ^ ((1 / 1.1 : ℚ) : ℝ) := Real.rpow_pos_of_pos (by norm_num) _
    rw [Exact.div _ this.ne']
    exact .const (by positivity)
  have big : NoMore (GoLibm.cbrt (lit 1.12) *. lit 0.027 *.
      (GoLibm.cbrt (lit 100000 /. GoLibm.pow (lit 2) (lit (1 / 1.1)) *. x) +. lit 4))
      (GoLibm.cbrt (lit 1.12) *. lit 0.027 *.
      (GoLibm.cbrt (lit 100000 /. GoLibm.pow (lit 2) (lit (1 / 1.1)) *. y) +. lit 4)) :=
    (((NoMore.lit (by norm_num)).cbrt.mul (.lit (by norm_num))).mul ((k.mul h).cbrt.add (.lit (by norm_num))))
  rcases h with ⟨rfl, rfl⟩ | ⟨u, v, rfl, rfl, h0, h⟩
  · have : ((none : Option ℝ) >. lit 0.00001) = false := by
      rw [Exact.lit]; rfl
    simp only [this, Bool.false_eq_true, if_false]
    exact .lit (by norm_num)
  · simp only [Exact.lit 0.00001, Exact.lt]
    by_cases h1 : ((0.00001 : ℚ) : ℝ) < u
    · simp only [h1, h1.trans_le h, decide_true, if_true]
      exact big
    · simp only [h1, decide_false, Bool.false_eq_true, if_false]
      by_cases h2 : ((0.00001 : ℚ) : ℝ) < v
      · simp only [h2, decide_true, if_true]
        rcases big.refl_right with ⟨e, _⟩ | ⟨_, c, _, e, h0, hc⟩
        · exfalso
          revert e
          rcases k with ⟨e, _⟩ | ⟨k1, _, ek, _, k0, _⟩
          · rw [Exact.lit, Exact.lit, Exact.lit, Exact.pow] at e
            have : (0 : ℝ) < ((2 : ℚ) : ℝ) ^ ((1 / 1.1 : ℚ) : ℝ) := Real.rpow_pos_of_pos (by norm_num) _
            rw [Exact.div _ this.ne'] at e
            cases e
          · rw [ek, Exact.mul, Exact.cbrt (by positivity), Exact.lit, Exact.lit, Exact.lit, Exact.cbrt (by norm_num), Exact.mul,
              Exact.add, Exact.mul]
            intro e; cases e
        · rw [e, Exact.lit]
          exact .of_some (by norm_num) (by push_cast; linarith)
      · simp only [h2, decide_false, Bool.false_eq_true, if_false]
        exact .lit (by norm_num)

end GosuPP.Exactly
