import Verif.Lemmas.SqrtIEEE
import Verif.Lemmas.SliderIEEE
import Verif.Lemmas.Skills
import Verif.Spec.Peaks

/-!
# The difficulty value is monotone in the peaks
-/

namespace GosuPP
open Go Spec

/-! ### Sorting lists of which one dominates the other -/

section
variable {α : Type} {le : α → α → Bool} {P : α → Prop}

/-- Each element of the first list is at most the corresponding element of the second, which may
be longer. -/
inductive Under (le : α → α → Bool) : List α → List α → Prop
  | nil (q : List α) : Under le [] q
  | cons {x y : α} {p q : List α} : le x y = true → Under le p q → Under le (x :: p) (y :: q)

/-- For every value, the second list has at least as many elements above it. -/
def Dom (le : α → α → Bool) (P : α → Prop) (p q : List α) : Prop :=
  ∀ x : α, P x → p.countP (le x) ≤ q.countP (le x)

theorem Under.of_get {a b : List α}
    (h : ∀ k, (hk : k < a.length) → ∃ hk' : k < b.length, le a[k] b[k] = true) : Under le a b := by
  induction a generalizing b with
  | nil => exact .nil _
  | cons x p ih =>
    cases b with
    | nil => obtain ⟨hk, _⟩ := h 0 (by simp); simp at hk
    | cons y q =>
      refine .cons (h 0 (by simp)).2 (ih fun k hk => ?_)
      obtain ⟨h1, h2⟩ := h (k + 1) (by simpa using hk)
      exact ⟨by simpa using h1, by simpa using h2⟩

theorem Under.dom (trans : ∀ x y z, le x y = true → le y z = true → le x z = true) {a b : List α}
    (h : Under le a b) : Dom le P a b := by
  intro x hx
  induction h with
  | nil q => simp
  | @cons u v p q huv _ ih =>
    rw [List.countP_cons, List.countP_cons]
    by_cases hu : le x u = true
    · rw [if_pos hu, if_pos (trans _ _ _ hu huv)]; omega
    · rw [if_neg hu]; omega

theorem Dom.under (trans : ∀ x y z, le x y = true → le y z = true → le x z = true)
    (refl : ∀ x, P x → le x x = true) (total : ∀ x y, P x → P y → le x y = true ∨ le y x = true)
    {a b : List α} (ha : a.Pairwise (fun x y => le y x = true))
    (hb : b.Pairwise (fun x y => le y x = true)) (hna : ∀ x ∈ a, P x) (hnb : ∀ x ∈ b, P x)
    (h : Dom le P a b) : Under le a b := by
  apply Under.of_get
  intro k hk
  have hx : P a[k] := hna _ (List.getElem_mem hk)
  have h1 : k + 1 ≤ a.countP (le a[k]) := by
    have h2 : (a.take (k + 1)).countP (le a[k]) = k + 1 := by
      have hl : (a.take (k + 1)).length = k + 1 := by rw [List.length_take]; omega
      rw [List.countP_eq_length.mpr, hl]
      intro y hy
      obtain ⟨j, hj, rfl⟩ := List.getElem_of_mem hy
      rw [List.getElem_take]
      rw [hl] at hj
      rcases Nat.lt_or_eq_of_le (Nat.le_of_lt_succ hj) with hj' | hj'
      · exact List.pairwise_iff_getElem.mp ha j k (by omega) hk hj'
      · subst hj'; exact refl _ hx
    have h3 : a.countP (le a[k]) = (a.take (k + 1)).countP (le a[k]) + (a.drop (k + 1)).countP (le a[k]) := by
      rw [← List.countP_append, List.take_append_drop]
    omega
  have h2 : k + 1 ≤ b.countP (le a[k]) := _root_.le_trans h1 (h _ hx)
  have hkb : k < b.length := by
    have : b.countP (le a[k]) ≤ b.length := List.countP_le_length
    omega
  refine ⟨hkb, ?_⟩
  by_contra hle
  have hy : P b[k] := hnb _ (List.getElem_mem hkb)
  have h3 : b.countP (le a[k]) = (b.take k).countP (le a[k]) + (b.drop k).countP (le a[k]) := by
    rw [← List.countP_append, List.take_append_drop]
  have h4 : (b.take k).countP (le a[k]) ≤ k := by
    have : (b.take k).countP (le a[k]) ≤ (b.take k).length := List.countP_le_length
    rw [List.length_take] at this
    omega
  have h5 : (b.drop k).countP (le a[k]) = 0 := by
    rw [List.countP_eq_zero]
    intro z hz hxz
    obtain ⟨j, hj, rfl⟩ := List.getElem_of_mem hz
    rw [List.length_drop] at hj
    have hkj : k + j < b.length := by omega
    rw [List.getElem_drop] at hxz
    have hzb : le b[k + j] b[k] = true := by
      rcases Nat.eq_zero_or_pos j with rfl | hj0
      · exact refl _ hy
      · exact List.pairwise_iff_getElem.mp hb k (k + j) hkb hkj (by omega)
    exact hle (trans _ _ _ hxz hzb)
  omega

theorem Dom.of_forall₂ (trans : ∀ x y z, le x y = true → le y z = true → le x z = true)
    {p q' q : List α} (h : List.Forall₂ (fun x y => le x y = true) p q') (hs : q'.Subperm q) :
    Dom le P p q := by
  intro x hx
  refine _root_.le_trans ?_ (hs.countP_le _)
  clear hs
  induction h with
  | nil => exact Nat.le_refl _
  | @cons u v p q huv _ ih =>
    rw [List.countP_cons, List.countP_cons]
    by_cases hu : le x u = true
    · rw [if_pos hu, if_pos (trans _ _ _ hu huv)]; omega
    · rw [if_neg hu]; omega
end

section
open Fl

theorem strictWeak_gt {l : List F64} (h : ∀ x ∈ l, NN x) :
    StrictWeak (fun a b : F64 => a >. b) l where
  irrefl a _ := Fl.lt_irrefl a
  trans a _ b _ c _ h1 h2 := Fl.lt_trans h2 h1
  negTrans a ha b hb c hc h1 h2 := by
    have h1 := le_of_not_lt (h a ha) (h b hb) h1
    have h2 := le_of_not_lt (h b hb) (h c hc) h2
    exact not_lt_of_le (Fl.le_trans h1 h2)

theorem reverseSort_sorted [GoSort] {l : List F64} (h : ∀ x ∈ l, NN x) :
    (Skill.reverseSort l).Pairwise (fun x y => Fl.le y x = true) := by
  have hp := GoSort.slice_perm (fun a b : F64 => a >. b) l
  have hs := GoSort.slice_sorted (fun a b : F64 => a >. b) l (strictWeak_gt h)
  refine List.Pairwise.imp_of_mem ?_ hs
  intro a b ha hb hab
  exact le_of_not_lt (h b (hp.mem_iff.mp hb)) (h a (hp.mem_iff.mp ha)) hab

theorem reverseSort_perm {D : Type} [GoFloat D] [GoSort] (l : List D) : (Skill.reverseSort l).Perm l :=
  GoSort.slice_perm _ l

theorem sort_under (g₁ g₂ : GoSort) {p q : List F64} (hp : ∀ x ∈ p, NN x) (hq : ∀ x ∈ q, NN x)
    (h : Dom Fl.le NN p q) :
    Under Fl.le (@Skill.reverseSort F64 _ g₁ p) (@Skill.reverseSort F64 _ g₂ q) := by
  have e1 := @reverseSort_perm F64 _ g₁ p
  have e2 := @reverseSort_perm F64 _ g₂ q
  refine Dom.under (le := Fl.le) (P := NN) (fun x y z => Fl.le_trans) (fun x => Fl.le_refl) (fun x y => Fl.le_total)
    (@reverseSort_sorted g₁ _ hp) (@reverseSort_sorted g₂ _ hq)
    (fun x hx => hp x (e1.mem_iff.mp hx)) (fun x hx => hq x (e2.mem_iff.mp hx)) ?_
  intro x hx
  rw [e1.countP_eq, e2.countP_eq]
  exact h x hx

/-! ### The factors of the reduction -/

theorem lerp_bounds {a b d : F64} {t : F64} (hd : b -. a = d) (hfd : Fin d) (hwd : WF d) (hd0 : NonNeg d)
    (hfa : Fin a) (hwa : WF a) (hab : Fl.eq (a +. d) b = true) (h0 : NonNeg t) (h1 : Fl.le t (fin 1 false) = true) :
    Fl.le a (lerpF64 a b t) = true ∧ Fl.le (lerpF64 a b t) b = true := by
  unfold lerpF64
  rw [hd]
  obtain ⟨dv, db, rfl⟩ := hfd
  have hft : Fin t := Fin.of_le h0 h1 ⟨1, false, rfl⟩
  have hn : NN (Fl.mul (fin dv db) t) := mul_fin_fin_nn ⟨_, _, rfl⟩ hft
  have hm0 : NonNeg (Fl.mul (fin dv db) t) := mul_nonneg hd0 h0 hn
  have hm1 : Fl.le (Fl.mul (fin dv db) t) (fin dv db) = true := by
    have := mul_le_mul_left h1 hd0 hn (mul_fin_fin_nn ⟨_, _, rfl⟩ ⟨_, _, rfl⟩)
    obtain ⟨c, hc⟩ := mul_one_wf hwd false
    rw [hc] at this
    refine Fl.le_trans this ?_
    simp [Fl.le]
  have hfm : Fin (Fl.mul (fin dv db) t) := Fin.of_le hm0 hm1 ⟨_, _, rfl⟩
  have hadd : ∀ y : F64, Fin y → NN (Fl.add a y) := by
    rintro y ⟨w, c, rfl⟩
    obtain ⟨v, b, rfl⟩ := hfa
    exact ofRat_nn _ _
  constructor
  · have h := add_mono (Fl.le_refl hfa.nn) hm0 (hadd _ ⟨_, _, rfl⟩) (hadd _ hfm)
    refine Fl.le_trans ?_ h
    obtain ⟨v, b, rfl⟩ := hfa
    have e : Fl.add (fin v b : F64) (fin 0 false) = ofRat fmt64 (v + 0) _ := rfl
    rw [e, add_zero, ofRat_of_rep hwa.1 hwa.2.1]
    simp [Fl.le]
  · exact Fl.le_trans (add_mono (Fl.le_refl hfa.nn) hm1 (hadd _ hfm) (hadd _ ⟨_, _, rfl⟩)) (eq_iff_le.mp hab).1

theorem Spec.IsPeak.nn {x : F64} (h : IsPeak x) : NN x := h.finite.nn

theorem clamp_bounds {x : F64} (h : NN x) :
    NonNeg (clampF64 x (GoFloat.lit 0) (GoFloat.lit 1)) ∧
      Fl.le (clampF64 x (GoFloat.lit 0) (GoFloat.lit 1)) (fin 1 false) = true := by
  have e1 : (GoFloat.lit 1 : F64) = fin 1 false := by decide +kernel
  have e0 : (GoFloat.lit 0 : F64) = fin 0 false := by decide +kernel
  unfold clampF64
  rw [e0, e1]
  have h1 := fmax_spec (f := fmt64) (nn_fin 0 false) h
  have h2 := fmin_spec (f := fmt64) (nn_fin 1 false) (le_nn h1.1).2
  refine ⟨?_, h2.1⟩
  rcases h2.2.2 with e | e <;> rw [e]
  · decide +kernel
  · exact h1.1

/-- The factor by which the reduction scales the `i`-th highest peak. -/
def factor [GoLibm F64] (count : Nat) (i : Nat) : F64 :=
  lerpF64 (GoFloat.lit 0.75) (GoFloat.lit 1) (GoLibm.log10 (lerpF64 (GoFloat.lit 1) (GoFloat.lit 10)
    (clampF64 (GoFloat.ofInt i /. GoFloat.ofInt count) (GoFloat.lit 0) (GoFloat.lit 1))))

theorem factor_bounds [GoLibm F64] (hlog : LogBounds) {count : Nat} (hc : count = 5 ∨ count = 10) (i : Nat) :
    NonNeg (factor count i) ∧ Fl.le (factor count i) (fin 1 false) = true := by
  have e1 : (GoFloat.lit 1 : F64) = fin 1 false := by decide +kernel
  have hx : NN (GoFloat.ofInt i /. GoFloat.ofInt count : F64) := by
    have : ∃ v b, v ≠ 0 ∧ (GoFloat.ofInt (count : Int) : F64) = fin v b := by
      rcases hc with rfl | rfl
      · exact ⟨5, false, by norm_num, by decide +kernel⟩
      · exact ⟨10, false, by norm_num, by decide +kernel⟩
    obtain ⟨v, b, hv, e⟩ := this
    rw [e]
    exact div_fin_nn (ofInt_nn _) hv b
  have hcl := clamp_bounds hx
  have h1 := lerp_bounds (a := GoFloat.lit 1) (b := GoFloat.lit 10) (d := fin 9 false)
    (t := clampF64 (GoFloat.ofInt i /. GoFloat.ofInt count) (GoFloat.lit 0) (GoFloat.lit 1))
    (by decide +kernel) ⟨_, _, rfl⟩
    (by have := ofRat_wf (f := fmt64) 9 false; rwa [show ofRat fmt64 9 false = fin 9 false by decide +kernel] at this)
    (by decide +kernel) ((isFin_iff _).mp (by decide +kernel)) (ofRat_wf _ _) (by decide +kernel) hcl.1 hcl.2
  rw [e1] at h1
  have h10 : Fl.le (GoFloat.lit 10 : F64) (fin 10 false) = true := by decide +kernel
  rw [← e1] at h1
  have h2 := hlog _ (by rw [← e1]; exact h1.1) (Fl.le_trans h1.2 h10)
  have h3 := lerp_bounds (a := GoFloat.lit 0.75) (b := GoFloat.lit 1) (d := GoFloat.lit 0.25) (t := _)
    (by decide +kernel) ((isFin_iff _).mp (by decide +kernel)) (ofRat_wf _ _)
    (by decide +kernel) ((isFin_iff _).mp (by decide +kernel)) (ofRat_wf _ _) (by decide +kernel) h2.1 h2.2
  refine ⟨Fl.le_trans (y := (GoFloat.lit 0.75 : F64)) (by decide +kernel) h3.1, Fl.le_trans h3.2 (by decide +kernel)⟩

theorem Spec.IsPeak.scale {x c : F64} (h : IsPeak x) (hc : NonNeg c) (hc1 : Fl.le c (fin 1 false) = true) :
    IsPeak (x *. c) := by
  have hfc : Fl.Fin c := Fin.of_le hc hc1 ⟨_, _, rfl⟩
  have hn : NN (Fl.mul x c) := mul_fin_fin_nn h.finite hfc
  have h0 : NonNeg (Fl.mul x c) := mul_nonneg h.nonneg hc hn
  refine ⟨?_, mul_wf, h0⟩
  have hle := mul_le_mul_left hc1 h.nonneg hn (mul_fin_fin_nn h.finite ⟨_, _, rfl⟩)
  obtain ⟨v, b, rfl⟩ := h.finite
  obtain ⟨d, e⟩ := mul_one_wf h.wf false
  rw [e] at hle
  exact Fin.of_le h0 hle ⟨_, _, rfl⟩

/-! ### Reduction and weighted sum -/

theorem reduce_peaks [GoLibm F64] (hlog : LogBounds) {count : Nat} (hc : count = 5 ∨ count = 10) (i : Nat)
    (p : List F64) (hp : ∀ x ∈ p, IsPeak x) :
    ∀ x ∈ Skill.reduceLoop count (GoFloat.lit 0.75) i p, IsPeak x := by
  induction p generalizing i with
  | nil => unfold Skill.reduceLoop; simp
  | cons s rest ih =>
    unfold Skill.reduceLoop
    split
    · intro x hx
      rcases List.mem_cons.mp hx with rfl | hx
      · have := factor_bounds hlog hc i
        exact (hp s (by simp)).scale this.1 this.2
      · exact ih (i + 1) (fun y hy => hp y (by simp [hy])) x hx
    · exact hp

theorem reduce_under [GoLibm F64] (hlog : LogBounds) {count : Nat} (hc : count = 5 ∨ count = 10) (i : Nat)
    {p q : List F64} (hp : ∀ x ∈ p, IsPeak x) (hq : ∀ x ∈ q, IsPeak x) (h : Under Fl.le p q) :
    Under Fl.le (Skill.reduceLoop count (GoFloat.lit 0.75) i p) (Skill.reduceLoop count (GoFloat.lit 0.75) i q) := by
  induction h generalizing i with
  | nil q => unfold Skill.reduceLoop; exact .nil _
  | @cons u v p q huv h ih =>
    unfold Skill.reduceLoop
    split
    · have hb := factor_bounds hlog hc i
      refine .cons ?_ (ih (i + 1) (fun y hy => hp y (by simp [hy])) (fun y hy => hq y (by simp [hy])))
      exact mul_le_mul_right huv hb.1 ((hp u (by simp)).scale hb.1 hb.2).nn ((hq v (by simp)).scale hb.1 hb.2).nn
    · exact .cons huv h

theorem weight_le {w dw : F64} (hw : NonNeg w) (hw1 : Fl.le w (fin 1 false) = true) (hd : NonNeg dw)
    (hd1 : Fl.le dw (fin 1 false) = true) : Fl.le (w *. dw) (fin 1 false) = true := by
  have hfw : Fl.Fin w := Fin.of_le hw hw1 ⟨_, _, rfl⟩
  have hfd : Fl.Fin dw := Fin.of_le hd hd1 ⟨_, _, rfl⟩
  have h1 := mul_le_mul_left hd1 hw (mul_fin_fin_nn hfw hfd) (mul_fin_fin_nn hfw ⟨_, _, rfl⟩)
  have h2 := mul_le_mul_right hw1 (c := (fin 1 false : F64)) (by decide +kernel) (mul_fin_fin_nn hfw ⟨_, _, rfl⟩)
    (mul_fin_fin_nn ⟨_, _, rfl⟩ ⟨_, _, rfl⟩)
  exact Fl.le_trans h1 (Fl.le_trans h2 (by decide +kernel))

theorem sum_ge {dw : F64} (hd : NonNeg dw) (hd1 : Fl.le dw (fin 1 false) = true) (q : List F64)
    (hq : ∀ x ∈ q, IsPeak x) (a w : F64) (ha : NonNeg a) (haw : WF a) (hw : NonNeg w)
    (hw1 : Fl.le w (fin 1 false) = true) : Fl.le a (Skill.weightedSum dw q a w) = true := by
  induction q generalizing a w with
  | nil => unfold Skill.weightedSum; exact Fl.le_refl (le_nn ha).2
  | cons s rest ih =>
    unfold Skill.weightedSum
    have hs := (hq s (by simp)).scale hw hw1
    have h1 := le_add_right haw ha hs.nonneg
    refine Fl.le_trans h1 (ih (fun y hy => hq y (by simp [hy])) _ _ (add_nonneg ha hs.nonneg)
      (add_wf haw hs.wf) ?_ ?_)
    · exact mul_nonneg hw hd (mul_fin_fin_nn (Fin.of_le hw hw1 ⟨_, _, rfl⟩) (Fin.of_le hd hd1 ⟨_, _, rfl⟩))
    · exact weight_le hw hw1 hd hd1

theorem sum_under {dw : F64} (hd : NonNeg dw) (hd1 : Fl.le dw (fin 1 false) = true) {p q : List F64}
    (hp : ∀ x ∈ p, IsPeak x) (hq : ∀ x ∈ q, IsPeak x) (h : Under Fl.le p q) (a b w : F64)
    (hab : Fl.le a b = true) (ha : NonNeg a) (haw : WF a) (hbw : WF b) (hw : NonNeg w)
    (hw1 : Fl.le w (fin 1 false) = true) :
    Fl.le (Skill.weightedSum dw p a w) (Skill.weightedSum dw q b w) = true := by
  induction h generalizing a b w with
  | nil q =>
    have := sum_ge hd hd1 q hq b w (Fl.le_trans ha hab) hbw hw hw1
    unfold Skill.weightedSum at this ⊢
    exact Fl.le_trans hab this
  | @cons u v p q huv h ih =>
    unfold Skill.weightedSum
    have hu := (hp u (by simp)).scale hw hw1
    have hv := (hq v (by simp)).scale hw hw1
    have hb : NonNeg b := Fl.le_trans ha hab
    refine ih (fun y hy => hp y (by simp [hy])) (fun y hy => hq y (by simp [hy])) _ _ _ ?_
      (add_nonneg ha hu.nonneg) (add_wf haw hu.wf) (add_wf hbw hv.wf) ?_ (weight_le hw hw1 hd hd1)
    · exact add_mono hab (mul_le_mul_right huv hw hu.nn hv.nn) (le_nn (add_nonneg ha hu.nonneg)).2
        (le_nn (add_nonneg hb hv.nonneg)).2
    · exact mul_nonneg hw hd (mul_fin_fin_nn (Fin.of_le hw hw1 ⟨_, _, rfl⟩) (Fin.of_le hd hd1 ⟨_, _, rfl⟩))

/-- The settings that `NewAimSkill`, `NewSpeedSkill` and `NewFlashlight` choose. -/
structure Skill.Tuned {S : Type} (sk : Skill S F64) : Prop where
  count : sk.reducedSectionCount = 5 ∨ sk.reducedSectionCount = 10
  baseline : sk.reducedStrainBaseline = GoFloat.lit 0.75
  decay : sk.decayWeight = GoFloat.lit 0.9 ∨ sk.decayWeight = GoFloat.lit 1
  multiplier : sk.difficultyMultiplier = GoFloat.lit 1.06 ∨ sk.difficultyMultiplier = GoFloat.lit 1.04

theorem Skill.Tuned.weight {S : Type} {sk : Skill S F64} (h : sk.Tuned) :
    NonNeg sk.decayWeight ∧ Fl.le sk.decayWeight (fin 1 false) = true := by
  rcases h.decay with e | e <;> rw [e] <;> decide +kernel

theorem Skill.Tuned.mult {S : Type} {sk : Skill S F64} (h : sk.Tuned) :
    NonNeg sk.difficultyMultiplier ∧ ∃ v b, v ≠ 0 ∧ sk.difficultyMultiplier = fin v b := by
  have key : ∀ x : F64, isFin x = true → Fl.eq x (fin 0 false) = false → ∃ v b, v ≠ 0 ∧ x = fin v b := by
    intro x h1 h2
    obtain ⟨v, b, rfl⟩ := (isFin_iff _).mp h1
    exact ⟨v, b, by simpa [Fl.eq] using h2, rfl⟩
  rcases h.multiplier with e | e <;> rw [e]
  · exact ⟨by decide +kernel, key _ (by decide +kernel) (by decide +kernel)⟩
  · exact ⟨by decide +kernel, key _ (by decide +kernel) (by decide +kernel)⟩

theorem wf_lit {x : F64} {q : ℚ} (h : x = GoFloat.lit q) : WF x := by
  rw [h]; exact ofRat_wf q false

theorem lit0_nonneg : NonNeg (GoFloat.lit 0 : F64) := by decide +kernel
theorem lit1_nonneg : NonNeg (GoFloat.lit 1 : F64) := by decide +kernel
theorem lit1_le : Fl.le (GoFloat.lit 1 : F64) (fin 1 false) = true := by decide +kernel

theorem valueOfPeaks_mono {S : Type} [GoLibm F64] (hlog : LogBounds) (g₁ g₂ : GoSort) {sk : Skill S F64}
    (ht : sk.Tuned) {p q : List F64} (hp : ∀ x ∈ p, IsPeak x) (hq : ∀ x ∈ q, IsPeak x)
    (h : Dom Fl.le NN p q) :
    NonNeg (@Skill.valueOfPeaks S F64 _ _ g₁ sk p) ∧
    Fl.le (@Skill.valueOfPeaks S F64 _ _ g₁ sk p) (@Skill.valueOfPeaks S F64 _ _ g₂ sk q) = true := by
  have hsort : ∀ (g : GoSort) (l : List F64), (∀ x ∈ l, IsPeak x) → ∀ x ∈ @Skill.reverseSort F64 _ g l, IsPeak x :=
    fun g l hl x hx => hl x ((@reverseSort_perm F64 _ g l).mem_iff.mp hx)
  unfold Skill.valueOfPeaks
  simp only
  rw [ht.baseline]
  have hz := lit0_nonneg
  have ho := lit1_nonneg
  have ho' := lit1_le
  generalize hze : (GoFloat.lit 0 : F64) = z at hz ⊢
  have hz' : WF z := wf_lit hze.symm
  generalize (GoFloat.lit 1 : F64) = o at ho ho' ⊢
  have h1 := sort_under g₁ g₂ (fun x hx => (hp x hx).nn) (fun x hx => (hq x hx).nn) h
  have p1 := reduce_peaks hlog ht.count 0 _ (hsort g₁ p hp)
  have q1 := reduce_peaks hlog ht.count 0 _ (hsort g₂ q hq)
  have h2 := reduce_under hlog ht.count 0 (hsort g₁ p hp) (hsort g₂ q hq) h1
  have h3 := sort_under g₁ g₂ (fun x hx => (p1 x hx).nn) (fun x hx => (q1 x hx).nn)
    (h2.dom (le := Fl.le) (P := NN) (fun x y z => Fl.le_trans))
  have p2 := hsort g₁ _ p1
  have q2 := hsort g₂ _ q1
  have hw := ht.weight
  have hs0 := Fl.le_trans hz (sum_ge hw.1 hw.2 _ p2 _ _ hz hz' ho ho')
  have hs := sum_under hw.1 hw.2 p2 q2 h3 _ _ _ (Fl.le_refl (le_nn hz).2) hz hz' hz' ho ho'
  obtain ⟨hm, v, b, hv, e⟩ := ht.mult
  rw [e] at hm ⊢
  exact ⟨mul_nonneg hs0 hm (mul_fin_nn (le_nn hs0).2 hv b),
    mul_le_mul_right hs hm (mul_fin_nn (le_nn hs).1 hv b) (mul_fin_nn (le_nn hs).2 hv b)⟩

end
end GosuPP
