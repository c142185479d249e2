import Verif.Spec.Rating
import Verif.Lemmas.Rhythm
import Verif.Lemmas.Memory
import Verif.Lemmas.Order
import Verif.Lemmas.Flash

/-!
# Ratings from strain peaks, in exact arithmetic
-/

namespace GosuPP.Exactly
open Go Spec
attribute [local instance] exactLibm

/-! ### The value of peaks -/

theorem reverseSort_exact [GoSort] (l : List ℝ) :
    Skill.reverseSort (l.map some) = (hardestFirst l).map some := by
  have hp : (Skill.reverseSort (l.map some)).Perm (l.map some) := GoSort.slice_perm _ _
  have hs := GoSort.slice_sorted (fun a b : Option ℝ => a >. b) (l.map some)
    { irrefl := by
        intro a ha
        obtain ⟨a, -, rfl⟩ := List.mem_map.mp ha
        simp [Exact.lt]
      trans := by
        intro a ha b hb c hc h1 h2
        obtain ⟨a, -, rfl⟩ := List.mem_map.mp ha
        obtain ⟨b, -, rfl⟩ := List.mem_map.mp hb
        obtain ⟨c, -, rfl⟩ := List.mem_map.mp hc
        simp only [Exact.lt, decide_eq_true_eq] at *
        exact h2.trans h1
      negTrans := by
        intro a ha b hb c hc h1 h2
        obtain ⟨a, -, rfl⟩ := List.mem_map.mp ha
        obtain ⟨b, -, rfl⟩ := List.mem_map.mp hb
        obtain ⟨c, -, rfl⟩ := List.mem_map.mp hc
        simp only [Exact.lt, decide_eq_false_iff_not, not_lt] at *
        exact h1.trans h2 }
  change (Skill.reverseSort (l.map some)).Pairwise _ at hs
  obtain ⟨l', hl', e⟩ : ∃ l' : List ℝ, l'.Perm l ∧ Skill.reverseSort (l.map some) = l'.map some := by
    generalize Skill.reverseSort (l.map some) = L at hp
    have : ∀ x ∈ L, ∃ a : ℝ, x = some a := fun x hx => by
      obtain ⟨a, -, rfl⟩ := List.mem_map.mp (hp.mem_iff.mp hx)
      exact ⟨a, rfl⟩
    have : ∃ l' : List ℝ, L = l'.map some := by
      clear hp hs
      induction L with
      | nil => exact ⟨[], rfl⟩
      | cons y L ih =>
        obtain ⟨a, rfl⟩ := this y (by simp)
        obtain ⟨l', rfl⟩ := ih fun x hx => this x (by simp [hx])
        exact ⟨a :: l', rfl⟩
    obtain ⟨l', rfl⟩ := this
    exact ⟨l', (List.map_perm_map_iff (Option.some_injective ℝ)).mp hp, rfl⟩
  rw [e] at hs ⊢
  congr 1
  rw [List.pairwise_map] at hs
  refine List.Perm.eq_of_pairwise' (r := (· ≥ ·)) (hs.imp fun {a b} h => ?_) (List.pairwise_insertionSort _ _)
    (hl'.trans (List.perm_insertionSort _ _).symm)
  simpa only [Exact.lt, decide_eq_false_iff_not, not_lt] using h

theorem factor_exact {count i : ℕ} (h : i < count) :
    (lerpF64 (lit 0.75) (lit 1) (GoLibm.log10 (lerpF64 (lit 1) (lit 10)
        (clampF64 (ofInt i /. ofInt count) (lit 0) (lit 1)))) : Option ℝ) = some (share count i) := by
  have hc : (0 : ℝ) < count := by exact_mod_cast (by omega : 0 < count)
  have hc' : ((count : ℤ) : ℝ) ≠ 0 := by push_cast; exact hc.ne'
  simp only [Exact.ofInt, Exact.div _ hc', Exact.lit, Exact.clamp, lerpF64, Exact.sub, Exact.mul, Exact.add, Exact.log10]
  unfold share
  rw [if_pos h]
  have h1 : (i : ℝ) / count ≤ 1 := by rw [div_le_one hc]; exact_mod_cast h.le
  have h2 : (0 : ℝ) ≤ (i : ℝ) / count := by positivity
  push_cast
  rw [max_eq_right h2, min_eq_right h1]
  congr 1
  norm_num

theorem easedFrom_rest {count i : ℕ} (h : count ≤ i) (l : List ℝ) : easedFrom count i l = l := by
  induction l generalizing i with
  | nil => rfl
  | cons x l ih =>
    rw [easedFrom, ih (by omega)]
    unfold share
    rw [if_neg (by omega), mul_one]

theorem reduce_exact (count i : ℕ) (l : List ℝ) :
    Skill.reduceLoop count (lit 0.75) i (l.map some) = (easedFrom count i l).map some := by
  induction l generalizing i with
  | nil => rfl
  | cons x l ih =>
    rw [List.map_cons, Skill.reduceLoop]
    split
    case isTrue h =>
      dsimp only
      rw [factor_exact h, Exact.mul, ih, easedFrom, List.map_cons]
    case isFalse h => rw [easedFrom_rest (by omega), List.map_cons]

theorem weighted_exact (dw a w : ℝ) (l : List ℝ) :
    Skill.weightedSum (some dw) (l.map some) (some a) (some w) = some (a + w * weighted dw l) := by
  induction l generalizing a w with
  | nil => rw [List.map_nil, Skill.weightedSum, weighted, mul_zero, add_zero]
  | cons x l ih =>
    rw [List.map_cons, Skill.weightedSum, Exact.mul, Exact.mul, Exact.add, ih, weighted]
    congr 1; ring

theorem value_exact [GoSort] {S : Type} {sk : Skill S (Option ℝ)} {dw m : ℝ} (hb : sk.reducedStrainBaseline = lit 0.75)
    (hdw : sk.decayWeight = some dw) (hm : sk.difficultyMultiplier = some m) (l : List ℝ) :
    sk.valueOfPeaks (l.map some) = some (peakValue sk.reducedSectionCount dw m l) := by
  have e0 : (lit 0 : Option ℝ) = some 0 := by rw [Exact.lit]; norm_num
  have e1 : (lit 1 : Option ℝ) = some 1 := by rw [Exact.lit]; norm_num
  unfold Skill.valueOfPeaks peakValue
  simp only [hb, hdw, hm]
  rw [reverseSort_exact, reduce_exact, reverseSort_exact, e0, e1, weighted_exact, Exact.mul]
  congr 1; ring

theorem share_pos (count i : ℕ) : 0.75 ≤ share count i := by
  unfold share
  split
  · have : 0 ≤ Real.logb 10 (1 + 9 * ((i : ℝ) / count)) := Real.logb_nonneg (by norm_num) (by
      have : (0 : ℝ) ≤ (i : ℝ) / count := by positivity
      linarith)
    linarith
  · norm_num

theorem hardestFirst_mem {l : List ℝ} {x : ℝ} : x ∈ hardestFirst l ↔ x ∈ l := List.mem_insertionSort _

theorem eased_nonneg {count i : ℕ} {l : List ℝ} (h : ∀ x ∈ l, 0 ≤ x) : ∀ x ∈ easedFrom count i l, 0 ≤ x := by
  induction l generalizing i with
  | nil => intro x hx; simp [easedFrom] at hx
  | cons y l ih =>
    intro x hx
    rw [easedFrom, List.mem_cons] at hx
    rcases hx with rfl | hx
    · exact mul_nonneg (h y (by simp)) (le_trans (by norm_num) (share_pos _ _))
    · exact ih (fun z hz => h z (by simp [hz])) x hx

theorem weighted_nonneg {w : ℝ} (hw : 0 ≤ w) {l : List ℝ} (h : ∀ x ∈ l, 0 ≤ x) : 0 ≤ weighted w l := by
  induction l with
  | nil => exact le_rfl
  | cons y l ih =>
    rw [weighted]
    have := h y (by simp)
    have := ih fun x hx => h x (by simp [hx])
    positivity

theorem peakValue_nonneg {count : ℕ} {w m : ℝ} (hw : 0 ≤ w) (hm : 0 ≤ m) {l : List ℝ} (h : ∀ x ∈ l, 0 ≤ x) :
    0 ≤ peakValue count w m l :=
  mul_nonneg hm (weighted_nonneg hw fun x hx => eased_nonneg (fun y hy => h y (hardestFirst_mem.mp hy)) x (hardestFirst_mem.mp hx))

theorem rating_exact {v : ℝ} (hv : 0 ≤ v) : (GoFloat.sqrt (some v : Option ℝ) *. lit 0.0675) = some (ratingOf v) := by
  rw [Exact.sqrt hv, Exact.lit, Exact.mul]
  unfold ratingOf
  congr 1; push_cast; ring

theorem ratingOf_nonneg (v : ℝ) : 0 ≤ ratingOf v := mul_nonneg (by norm_num) (Real.sqrt_nonneg v)

/-! ### The stars -/

theorem baseValue_ge (s : ℝ) : 0.00001 ≤ baseValue s := by
  unfold baseValue
  have h1 : (1 : ℝ) ≤ 5 * max 1 (s / 0.0675) - 4 := by
    have := le_max_left (1 : ℝ) (s / 0.0675)
    linarith
  have := one_le_pow₀ h1 (n := 3)
  rw [le_div_iff₀ (by norm_num)]
  linarith

theorem ppBase_exact (s : ℝ) : ppBase (some s : Option ℝ) = some (baseValue s) := by
  unfold ppBase baseValue
  rw [Exact.lit 0.0675, Exact.div _ (by norm_num), Exact.lit 1, Exact.fmax, Exact.lit 5, Exact.mul, Exact.lit 4, Exact.sub,
    pow_three_exact, Exact.lit 100000, Exact.div _ (by norm_num)]
  congr 1
  push_cast
  norm_num

theorem total_exact {a s f : ℝ} (ha : 0.00001 ≤ a) (hs : 0.00001 ≤ s) (hf : 0 ≤ f) :
    totalFromBases (some a) (some s) (some f : Option ℝ) = some ((1.12 : ℝ) ^ (1 / 3 : ℝ) * 0.027 *
      ((100000 / (2 : ℝ) ^ (1 / 1.1 : ℝ) * (a ^ (1.1 : ℝ) + s ^ (1.1 : ℝ) + f ^ (1.1 : ℝ)) ^ (1 / 1.1 : ℝ)) ^ (1 / 3 : ℝ) + 4)) := by
  have e11 : ((1.1 : ℚ) : ℝ) = 1.1 := by norm_num
  have e12 : ((1 / 1.1 : ℚ) : ℝ) = 1 / 1.1 := by norm_num
  have h2 : (0 : ℝ) < (2 : ℝ) ^ (1 / 1.1 : ℝ) := by positivity
  have ha0 : (0 : ℝ) < a := by linarith
  have hs0 : (0 : ℝ) < s := by linarith
  have hbig : (0.00001 : ℝ) < (a ^ (1.1 : ℝ) + s ^ (1.1 : ℝ) + f ^ (1.1 : ℝ)) ^ (1 / 1.1 : ℝ) := by
    calc (0.00001 : ℝ) ≤ a := ha
      _ = (a ^ (1.1 : ℝ)) ^ (1 / 1.1 : ℝ) := by rw [← Real.rpow_mul ha0.le]; norm_num
      _ < _ := by
        refine Real.rpow_lt_rpow (by positivity) ?_ (by norm_num)
        have : 0 < s ^ (1.1 : ℝ) := by positivity
        have : 0 ≤ f ^ (1.1 : ℝ) := by positivity
        linarith
  unfold totalFromBases
  simp only [Exact.lit 1.1, Exact.lit (1 / 1.1), Exact.pow, Exact.add, e11, e12, Exact.lit 2, Rat.cast_ofNat]
  rw [Exact.lit 0.00001, Exact.lt, if_pos (by rw [decide_eq_true_iff]; norm_num at hbig ⊢; exact hbig), Exact.lit 100000, Exact.div _ h2.ne', Exact.mul,
    Exact.cbrt (by positivity), Exact.lit 1.12, Exact.cbrt (by norm_num), Exact.lit 0.027, Exact.mul, Exact.lit 4, Exact.add, Exact.mul]
  congr 1

theorem stars_exact {a n s f : ℝ} (d : Difficulty (Option ℝ)) (attr : Attributes (Option ℝ)) (ha : 0 ≤ a) (hn : 0 ≤ n) (hs : 0 ≤ s) (hf : 0 ≤ f)
    (hfl : d.checkModActive Mod.Flashlight = false → f = 0) :
    let speed := if d.checkModActive Mod.Relax then 0 else ratingOf s
    getStarsFromRawValues (some a) (some n) (some s) (some f) d attr = { attr with
      total := some (starsOf (ratingOf a) speed (ratingOf f))
      aim := some (ratingOf a)
      sliderFactor := some (if 0.00001 < ratingOf a then ratingOf n / ratingOf a else 1)
      speed := some speed
      flashlight := some (ratingOf f) } := by
  intro speed
  have e0 : (lit 0 : Option ℝ) = some 0 := by rw [Exact.lit]; norm_num
  have e1 : (lit 1 : Option ℝ) = some 1 := by rw [Exact.lit]; norm_num
  unfold getStarsFromRawValues
  simp only [rating_exact ha, rating_exact hn, rating_exact hs, rating_exact hf]
  have h1 : (if d.checkModActive Mod.Relax = true then (lit 0 : Option ℝ) else some (ratingOf s)) = some speed := by
    unfold speed; split <;> simp [e0]
  have h2 : (if d.checkModActive Mod.Flashlight = true then GoLibm.pow (some (ratingOf f) : Option ℝ) (lit 2) *. lit 25 else lit 0) =
      some (25 * ratingOf f ^ 2) := by
    split
    · rw [pow_two_exact, Exact.lit 25, Exact.mul]; congr 1; push_cast; ring
    · rename_i h
      rw [hfl (by simpa using h), e0]; simp [ratingOf]
  have h3 : (if ((some (ratingOf a) : Option ℝ) >. lit 0.00001) = true then (some (ratingOf n) : Option ℝ) /. some (ratingOf a) else lit 1) =
      some (if 0.00001 < ratingOf a then ratingOf n / ratingOf a else 1) := by
    have e : (((some (ratingOf a) : Option ℝ) >. lit 0.00001) = true) ↔ 0.00001 < ratingOf a := by
      rw [Exact.lit, Exact.lt, decide_eq_true_iff]; norm_num
    by_cases h : 0.00001 < ratingOf a
    · rw [if_pos (e.mpr h), if_pos h, Exact.div _ (by linarith)]
    · rw [if_neg (fun hh => h (e.mp hh)), if_neg h, e1]
  rw [h1, h2, h3, ppBase_exact, ppBase_exact, total_exact (baseValue_ge _) (baseValue_ge _) (by positivity)]
  rfl

/-! ### Peaks are not negative -/

theorem reals_of_peaks {b : ℝ} {τ v β : ℕ → ℝ} {k : ℕ} {l : List (Option ℝ)} (hb : 0 < b) (hv : ∀ n, 0 ≤ v n) (hβ : ∀ n, 0 ≤ β n)
    (h : PeakList b τ v β k l) : ∃ l' : List ℝ, l = l'.map some ∧ ∀ x ∈ l', 0 ≤ x := by
  have key : ∀ x ∈ l, ∃ y : ℝ, x = some y ∧ 0 ≤ y := by
    intro x hx
    obtain ⟨i, hi, rfl⟩ := List.getElem_of_mem hx
    obtain ⟨y, e, hy, -⟩ := h.peak i _ (List.getElem?_eq_getElem hi)
    refine ⟨y, e, ?_⟩
    rcases hy with ⟨n, -, -, -, rfl⟩ | ⟨n, -, rfl⟩
    · exact mul_nonneg (strainAt_nonneg hb hv n) (hβ n)
    · exact mul_nonneg (mul_nonneg (strainAt_nonneg hb hv n) (hβ n)) (Real.rpow_nonneg hb.le _)
  clear h
  induction l with
  | nil => exact ⟨[], rfl, by simp⟩
  | cons x l ih =>
    obtain ⟨y, rfl, hy⟩ := key x (by simp)
    obtain ⟨l', rfl, hl⟩ := ih fun z hz => key z (by simp [hz])
    exact ⟨y :: l', rfl, by simpa using ⟨hy, hl⟩⟩

section
variable {c r : ℝ} {x : ℕ → Note}

theorem turns_nonneg (hc0 : 0 < c) (b : Bool) (n : ℕ) : 0 ≤ (turnsAt c r x b n).1 ∧ 0 ≤ (turnsAt c r x b n).2 := by
  unfold turnsAt
  have hv : 0 ≤ min (velocity c r x b n) (velocity c r x b (n - 1)) := le_min (velocity_nonneg hc0 b n) (velocity_nonneg hc0 b _)
  generalize min (velocity c r x b n) (velocity c r x b (n - 1)) = v at hv ⊢
  split
  · rename_i θ θ' θ'' _ _ _
    have w1 := wideness_range θ
    have w2 := wideness_range θ'
    have w3 := wideness_range θ''
    split
    · refine ⟨?_, ?_⟩
      · dsimp only
        unfold wideAfter
        have : min (wideness θ) (wideness θ' ^ 3) ≤ 1 := (min_le_left _ _).trans w1.2
        exact mul_nonneg w1.1 (mul_nonneg hv (by linarith))
      · dsimp only
        have hs : 0 ≤ sharpAfter θ θ' (gap r x n) (jump c x n) v := by
          unfold sharpAfter
          split
          · exact le_rfl
          · have hg := gap_ge (r := r) (x := x) n
            have hq : 0 ≤ 125 / gap r x n := div_nonneg (by norm_num) (by linarith)
            exact mul_nonneg (by linarith) (mul_nonneg (mul_nonneg (mul_nonneg (by linarith) (le_min hv hq)) (sq_nonneg _)) (sq_nonneg _))
        unfold sharpRepeated
        have : min (sharpAfter θ θ' (gap r x n) (jump c x n) v) ((1 - wideness θ'') ^ 3) ≤ 1 :=
          (min_le_right _ _).trans (pow_le_one₀ (by linarith) (by linarith))
        exact mul_nonneg hs (by linarith)
    · exact ⟨le_rfl, le_rfl⟩
  · exact ⟨le_rfl, le_rfl⟩

theorem change_nonneg (b : Bool) (n : ℕ) : 0 ≤ changeAt c r x b n := by
  unfold changeAt
  split
  · exact le_rfl
  · exact mul_nonneg (mul_nonneg (le_max_of_le_right (mul_nonneg (abs_nonneg _) (sq_nonneg _))) (sq_nonneg _)) (sq_nonneg _)

theorem slideBonus_nonneg (hx : Playable x) (n : ℕ) : 0 ≤ slideBonus r x n := by
  unfold slideBonus
  split
  · rename_i s hs
    unfold slideTo at hs
    split at hs
    · have := slideTime_ge (r := r) s
      exact div_nonneg (hx.length _ s hs) (by linarith)
    · cases hs
  · exact le_rfl

theorem aimHit_nonneg (hc0 : 0 < c) (hx : Playable x) (b : Bool) (n : ℕ) : 0 ≤ aimHit c r x b n := by
  unfold aimHit
  split
  · refine add_nonneg (add_nonneg (velocity_nonneg hc0 b n) (le_max_of_le_left ?_)) ?_
    · exact mul_nonneg (by norm_num) (turns_nonneg hc0 b n).2
    · split
      · exact mul_nonneg (by norm_num) (slideBonus_nonneg hx n)
      · exact le_rfl
  · exact le_rfl

theorem flashHit_nonneg (n : ℕ) : 0 ≤ flashHit c r x n := by
  unfold flashHit
  split
  · exact le_rfl
  · exact sq_nonneg _

theorem rhythmFactor_nonneg {w : ℝ} (n : ℕ) (l : List (ℕ × ℕ)) : 0 ≤ rhythmFactor r w x n l := by
  unfold rhythmFactor
  split
  · exact le_rfl
  · exact div_nonneg (Real.sqrt_nonneg _) (by norm_num)

end

/-! ### The skills of one calculation -/

theorem singleLoop_flash [GoSort] {fuel : ℕ} {ds : List (DiffObject (Option ℝ) (Option ℝ))} {objs : List (Obj (Option ℝ) (Option ℝ))}
    {attr attr' : Attributes (Option ℝ)} {sk sk' : SkillSet (Option ℝ) (Option ℝ)}
    (h : singleLoop fuel ds objs attr sk = .ok (attr', sk')) :
    (sk.flashlight = none → sk'.flashlight = none) ∧ (∀ f, sk.flashlight = some f →
      ∃ f', sk'.flashlight = some f' ∧ ds.foldlM (fun s o => s.process fuel o) f = .ok f') := by
  induction ds generalizing objs attr sk with
  | nil => cases h; exact ⟨id, fun f hf => ⟨f, hf, rfl⟩⟩
  | cons c ds ih =>
    rw [singleLoop] at h
    obtain ⟨o, -, h⟩ := bind_ok h
    obtain ⟨s, hs, h⟩ := bind_ok h
    unfold SkillSet.process at hs
    obtain ⟨a, h1, hs⟩ := bind_ok hs
    obtain ⟨b, h2, hs⟩ := bind_ok hs
    obtain ⟨d, h3, hs⟩ := bind_ok hs
    obtain ⟨e, h4, hs⟩ := bind_ok hs
    cases hs
    obtain ⟨r1, r2⟩ := ih h
    refine ⟨fun hn => r1 ?_, fun f hf => ?_⟩
    · rw [hn] at h4
      exact (Except.ok.inj h4).symm
    · rw [hf] at h4
      unfold SkillSet.processOpt at h4
      obtain ⟨f1, h5, h4⟩ := bind_ok h4
      obtain ⟨f', q1, q2⟩ := r2 f1 (Except.ok.inj h4).symm
      refine ⟨f', q1, ?_⟩
      rw [List.foldlM_cons, h5]
      exact q2

/-! ### Sliders -/

theorem strainAt_le {b : ℝ} (hb : 0 < b) {τ v v' : ℕ → ℝ} (h : ∀ n, v n ≤ v' n) (n : ℕ) : strainAt b τ v n ≤ strainAt b τ v' n :=
  Finset.sum_le_sum fun j _ => mul_le_mul_of_nonneg_right (h j) (Real.rpow_nonneg hb.le _)

theorem peaks_le {b : ℝ} {τ v v' β : ℕ → ℝ} {k : ℕ} {l l' : List (Option ℝ)} (hb : 0 < b) (h0 : ∀ n, 0 ≤ v n) (hv : ∀ n, v n ≤ v' n)
    (hβ : ∀ n, 0 ≤ β n) (h : PeakList b τ v β k l) (h' : PeakList b τ v' β k l') : List.Forall₂ NoMore l l' := by
  rw [List.forall₂_iff_get]
  have hlen : l.length = l'.length := by
    have := h.length.trans h'.length.symm
    exact_mod_cast this
  refine ⟨hlen, fun i hi hi' => ?_⟩
  obtain ⟨y, e, hy, -⟩ := h.peak i _ (List.getElem?_eq_getElem hi)
  obtain ⟨y', e', -, hy'⟩ := h'.peak i _ (List.getElem?_eq_getElem hi')
  rw [List.get_eq_getElem, List.get_eq_getElem, e, e']
  rcases hy with ⟨n, a1, a2, a3, rfl⟩ | ⟨n, a1, rfl⟩
  · refine .of_some (mul_nonneg (strainAt_nonneg hb h0 n) (hβ n)) ((mul_le_mul_of_nonneg_right (strainAt_le hb hv n) (hβ n)).trans ?_)
    exact hy' (.inl ⟨n, a1, a2, a3, rfl⟩)
  · refine .of_some (mul_nonneg (mul_nonneg (strainAt_nonneg hb h0 n) (hβ n)) (Real.rpow_nonneg hb.le _))
      ((mul_le_mul_of_nonneg_right (mul_le_mul_of_nonneg_right (strainAt_le hb hv n) (hβ n)) (Real.rpow_nonneg hb.le _)).trans ?_)
    exact hy' (.inr ⟨n, a1, rfl⟩)

section
variable {c r : ℝ} {x : ℕ → Note}

theorem velocity_sliders (n : ℕ) : velocity c r x false n ≤ velocity c r x true n := by
  unfold velocity
  split
  · simp
  · exact le_rfl

theorem sharpRepeated_le {θ s s' : ℝ} (h0 : 0 ≤ s) (h : s ≤ s') : sharpRepeated θ s ≤ sharpRepeated θ s' := by
  unfold sharpRepeated
  have w := wideness_range θ
  have h1 : (1 - wideness θ) ^ 3 ≤ 1 := pow_le_one₀ (by linarith) (by linarith)
  have h2 : 0 ≤ (1 - wideness θ) ^ 3 := pow_nonneg (by linarith) 3
  generalize (1 - wideness θ) ^ 3 = a at h1 h2
  rcases le_total s' a with ha | ha
  · rw [min_eq_left ha, min_eq_left (h.trans ha)]
    nlinarith
  · rw [min_eq_right ha]
    rcases le_total s a with hb | hb
    · rw [min_eq_left hb]
      nlinarith
    · rw [min_eq_right hb]
      nlinarith

theorem turns_sliders (hc0 : 0 < c) (n : ℕ) : (turnsAt c r x false n).1 ≤ (turnsAt c r x true n).1 ∧
    (turnsAt c r x false n).2 ≤ (turnsAt c r x true n).2 := by
  unfold turnsAt
  have hv : 0 ≤ min (velocity c r x false n) (velocity c r x false (n - 1)) :=
    le_min (velocity_nonneg hc0 _ n) (velocity_nonneg hc0 _ _)
  have hvv : min (velocity c r x false n) (velocity c r x false (n - 1)) ≤ min (velocity c r x true n) (velocity c r x true (n - 1)) :=
    min_le_min (velocity_sliders n) (velocity_sliders _)
  generalize min (velocity c r x false n) (velocity c r x false (n - 1)) = v at hv hvv ⊢
  generalize min (velocity c r x true n) (velocity c r x true (n - 1)) = v' at hvv ⊢
  split
  · rename_i θ θ' θ'' _ _ _
    have w1 := wideness_range θ
    have w2 := wideness_range θ'
    split
    · refine ⟨?_, ?_⟩
      · dsimp only
        unfold wideAfter
        have : min (wideness θ) (wideness θ' ^ 3) ≤ 1 := (min_le_left _ _).trans w1.2
        exact mul_le_mul_of_nonneg_left (mul_le_mul_of_nonneg_right hvv (by linarith)) w1.1
      · dsimp only
        have hg := gap_ge (r := r) (x := x) n
        have hq : 0 ≤ 125 / gap r x n := div_nonneg (by norm_num) (by linarith)
        refine sharpRepeated_le ?_ ?_
        · unfold sharpAfter
          split
          · exact le_rfl
          · exact mul_nonneg (by linarith) (mul_nonneg (mul_nonneg (mul_nonneg (by linarith) (le_min hv hq)) (sq_nonneg _)) (sq_nonneg _))
        · unfold sharpAfter
          split
          · exact le_rfl
          · refine mul_le_mul_of_nonneg_left ?_ (by linarith)
            refine mul_le_mul_of_nonneg_right (mul_le_mul_of_nonneg_right ?_ (sq_nonneg _)) (sq_nonneg _)
            exact mul_le_mul_of_nonneg_left (min_le_min_right _ hvv) (by linarith)
    · exact ⟨le_rfl, le_rfl⟩
  · exact ⟨le_rfl, le_rfl⟩

theorem change_sliders (hc0 : 0 < c) (n : ℕ) : changeAt c r x false n ≤ changeAt c r x true n := by
  by_cases h : velocity c r x true (n - 1) = 0 ∧ velocity c r x true n = 0
  · have h1 := velocity_sliders (c := c) (r := r) (x := x) n
    have h2 := velocity_sliders (c := c) (r := r) (x := x) (n - 1)
    have h3 := velocity_nonneg (r := r) (x := x) hc0 false n
    have h4 := velocity_nonneg (r := r) (x := x) hc0 false (n - 1)
    have h' : velocity c r x false (n - 1) = 0 ∧ velocity c r x false n = 0 := by
      rw [h.1] at h2; rw [h.2] at h1
      exact ⟨le_antisymm h2 h4, le_antisymm h1 h3⟩
    unfold changeAt
    rw [if_pos h, if_pos h']
  · by_cases h' : velocity c r x false (n - 1) = 0 ∧ velocity c r x false n = 0
    · refine le_trans (le_of_eq ?_) (change_nonneg true n)
      unfold changeAt
      rw [if_pos h']
    · unfold changeAt
      rw [if_neg h, if_neg h']

theorem aimHit_sliders (hc0 : 0 < c) (hx : Playable x) (n : ℕ) : aimHit c r x false n ≤ aimHit c r x true n := by
  unfold aimHit
  split
  · have h1 := velocity_sliders (c := c) (r := r) (x := x) n
    have h2 := turns_sliders (r := r) (x := x) hc0 n
    have h3 := change_sliders (r := r) (x := x) hc0 n
    have h4 := slideBonus_nonneg (r := r) hx n
    have h5 : max (2 * (turnsAt c r x false n).2) (1.5 * (turnsAt c r x false n).1 + 0.75 * changeAt c r x false n) ≤
        max (2 * (turnsAt c r x true n).2) (1.5 * (turnsAt c r x true n).1 + 0.75 * changeAt c r x true n) :=
      max_le_max (by linarith) (by linarith)
    simp only [if_true, Bool.false_eq_true, if_false]
    linarith
  · exact le_rfl

theorem aimHit_circles (h : ∀ n, (x n).slide = none) (n : ℕ) : aimHit c r x false n = aimHit c r x true n := by
  have hs : ∀ n, slideTo x n = none := fun n => by unfold slideTo; split <;> simp [h]
  have hv : ∀ n, velocity c r x false n = velocity c r x true n := fun n => by unfold velocity; rw [hs]
  have ht : turnsAt c r x false n = turnsAt c r x true n := by unfold turnsAt; simp only [hv]
  have hc : changeAt c r x false n = changeAt c r x true n := by unfold changeAt; simp only [hv]
  unfold aimHit
  rw [hv, ht, hc]
  unfold slideBonus
  rw [hs]
  simp

end

/-- Higher peaks do not lower the value. -/
theorem peakValue_le [GoSort] {l l' : List ℝ} (h : List.Forall₂ NoMore (l.map some) (l'.map some)) (d : Difficulty (Option ℝ)) :
    peakValue 10 0.9 1.06 l ≤ peakValue 10 0.9 1.06 l' := by
  have e9 : (lit 0.9 : Option ℝ) = some 0.9 := by rw [Exact.lit]; norm_num
  have e6 : (lit 1.06 : Option ℝ) = some 1.06 := by rw [Exact.lit]; norm_num
  have hb : (Skill.newAim d true : Skill (Option ℝ) (Option ℝ)).reducedStrainBaseline = lit 0.75 := rfl
  have hw : (Skill.newAim d true : Skill (Option ℝ) (Option ℝ)).decayWeight = some 0.9 := e9
  have hm : (Skill.newAim d true : Skill (Option ℝ) (Option ℝ)).difficultyMultiplier = some 1.06 := e6
  have := value_atMost (sk := (Skill.newAim d true : Skill (Option ℝ) (Option ℝ))) (sk' := (Skill.newAim d true : Skill (Option ℝ) (Option ℝ)))
    (dw := 0.9) (m := 1.06) (by norm_num) (by norm_num) (show 0 < 10 by norm_num) hb hw hm rfl hb hw hm h
  rw [value_exact hb hw hm, value_exact hb hw hm] at this
  rcases this with ⟨h, -⟩ | ⟨a, b, h1, h2, -, h3⟩
  · cases h
  · rw [← Option.some.inj h1, ← Option.some.inj h2] at h3
    exact h3

theorem ratingOf_le {a b : ℝ} (h : a ≤ b) : ratingOf a ≤ ratingOf b :=
  mul_le_mul_of_nonneg_left (Real.sqrt_le_sqrt h) (by norm_num)

/-! ### Bounds -/

theorem weighted_ge {w y : ℝ} (hw : 0 ≤ w) {l : List ℝ} (h : ∀ x ∈ l, 0 ≤ x) (hy : l.head? = some y) : y ≤ weighted w l := by
  cases l with
  | nil => cases hy
  | cons x l =>
    cases hy
    rw [weighted]
    have := mul_nonneg hw (weighted_nonneg hw fun z hz => h z (List.mem_cons_of_mem _ hz))
    linarith

theorem weighted_le {M : ℝ} (hM : 0 ≤ M) {l : List ℝ} (h : ∀ x ∈ l, x ≤ M) : weighted 0.9 l ≤ 10 * M := by
  induction l with
  | nil => rw [weighted]; linarith
  | cons x l ih =>
    rw [weighted]
    have := h x (by simp)
    have := ih fun z hz => h z (by simp [hz])
    linarith

theorem head_ge {l : List ℝ} {y : ℝ} (h : y ∈ l) : ∃ z, (hardestFirst l).head? = some z ∧ y ≤ z := by
  have hs : (hardestFirst l).Pairwise (· ≥ ·) := List.pairwise_insertionSort _ _
  have hy := hardestFirst_mem.mpr h
  cases e : hardestFirst l with
  | nil => rw [e] at hy; cases hy
  | cons z t =>
    rw [e] at hy hs
    refine ⟨z, rfl, ?_⟩
    rcases List.mem_cons.mp hy with rfl | hy
    · exact le_rfl
    · exact List.rel_of_pairwise_cons hs hy

theorem share_le (count i : ℕ) : share count i ≤ 1 := by
  unfold share
  split
  · rename_i h
    have hc : (0 : ℝ) < count := by exact_mod_cast (by omega : 0 < count)
    have h1 : (i : ℝ) / count ≤ 1 := by rw [div_le_one hc]; exact_mod_cast h.le
    have h2 : (0 : ℝ) ≤ (i : ℝ) / count := by positivity
    have : Real.logb 10 (1 + 9 * ((i : ℝ) / count)) ≤ 1 := by
      rw [Real.logb_le_iff_le_rpow (by norm_num) (by linarith), Real.rpow_one]
      linarith
    linarith
  · exact le_rfl

theorem eased_le {M : ℝ} {count i : ℕ} {l : List ℝ} (h0 : ∀ x ∈ l, 0 ≤ x) (h : ∀ x ∈ l, x ≤ M) : ∀ x ∈ easedFrom count i l, x ≤ M := by
  induction l generalizing i with
  | nil => intro x hx; simp [easedFrom] at hx
  | cons y l ih =>
    intro x hx
    rw [easedFrom, List.mem_cons] at hx
    rcases hx with rfl | hx
    · have := mul_le_mul_of_nonneg_left (share_le count i) (h0 y (by simp))
      have := h y (by simp)
      linarith
    · exact ih (fun z hz => h0 z (by simp [hz])) (fun z hz => h z (by simp [hz])) x hx

theorem peakValue_ge {count : ℕ} {w m : ℝ} (hw : 0 ≤ w) (hm : 0 ≤ m) {l : List ℝ} (h : ∀ x ∈ l, 0 ≤ x) {y : ℝ} (hy : y ∈ l) :
    m * (0.75 * y) ≤ peakValue count w m l := by
  refine mul_le_mul_of_nonneg_left ?_ hm
  have hn : ∀ x ∈ easedFrom count 0 (hardestFirst l), 0 ≤ x := eased_nonneg fun z hz => h z (hardestFirst_mem.mp hz)
  obtain ⟨z, hz, hyz⟩ := head_ge hy
  have : 0.75 * z ≤ z * share count 0 := by
    have h0 : 0 ≤ z := h z (hardestFirst_mem.mp (List.mem_of_head? hz))
    have := mul_le_mul_of_nonneg_left (share_pos count 0) h0
    linarith
  have hmem : z * share count 0 ∈ easedFrom count 0 (hardestFirst l) := by
    cases e : hardestFirst l with
    | nil => rw [e] at hz; cases hz
    | cons a t =>
      rw [e] at hz; cases hz
      rw [easedFrom]; exact List.mem_cons_self
  obtain ⟨u, hu, hzu⟩ := head_ge hmem
  have := weighted_ge hw (l := hardestFirst (easedFrom count 0 (hardestFirst l))) (fun x hx => hn x (hardestFirst_mem.mp hx)) hu
  linarith

theorem peakValue_le_max {count : ℕ} {m M : ℝ} (hm : 0 ≤ m) {l : List ℝ} (h : ∀ x ∈ l, 0 ≤ x) (hM0 : 0 ≤ M) (hM : ∀ x ∈ l, x ≤ M) :
    peakValue count 0.9 m l ≤ m * (10 * M) := by
  refine mul_le_mul_of_nonneg_left (weighted_le hM0 fun x hx => ?_) hm
  exact eased_le (fun z hz => h z (hardestFirst_mem.mp hz)) (fun z hz => hM z (hardestFirst_mem.mp hz)) x (hardestFirst_mem.mp hx)

theorem weighted_one (l : List ℝ) : weighted 1 l = l.sum := by
  induction l with
  | nil => rfl
  | cons x l ih => rw [weighted, one_mul, ih, List.sum_cons]

theorem eased_sum {count i : ℕ} {l : List ℝ} (h : ∀ x ∈ l, 0 ≤ x) :
    0.75 * l.sum ≤ (easedFrom count i l).sum ∧ (easedFrom count i l).sum ≤ l.sum := by
  induction l generalizing i with
  | nil => simp [easedFrom]
  | cons x l ih =>
    rw [easedFrom, List.sum_cons, List.sum_cons]
    obtain ⟨h1, h2⟩ := ih (i := i + 1) fun y hy => h y (by simp [hy])
    have h0 := h x (by simp)
    have h3 := mul_le_mul_of_nonneg_left (share_pos count i) h0
    have h4 := mul_le_mul_of_nonneg_left (share_le count i) h0
    constructor <;> linarith

theorem peakValue_one {count : ℕ} {m : ℝ} (hm : 0 ≤ m) {l : List ℝ} (h : ∀ x ∈ l, 0 ≤ x) :
    m * (0.75 * l.sum) ≤ peakValue count 1 m l ∧ peakValue count 1 m l ≤ m * l.sum := by
  unfold peakValue
  have e : ∀ l : List ℝ, (hardestFirst l).sum = l.sum := fun l => (List.perm_insertionSort _ l).sum_eq
  rw [weighted_one, e]
  obtain ⟨h1, h2⟩ := eased_sum (count := count) (i := 0) (l := hardestFirst l) fun x hx => h x (hardestFirst_mem.mp hx)
  rw [e] at h1 h2
  exact ⟨mul_le_mul_of_nonneg_left h1 hm, mul_le_mul_of_nonneg_left h2 hm⟩

theorem peaks_unique {b : ℝ} {τ v β : ℕ → ℝ} {k : ℕ} {l l' : List (Option ℝ)} (h : PeakList b τ v β k l) (h' : PeakList b τ v β k l') :
    l = l' := by
  have hlen : l.length = l'.length := by
    have := h.length.trans h'.length.symm
    exact_mod_cast this
  refine List.ext_getElem hlen fun i hi hi' => ?_
  obtain ⟨y, e, hy⟩ := h.peak i _ (List.getElem?_eq_getElem hi)
  obtain ⟨y', e', hy'⟩ := h'.peak i _ (List.getElem?_eq_getElem hi')
  rw [e, e', hy.unique hy']

theorem starsOf_ge (a s f : ℝ) : (1.12 : ℝ) ^ (1 / 3 : ℝ) * 0.135 ≤ starsOf a s f := by
  unfold starsOf
  have ha := baseValue_ge a
  have hs := baseValue_ge s
  have h2 : (0 : ℝ) < (2 : ℝ) ^ (1 / 1.1 : ℝ) := by positivity
  have key : (2 : ℝ) ^ (1 / 1.1 : ℝ) * 0.00001 ≤
      (baseValue a ^ (1.1 : ℝ) + baseValue s ^ (1.1 : ℝ) + (25 * f ^ 2) ^ (1.1 : ℝ)) ^ (1 / 1.1 : ℝ) := by
    calc (2 : ℝ) ^ (1 / 1.1 : ℝ) * 0.00001 = (2 * (0.00001 : ℝ) ^ (1.1 : ℝ)) ^ (1 / 1.1 : ℝ) := by
          rw [Real.mul_rpow (by norm_num) (by positivity), ← Real.rpow_mul (by norm_num)]; norm_num
      _ ≤ _ := by
        refine Real.rpow_le_rpow (by positivity) ?_ (by norm_num)
        have h1 := Real.rpow_le_rpow (by norm_num) ha (show (0 : ℝ) ≤ 1.1 by norm_num)
        have h2 := Real.rpow_le_rpow (by norm_num) hs (show (0 : ℝ) ≤ 1.1 by norm_num)
        have h3 : 0 ≤ (25 * f ^ 2) ^ (1.1 : ℝ) := by positivity
        linarith
  generalize (baseValue a ^ (1.1 : ℝ) + baseValue s ^ (1.1 : ℝ) + (25 * f ^ 2) ^ (1.1 : ℝ)) ^ (1 / 1.1 : ℝ) = y at key
  have h1 : 1 ≤ 100000 / (2 : ℝ) ^ (1 / 1.1 : ℝ) * y := by
    rw [div_mul_eq_mul_div, le_div_iff₀ h2]
    linarith
  have h3 := Real.one_le_rpow h1 (show (0 : ℝ) ≤ 1 / 3 by norm_num)
  have h4 : (0 : ℝ) < (1.12 : ℝ) ^ (1 / 3 : ℝ) := by positivity
  nlinarith

theorem starsOf_zero : starsOf 0 0 0 = (1.12 : ℝ) ^ (1 / 3 : ℝ) * 0.135 := by
  unfold starsOf
  have h2 : (0 : ℝ) < (2 : ℝ) ^ (1 / 1.1 : ℝ) := by positivity
  have hb : baseValue 0 = 0.00001 := by unfold baseValue; norm_num
  have e : (baseValue 0 ^ (1.1 : ℝ) + baseValue 0 ^ (1.1 : ℝ) + (25 * (0 : ℝ) ^ 2) ^ (1.1 : ℝ)) ^ (1 / 1.1 : ℝ) =
      (2 : ℝ) ^ (1 / 1.1 : ℝ) * 0.00001 := by
    rw [hb]
    have : (25 * (0 : ℝ) ^ 2) ^ (1.1 : ℝ) = 0 := by
      rw [show (25 * (0 : ℝ) ^ 2) = 0 by norm_num]; exact Real.zero_rpow (by norm_num)
    rw [this, add_zero, ← two_mul, Real.mul_rpow (by norm_num) (by positivity), ← Real.rpow_mul (by norm_num)]; norm_num
  rw [e, show 100000 / (2 : ℝ) ^ (1 / 1.1 : ℝ) * ((2 : ℝ) ^ (1 / 1.1 : ℝ) * 0.00001) = 1 by field_simp; norm_num, Real.one_rpow]
  norm_num [mul_assoc]

end GosuPP.Exactly
