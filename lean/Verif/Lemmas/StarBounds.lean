import Verif.Lemmas.SkillBounds

/-! Bounds of difficulty values and star ratings. -/

namespace GosuPP
open Go Fl Spec

/-- A finite bound of every non-negative number up to a power of two. -/
theorem In.upTo {x : F64} {k l : ℕ} (h : In 0 (2 ^ k) x) (hkl : k ≤ l) : In 0 (2 ^ l) x :=
  h.mono le_rfl (pow_le_pow_right₀ (by norm_num) hkl)

theorem peaks_length {d : Difficulty F64} {n : ℕ} {sk : Skill F32 F64} (h : SkOk d n sk) : sk.getCurrentStrainPeaks.length ≤ 2 ^ 45 := by
  unfold Skill.getCurrentStrainPeaks
  rw [List.length_append, List.length_singleton]
  rcases h.sect with ⟨-, e⟩ | ⟨-, k, -, h2, h3, -⟩
  · rw [e]; simp
  · have := (abs_le.mp h2).2
    omega

theorem reduceLoop_length [GoLibm F64] (count : ℕ) (b : F64) (i : ℕ) (l : List F64) : (Skill.reduceLoop count b i l).length = l.length := by
  induction l generalizing i with
  | nil => rfl
  | cons s l ih =>
    rw [Skill.reduceLoop]
    split
    · simp only [List.length_cons, ih]
    · rfl

theorem fresh_tuned {d : Difficulty F64} {sk : Skill F32 F64} (h : ∃ new ∈ freshSkills d, SameSettings sk new) : sk.Tuned := by
  obtain ⟨new, hn, hs⟩ := h
  unfold freshSkills at hn
  simp only [List.mem_cons, List.not_mem_nil, or_false] at hn
  rcases hn with rfl | rfl | rfl | rfl
  · exact ⟨.inr hs.7, hs.8, .inl hs.4, .inl hs.9⟩
  · exact ⟨.inr hs.7, hs.8, .inl hs.4, .inl hs.9⟩
  · exact ⟨.inl hs.7, hs.8, .inl hs.4, .inr hs.9⟩
  · exact ⟨.inr hs.7, hs.8, .inr hs.4, .inl hs.9⟩

theorem in_of_nonneg {x : F64} (h0 : NonNeg x) (h1 : Fl.le x (fin 1 false) = true) : In 0 1 x := by
  cases x with
  | nan => cases h1
  | inf s => cases s <;> [cases h1; cases h0]
  | fin v z => exact ⟨v, z, rfl, nonNeg_fin.mp h0, by simpa [Fl.le] using h1⟩

variable [GoLibm F64] (hl : PowLaws) (ht : TrigLaws)

theorem weightedSum_in {k : ℕ} (hk : k ≤ 900) {dw : F64} (hd : In 0 1 dw) {l : List F64} (hl : ∀ x ∈ l, In 0 (2 ^ k) x) {m : ℕ}
    (hm : m + l.length ≤ 2 ^ 53) {a w : F64} (ha : In 0 (m * 2 ^ k) a) (hw : In 0 1 w) :
    In 0 ((m + l.length : ℕ) * 2 ^ k) (Skill.weightedSum dw l a w) := by
  induction l generalizing a w m with
  | nil => exact ha
  | cons s l ih =>
    rw [Skill.weightedSum]
    simp only [List.length_cons] at hm ⊢
    have h1 := (hl s (by simp)).mul1 hw (by omega)
    have h2 := ha.add h1 nice_zero (b' := (m + 1 : ℕ) * 2 ^ k) (nice_mul (by omega) hk) (by norm_num) (by push_cast; linarith)
    have := ih (fun x hx => hl x (by simp [hx])) (m := m + 1) (by omega) h2 (hw.unit_mul hd)
    rw [show m + (l.length + 1) = m + 1 + l.length by ring]
    exact this

theorem logBounds (ht : TrigLaws) : LogBounds := by
  intro x h1 h2
  have e1 : (lit 1 : F64) = fin 1 false := by decide +kernel
  have e10 : (lit 10 : F64) = fin 10 false := by decide +kernel
  have := ht.log x ⟨by rw [e1]; exact h1, by rw [e10]; exact h2⟩
  have hi := in_of_within this nice_zero nice_one
  obtain ⟨v, z, e, v1, v2⟩ := hi
  rw [e]
  exact ⟨nonNeg_fin.mpr v1, by simpa [Fl.le] using v2⟩

section
include ht

theorem reduceLoop_in {k : ℕ} (hk : k ≤ 900) {count : ℕ} (hc : count = 5 ∨ count = 10) (i : ℕ) {l : List F64} (h : ∀ x ∈ l, In 0 (2 ^ k) x) :
    ∀ x ∈ Skill.reduceLoop count (lit 0.75) i l, In 0 (2 ^ k) x := by
  induction l generalizing i with
  | nil => rw [Skill.reduceLoop]; simp
  | cons s l ih =>
    rw [Skill.reduceLoop]
    split
    · intro x hx
      rcases List.mem_cons.mp hx with rfl | hx
      · obtain ⟨b1, b2⟩ := factor_bounds (logBounds ht) hc i
        exact (h s (by simp)).mul1 (in_of_nonneg b1 b2) (by omega)
      · exact ih (i + 1) (fun y hy => h y (by simp [hy])) x hx
    · exact h

theorem difficultyValue_in [GoSort] {d : Difficulty F64} {n : ℕ} (hn : n ≤ 2 ^ 30) {sk : Skill F32 F64} (h : SkOk d n sk) :
    In 0 (2 ^ (76 + capP sk.kind)) sk.difficultyValue := by
  have htn := fresh_tuned h.fresh
  have hcap := capP_le sk.kind
  have hpk : ∀ x ∈ sk.getCurrentStrainPeaks, In 0 (2 ^ (30 + capP sk.kind)) x := by
    intro x hx
    refine (h.peaks x hx).mono le_rfl ?_
    rw [pow_add]
    have : (n : ℚ) ≤ 2 ^ 30 := by exact_mod_cast hn
    exact mul_le_mul_of_nonneg_right this (by positivity)
  have hlen := peaks_length h
  unfold Skill.difficultyValue Skill.valueOfPeaks
  simp only
  rw [htn.baseline]
  have h1 : ∀ x ∈ Skill.reverseSort sk.getCurrentStrainPeaks, In 0 (2 ^ (30 + capP sk.kind)) x := fun x hx =>
    hpk x ((reverseSort_perm _).mem_iff.mp hx)
  have h2 := reduceLoop_in ht (by omega : 30 + capP sk.kind ≤ 900) htn.count 0 h1
  have h3 : ∀ x ∈ Skill.reverseSort (Skill.reduceLoop sk.reducedSectionCount (lit 0.75) 0 (Skill.reverseSort sk.getCurrentStrainPeaks)),
      In 0 (2 ^ (30 + capP sk.kind)) x := fun x hx => h2 x ((reverseSort_perm _).mem_iff.mp hx)
  have hl3 : (Skill.reverseSort (Skill.reduceLoop sk.reducedSectionCount (lit 0.75) 0 (Skill.reverseSort sk.getCurrentStrainPeaks))).length
      ≤ 2 ^ 45 := by
    rw [(reverseSort_perm _).length_eq, reduceLoop_length, (reverseSort_perm _).length_eq]
    exact hlen
  generalize Skill.reverseSort (Skill.reduceLoop sk.reducedSectionCount (lit 0.75) 0 (Skill.reverseSort sk.getCurrentStrainPeaks)) = l at h3 hl3
  have hw : In 0 1 sk.decayWeight := in_of_nonneg htn.weight.1 htn.weight.2
  have h4 := weightedSum_in (m := 0) (by omega : 30 + capP sk.kind ≤ 900) hw h3 (by omega) (a := lit 0) (w := lit 1)
    (in_zero.mono le_rfl (by norm_num)) (in_one.mono (by norm_num) le_rfl)
  have h5 : In 0 (2 ^ (45 + (30 + capP sk.kind))) (Skill.weightedSum sk.decayWeight l (lit 0) (lit 1)) := by
    refine h4.mono le_rfl ?_
    rw [pow_add 2 45]
    have : ((0 + l.length : ℕ) : ℚ) ≤ 2 ^ 45 := by rw [zero_add]; exact_mod_cast hl3
    exact mul_le_mul_of_nonneg_right this (by positivity)
  have hm : In 0 (2 ^ 1) sk.difficultyMultiplier := by
    rcases htn.multiplier with e | e <;> rw [e]
    · exact lit_up 1 (by norm_num) (by norm_num) (by norm_num)
    · exact lit_up 1 (by norm_num) (by norm_num) (by norm_num)
  exact (h5.mulU hm (by omega)).upTo (by omega)

end

theorem sqrt156 : Go.Fl.sqrt (fin (2 ^ 156) false : F64) = fin (2 ^ 78) false := by decide +kernel
theorem sqrt202 : Go.Fl.sqrt (fin (2 ^ 202) false : F64) = fin (2 ^ 101) false := by decide +kernel

/-- The attributes that the raw difficulty values give. -/
structure StarsOk (a : Attributes F64) : Prop where
  total : In 0 (2 ^ 560) a.total
  aim : In 0 (2 ^ 80) a.aim
  speed : In 0 (2 ^ 80) a.speed
  flashlight : In 0 (2 ^ 104) a.flashlight
  sliderFactor : Fl.WF a.sliderFactor ∧ In 0 (2 ^ 96) a.sliderFactor

section
include hl ht

theorem cbrt_in {x : F64} {k : ℕ} (hk : k ≤ 1000) (h : In 0 (2 ^ k) x) : In 0 (2 ^ k) (GoLibm.cbrt x : F64) :=
  in_of_within (ht.cbrt x k hk (h.within nice_zero (nice_pow k (by omega)))) nice_zero (nice_pow k (by omega))

theorem totalFromBases_in {a s f : F64} (ha : In 0 (2 ^ 261) a) (hs : In 0 (2 ^ 261) s) (hf : In 0 (2 ^ 261) f) :
    In 0 (2 ^ 560) (totalFromBases a s f) := by
  have hy : In 0 ((2 : ℕ) : ℚ) (lit 1.1 : F64) := (lit_up (q := 1.1) 1 (by norm_num) (by norm_num) (by norm_num)).mono le_rfl (by norm_num)
  have h11 : In 0 ((1 : ℕ) : ℚ) (lit (1 / 1.1) : F64) := (lit_unit (q := 1 / 1.1) (by norm_num) (by norm_num)).mono le_rfl (by norm_num)
  have h : ∀ x : F64, In 0 (2 ^ 261) x → In 0 (2 ^ 522) (GoLibm.pow x (lit 1.1) : F64) := fun x hx =>
    pow_up hl 261 2 (by norm_num) (by norm_num) (by norm_num) hx hy
  unfold totalFromBases
  simp only
  split
  · have b1 := pow_up hl 524 1 (by norm_num) (by norm_num) (by norm_num)
      (((h a ha).addU (h s hs) (by norm_num)).addU ((h f hf).upTo (by norm_num)) (by norm_num)) h11
    generalize GoLibm.pow (GoLibm.pow a (lit 1.1) +. GoLibm.pow s (lit 1.1) +. GoLibm.pow f (lit 1.1)) (lit (1 / 1.1)) = base at b1
    have l2 : In 1 (2 ^ 1) (lit 2 : F64) := in_lit nice_one (by exact nice_pow 1 (by norm_num)) (by norm_num) (by norm_num)
    have p2 : In 0 (2 ^ (1 * 1)) (GoLibm.pow (lit 2) (lit (1 / 1.1)) : F64) := pow_large hl (by norm_num) (by norm_num) (by norm_num) l2 h11
    have p2' : In 1 (2 ^ (1 * 1)) (GoLibm.pow (lit 2) (lit (1 / 1.1)) : F64) :=
      In.of_le (hl.root _ _ (l2.lit_le nice_one) (h11.lit_le nice_zero)) (p2.le_lit (nice_pow _ (by norm_num))) nice_one (nice_pow _ (by norm_num))
    have b2 : In 0 (2 ^ 17) (lit 100000 /. GoLibm.pow (lit 2) (lit (1 / 1.1)) : F64) :=
      (lit_up (q := 100000) 17 (by norm_num) (by norm_num) (by norm_num)).div p2' le_rfl (by norm_num) (nice_pow 17 (by norm_num)) (by norm_num)
    have b3 := cbrt_in hl ht (by norm_num) (b2.mulU b1 (by norm_num))
    have b4 := b3.addU ((lit_up (q := 4) 2 (by norm_num) (by norm_num) (by norm_num)).upTo (by norm_num)) (by norm_num)
    have b5 := cbrt_in hl ht (k := 1) (by norm_num) (lit_up (q := 1.12) 1 (by norm_num) (by norm_num) (by norm_num))
    have b6 := b5.mulU ((lit_unit (q := 0.027) (by norm_num) (by norm_num)).unit) (by norm_num)
    exact (b6.mulU b4 (by norm_num)).upTo (by norm_num)
  · exact (lit_unit (q := 0) le_rfl (by norm_num)).unit.upTo (by norm_num)

theorem getStars_in {ra rn rs rf : F64} (h1 : In 0 (2 ^ 156) ra) (h2 : In 0 (2 ^ 156) rn) (h3 : In 0 (2 ^ 156) rs)
    (h4 : In 0 (2 ^ 202) rf) (d : Difficulty F64) (a : Attributes F64) : StarsOk (getStarsFromRawValues ra rn rs rf d a) := by
  have u : In 0 1 (lit 0.0675 : F64) := lit_unit (by norm_num) (by norm_num)
  have a1 := (h1.sqrt sqrt156).mul1 u (by norm_num)
  have a2 := (h2.sqrt sqrt156).mul1 u (by norm_num)
  have a3 := (h3.sqrt sqrt156).mul1 u (by norm_num)
  have a4 := (h4.sqrt sqrt202).mul1 u (by norm_num)
  have hsp : In 0 (2 ^ 80) (if d.checkModActive Mod.Relax then lit 0 else GoFloat.sqrt rs *. lit 0.0675) := by
    split
    · exact in_zero.mono le_rfl (by norm_num)
    · exact a3.upTo (by norm_num)
  unfold getStarsFromRawValues
  simp only
  refine ⟨?_, a1.upTo (by norm_num), hsp, a4.upTo (by norm_num), ?_, ?_⟩
  · refine totalFromBases_in hl ht (ppBase_in hl (a1.upTo (by norm_num))) (ppBase_in hl hsp) ?_
    split
    · have := pow_sq hl 101 (by norm_num) (a4.mono (by norm_num) le_rfl)
      exact (this.mulU (lit_up (q := 25) 5 (by norm_num) (by norm_num) (by norm_num)) (by norm_num)).upTo (by norm_num)
    · exact (lit_unit (q := 0) le_rfl (by norm_num)).unit.upTo (by norm_num)
  · simp only
    split
    · exact div_wf
    · exact ofRat_wf _ _
  · simp only
    split
    · rename_i hgt
      have hlo : In (1 / 2 ^ 17) (2 ^ 78) (GoFloat.sqrt ra *. lit 0.0675) := by
        obtain ⟨v, z, e, v1, v2⟩ := a1
        obtain ⟨w, t, e', w1, w2⟩ := in_lit (q := 0.00001) (a := 1 / 2 ^ 17) (b := 1) (nice_neg_pow 17 (by norm_num)) nice_one (by norm_num) (by norm_num)
        rw [e, e'] at hgt
        have hlt : w < v := by simpa [go_lt, Fl.lt] using hgt
        exact ⟨v, z, e, by linarith, v2⟩
      exact a2.div hlo le_rfl (by norm_num) (nice_pow 96 (by norm_num)) (by norm_num)
    · exact in_one.mono (by norm_num) (by norm_num)

end

end GosuPP
