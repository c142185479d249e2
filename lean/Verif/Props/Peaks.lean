import Verif.Lemmas.PeakGrowth
import Verif.Props.Calc

/-!
# C50, C51: difficulty values and strain peaks, in IEEE arithmetic
-/

namespace GosuPP.Props
open Go Fl Spec

private theorem fresh_strain {T D : Type} [GoFloat D] {d : Difficulty D} {new : Skill T D} (hn : new ∈ freshSkills d) :
    new.currentStrain = GoFloat.lit 0 := by
  unfold freshSkills at hn
  simp only [List.mem_cons, List.not_mem_nil, or_false] at hn
  rcases hn with rfl | rfl | rfl | rfl <;> rfl

private theorem fresh_peaks {T D : Type} [GoFloat D] {d : Difficulty D} {new : Skill T D} (hn : new ∈ freshSkills d) :
    new.getCurrentStrainPeaks = [GoFloat.lit 0] := by
  unfold freshSkills at hn
  simp only [List.mem_cons, List.not_mem_nil, or_false] at hn
  rcases hn with rfl | rfl | rfl | rfl <;> rfl

section
variable {S : Type} [GoLibm F64]

omit [GoLibm F64] in
private theorem tuned {sk : Skill S F64} {d : Difficulty F64} {new : Skill S F64}
    (hn : new ∈ freshSkills d) (h : SameSettings sk new) : sk.Tuned := by
  unfold freshSkills at hn
  simp only [List.mem_cons, List.not_mem_nil, or_false] at hn
  rcases hn with rfl | rfl | rfl | rfl
  · exact ⟨.inr h.reducedSectionCount, h.reducedStrainBaseline, .inl h.decayWeight, .inl h.difficultyMultiplier⟩
  · exact ⟨.inr h.reducedSectionCount, h.reducedStrainBaseline, .inl h.decayWeight, .inl h.difficultyMultiplier⟩
  · exact ⟨.inl h.reducedSectionCount, h.reducedStrainBaseline, .inl h.decayWeight, .inr h.difficultyMultiplier⟩
  · exact ⟨.inr h.reducedSectionCount, h.reducedStrainBaseline, .inr h.decayWeight, .inl h.difficultyMultiplier⟩

private theorem value_congr [GoSort] {a b : Skill S F64} (h : SameSettings a b) (p : List F64) :
    a.valueOfPeaks p = b.valueOfPeaks p := by
  unfold Skill.valueOfPeaks
  rw [h.reducedSectionCount, h.reducedStrainBaseline, h.decayWeight, h.difficultyMultiplier]

/-- C50 (IEEE, any library functions with `0 ≤ log10 ≤ 1` on `[1, 10]`, any two sorts). Let `a` and
`b` be the same skill at different moments, with finite non-negative peaks. If the peaks of `b` are
those of `a` with some raised, some added and all reordered, then the difficulty value of `b` is at
least that of `a`. It does not matter how either sort orders ties. -/
theorem C50_monotone (hlog : LogBounds) (g₁ g₂ : GoSort) (d : Difficulty F64) (new a b : Skill S F64)
    (hn : new ∈ freshSkills d) (ha : SameSettings a new) (hb : SameSettings b new)
    (hp : ∀ x ∈ a.getCurrentStrainPeaks, IsPeak x) (hq : ∀ x ∈ b.getCurrentStrainPeaks, IsPeak x)
    (h : Dominated a.getCurrentStrainPeaks b.getCurrentStrainPeaks) :
    Fl.le (GoFloat.lit 0) (@Skill.difficultyValue S F64 _ _ g₁ a) = true ∧
    Fl.le (@Skill.difficultyValue S F64 _ _ g₁ a) (@Skill.difficultyValue S F64 _ _ g₂ b) = true := by
  obtain ⟨q', h1, h2⟩ := h
  have := valueOfPeaks_mono hlog g₁ g₂ (tuned hn ha) hp hq 
    (Dom.of_forall₂ (le := Fl.le) (P := NN) (fun x y z => Fl.le_trans) h1 h2)
  unfold Skill.difficultyValue
  refine ⟨Fl.le_trans (by decide +kernel) this.1, ?_⟩
  rw [@value_congr S _ g₂ _ _ hb, ← @value_congr S _ g₂ _ _ ha]
  exact this.2

/-- C50 (IEEE). The difficulty value does not depend on the order of the peaks nor on the sort. -/
theorem C50_order (hlog : LogBounds) (g₁ g₂ : GoSort) (d : Difficulty F64) (new a b : Skill S F64)
    (hn : new ∈ freshSkills d) (ha : SameSettings a new) (hb : SameSettings b new)
    (hp : ∀ x ∈ a.getCurrentStrainPeaks, IsPeak x)
    (h : a.getCurrentStrainPeaks.Perm b.getCurrentStrainPeaks) :
    Fl.eq (@Skill.difficultyValue S F64 _ _ g₁ a) (@Skill.difficultyValue S F64 _ _ g₂ b) = true := by
  have hq : ∀ x ∈ b.getCurrentStrainPeaks, IsPeak x := fun x hx => hp x (h.mem_iff.mpr hx)
  have hrefl : ∀ l : List F64, (∀ x ∈ l, IsPeak x) → List.Forall₂ (fun x y => Fl.le x y = true) l l := by
    intro l hl
    induction l with
    | nil => exact .nil
    | cons x l ih => exact .cons (Fl.le_refl (hl x (by simp)).nn) (ih fun y hy => hl y (by simp [hy]))
  rw [eq_iff_le]
  exact ⟨(C50_monotone hlog g₁ g₂ d new a b hn ha hb hp hq ⟨_, hrefl _ hp, h.subperm⟩).2,
    (C50_monotone hlog g₂ g₁ d new b a hn hb ha hq hp ⟨_, hrefl _ hq, h.symm.subperm⟩).2⟩

/-! ### C51 -/

variable [GoFloat S] [GoConv S F64]

/-- What every skill satisfies at all times. -/
private structure Sound (sk : Skill S F64) : Prop where
  tuned : sk.Tuned
  wf : sk.PeaksWF
  strain : WF sk.currentStrain

omit [GoFloat S] [GoConv S F64] [GoLibm F64] in
private theorem sound_new {d : Difficulty F64} {new : Skill S F64} (hn : new ∈ freshSkills d) : Sound new := by
  refine ⟨tuned hn ⟨rfl, rfl, rfl, rfl, rfl, rfl, rfl, rfl, rfl, rfl⟩, ?_, ?_⟩
  · intro x hx
    rw [fresh_peaks hn] at hx
    exact wf_lit (List.mem_singleton.mp hx)
  · exact wf_lit (fresh_strain hn)

private theorem sound_process {fuel : Nat} {c : DiffObject S F64} {sk sk' : Skill S F64} (h : Sound sk)
    (hp : sk.process fuel c = .ok sk') : Sound sk' := by
  have hs := Skill.process_settings hp
  obtain ⟨h1, h2, -⟩ := Skill.process_peaks hp h.wf h.strain
  have t := h.tuned
  exact ⟨⟨hs.reducedSectionCount ▸ t.count, hs.reducedStrainBaseline ▸ t.baseline, hs.decayWeight ▸ t.decay,
    hs.difficultyMultiplier ▸ t.multiplier⟩, h1, h2⟩

omit [GoLibm F64] [GoFloat S] [GoConv S F64] in
private theorem isPeak {sk : Skill S F64} (h : sk.PeaksWF)
    (hg : ∀ x ∈ sk.getCurrentStrainPeaks, Fl.Fin x ∧ NonNeg x) : ∀ x ∈ sk.getCurrentStrainPeaks, IsPeak x :=
  fun x hx => ⟨(hg x hx).1, h x hx, (hg x hx).2⟩

/-- The rating that belongs to a difficulty value. -/
private def rating (v : F64) : F64 := GoFloat.sqrt v *. GoFloat.lit 0.0675

private theorem scaling : ∃ v b, v ≠ 0 ∧ (GoFloat.lit 0.0675 : F64) = fin v b := by
  have key : ∀ x : F64, isFin x = true → Fl.eq x (fin 0 false) = false → ∃ v b, v ≠ 0 ∧ x = fin v b := by
    intro x h1 h2
    obtain ⟨v, b, rfl⟩ := (isFin_iff _).mp h1
    exact ⟨v, b, by simpa [Fl.eq] using h2, rfl⟩
  exact key _ (by decide +kernel) (by decide +kernel)

private theorem scaling_nonneg : NonNeg (GoFloat.lit 0.0675 : F64) := by decide +kernel

private theorem rating_mono {x y : F64} (hx : NonNeg x) (h : Fl.le x y = true) :
    NonNeg (rating x) ∧ Fl.le (rating x) (rating y) = true := by
  have h1 : Fl.le (Fl.sqrt x) (Fl.sqrt y) = true := sqrt_mono (f := fmt64) (by decide) hx h
  have h0 : NonNeg (Fl.sqrt x) := sqrt_nonneg (le_nn h1).1
  obtain ⟨v, b, hv, e⟩ := scaling
  have hc := scaling_nonneg
  unfold rating
  rw [e] at hc ⊢
  exact ⟨mul_nonneg h0 hc (mul_fin_nn (le_nn h0).2 hv b),
    mul_le_mul_right h1 hc (mul_fin_nn (le_nn h1).1 hv b) (mul_fin_nn (le_nn h1).2 hv b)⟩

variable [GoSort]

private theorem value_step (hlog : LogBounds) {fuel : Nat} {c : DiffObject S F64} {sk sk' : Skill S F64} (h : Sound sk)
    (hp : sk.process fuel c = .ok sk') (hg : ∀ x ∈ sk.getCurrentStrainPeaks, Fl.Fin x ∧ NonNeg x)
    (hg' : ∀ x ∈ sk'.getCurrentStrainPeaks, Fl.Fin x ∧ NonNeg x) :
    Fl.le (rating sk.difficultyValue) (rating sk'.difficultyValue) = true := by
  obtain ⟨h1, h2, h3⟩ := Skill.process_peaks hp h.wf h.strain
  have hu := h3 (fun x hx => (hg' x hx).1)
  have := valueOfPeaks_mono hlog ‹GoSort› ‹GoSort› h.tuned (isPeak h.wf hg) (isPeak h1 hg')
    (hu.dom (le := Fl.le) (P := NN) (fun x y z => Fl.le_trans))
  unfold Skill.difficultyValue
  rw [← value_congr (Skill.process_settings hp)]
  exact (rating_mono this.1 this.2).2

/-- The peaks that a calculation reports. -/
private def Good (sk : SkillSet S F64) : Prop :=
  (∀ x ∈ sk.aim.getCurrentStrainPeaks, Fl.Fin x ∧ NonNeg x) ∧
  (∀ x ∈ sk.speed.getCurrentStrainPeaks, Fl.Fin x ∧ NonNeg x) ∧
  ∀ f, sk.flashlight = some f → ∀ x ∈ f.getCurrentStrainPeaks, Fl.Fin x ∧ NonNeg x

private structure J (sk : SkillSet S F64) : Prop where
  aim : Sound sk.aim
  speed : Sound sk.speed
  flashlight : ∀ f, sk.flashlight = some f → Sound f

private theorem process_parts {fuel : Nat} {d : DiffObject S F64} {sk sk' : SkillSet S F64}
    (h : sk.process fuel d = .ok sk') : sk.aim.process fuel d = .ok sk'.aim ∧
    sk.speed.process fuel d = .ok sk'.speed ∧
    ((sk.flashlight = none ∧ sk'.flashlight = none) ∨
      ∃ f f', sk.flashlight = some f ∧ sk'.flashlight = some f' ∧ f.process fuel d = .ok f') := by
  unfold SkillSet.process at h
  obtain ⟨a, h1, h⟩ := bind_ok h
  obtain ⟨n, h2, h⟩ := bind_ok h
  obtain ⟨s, h3, h⟩ := bind_ok h
  obtain ⟨f, h4, h⟩ := bind_ok h
  cases h
  refine ⟨h1, h3, ?_⟩
  cases hf : sk.flashlight with
  | none => rw [hf] at h4; cases h4; exact .inl ⟨rfl, rfl⟩
  | some x =>
    rw [hf] at h4
    unfold SkillSet.processOpt at h4
    obtain ⟨f', h5, h4⟩ := bind_ok h4
    cases h4
    exact .inr ⟨x, f', rfl, rfl, h5⟩

private theorem zero_le : Fl.le (GoFloat.lit 0 : F64) (fin 0 false) = true := by decide +kernel

private theorem rating_zero : Fl.le (rating (GoFloat.lit 0)) (rating (GoFloat.lit 0)) = true :=
  (rating_mono (by decide +kernel) (by decide +kernel)).2

private theorem step_ratings (hlog : LogBounds) {fuel : Nat} {diff : Difficulty F64} (sk sk' : SkillSet S F64)
    (d : DiffObject S F64) (hJ : J sk) (hg : Good sk) (h : sk.process fuel d = .ok sk') (hg' : Good sk')
    (a b : Attributes F64) : RatingsLE (sk.getStars diff a) (sk'.getStars diff b) := by
  obtain ⟨h1, h2, h3⟩ := process_parts h
  refine ⟨value_step hlog hJ.aim h1 hg.1 hg'.1, ?_, ?_⟩
  · unfold SkillSet.getStars getStarsFromRawValues
    simp only
    split
    · exact Fl.le_refl (lit_nn 0)
    · exact value_step hlog hJ.speed h2 hg.2.1 hg'.2.1
  · show Fl.le (rating _) (rating _) = true
    rcases h3 with ⟨e1, e2⟩ | ⟨f, f', e1, e2, e3⟩
    · rw [e1, e2]; exact rating_zero
    · rw [e1, e2]
      exact value_step hlog (hJ.flashlight f e1) e3 (hg.2.2 f e1) (hg'.2.2 f' e2)

/-- C51 (IEEE, any library functions with `0 ≤ log10 ≤ 1` on `[1, 10]`). If the strain peaks of every
beginning of the map are finite and non-negative, the aim, speed and flashlight ratings of
`CalculateStep` never decrease. -/
theorem C51_nondecreasing (hlog : LogBounds) (fuel : Nat) (objs : List (Obj S F64)) (diff : Difficulty F64)
    (stars : List (Attributes F64)) (h : calculateStep fuel objs diff = .ok stars)
    (hp : ∀ n p, calculateStrainPeaks fuel (objs.take n) diff = .ok p →
      ∀ x ∈ p.aim ++ p.speed ++ p.flashlight, Fl.Fin x ∧ Fl.le (GoFloat.lit 0) x = true) :
    stars.IsChain RatingsLE := by
  unfold calculateStep at h
  obtain ⟨⟨st, sk⟩, hc, h⟩ := bind_ok h
  cases h
  unfold calculateStepCore at hc
  obtain ⟨ds, hd, hc⟩ := bind_ok hc
  split at hc
  · cases hc
  obtain ⟨o, ho, hc⟩ := bind_ok hc
  simp only at hc
  obtain ⟨⟨rest, sk'⟩, hs, hc⟩ := bind_ok hc
  cases hc
  have hlen := createDifficultyObjects_length hd
  have hJ0 : J (SkillSet.new (S := S) diff) := by
    refine ⟨sound_new (d := diff) (by simp [freshSkills, SkillSet.new]),
      sound_new (d := diff) (by simp [freshSkills, SkillSet.new]), ?_⟩
    intro f hf
    unfold SkillSet.new at hf
    simp only at hf
    split at hf
    · cases hf; exact sound_new (d := diff) (by simp [freshSkills])
    · cases hf
  have hinv : ∀ n s, (∃ b b', singleLoop fuel (ds.take n) objs.tail b (SkillSet.new diff) = .ok (b', s)) → Good s := by
    rintro n s ⟨b, b', hb⟩
    rcases peakLoop_single fuel (ds.take n) objs.tail
      (by rw [List.length_take, List.length_tail, hlen]; omega) b _ (locked_new diff) with
      ⟨e, k1, -⟩ | ⟨at', s', k1, k2, k3, -⟩
    · rw [hb] at k1; cases k1
    rw [hb] at k1
    cases k1
    obtain ⟨p, hp1, hp2, hp3, hp4, -⟩ := getPeaks_ok diff s k3
    have hpk : calculateStrainPeaks fuel (objs.take (n + 1)) diff = .ok p := by
      unfold calculateStrainPeaks
      rw [createDifficultyObjects_take hd n, ok_bind]
      show (peakLoop fuel (ds.take n) ⟨(SkillSet.new (S := S) diff).aim, (SkillSet.new diff).speed,
            (SkillSet.new diff).flashlight⟩ >>= fun sk => getPeaks sk.aim sk.speed sk.flashlight diff) = _
      rw [k2]
      exact hp1
    have hall := hp _ _ hpk
    have e0 : (GoFloat.lit 0 : F64) = fin 0 false := by decide +kernel
    rw [e0] at hall
    refine ⟨fun x hx => hall x ?_, fun x hx => hall x ?_, fun f hf x hx => hall x ?_⟩
    · rw [hp2]; simp [hx]
    · rw [hp3]; simp [hx]
    · rw [hp4, hf]; simp [hx]
  have chain := stepLoop_chain J Good RatingsLE (fun sk sk' d hJ h => by
      obtain ⟨h1, h2, h3⟩ := process_parts h
      refine ⟨sound_process hJ.aim h1, sound_process hJ.speed h2, ?_⟩
      intro f hf
      rcases h3 with ⟨e1, e2⟩ | ⟨g, g', e1, e2, e3⟩
      · rw [e2] at hf; cases hf
      · rw [e2] at hf; cases hf; exact sound_process (hJ.flashlight g e1) e3)
    (step_ratings hlog) hs hJ0 hinv Attributes.zero
  cases rest with
  | nil => exact .singleton _
  | cons r rs =>
    rw [List.isChain_cons_cons] at chain ⊢
    refine ⟨?_, chain.2⟩
    obtain ⟨c1, c2, c3⟩ := chain.1
    have hgood := hinv 0 _ ⟨Attributes.zero, Attributes.zero, rfl⟩
    have hv : ∀ {k : Skill S F64}, Sound k → (∀ x ∈ k.getCurrentStrainPeaks, Fl.Fin x ∧ NonNeg x) →
        Fl.le (GoFloat.lit 0) (rating k.difficultyValue) = true := by
      intro k hk hg
      have := valueOfPeaks_mono hlog ‹GoSort› ‹GoSort› hk.tuned (isPeak hk.wf hg) (isPeak hk.wf hg)
        (fun x _ => Nat.le_refl _)
      exact Fl.le_trans zero_le (rating_mono this.1 this.2).1
    have z1 : (addObjectToAttribs o Attributes.zero).aim = (GoFloat.lit 0 : F64) := by
      unfold addObjectToAttribs; cases o.kind <;> rfl
    have z2 : (addObjectToAttribs o Attributes.zero).speed = (GoFloat.lit 0 : F64) := by
      unfold addObjectToAttribs; cases o.kind <;> rfl
    have z3 : (addObjectToAttribs o Attributes.zero).flashlight = (GoFloat.lit 0 : F64) := by
      unfold addObjectToAttribs; cases o.kind <;> rfl
    refine ⟨?_, ?_, ?_⟩
    · rw [z1]; exact Fl.le_trans (hv hJ0.aim hgood.1) c1
    · rw [z2]
      refine Fl.le_trans ?_ c2
      unfold SkillSet.getStars getStarsFromRawValues
      simp only
      split
      · exact Fl.le_refl (lit_nn 0)
      · exact hv hJ0.speed hgood.2.1
    · rw [z3]
      refine Fl.le_trans ?_ c3
      show Fl.le _ (rating _) = true
      cases hf : (SkillSet.new (S := S) diff).flashlight with
      | none =>
        exact Fl.le_trans zero_le (rating_mono (x := GoFloat.lit 0) (y := GoFloat.lit 0) (by decide +kernel) (by decide +kernel)).1
      | some f => exact hv (hJ0.flashlight f hf) (hgood.2.2 f hf)

end

/-! ### Concrete cases -/

/-- C50: the library functions of the sample meet the hypothesis. -/
example : @LogBounds Sample.libm := by
  intro x _ _
  show NonNeg (GoFloat.lit 0 : F64) ∧ Fl.le (GoFloat.lit 0 : F64) (fin 1 false) = true
  decide +kernel

/-- An aim skill with given peaks. -/
def Sample.withPeaks (p : List F64) (x : F64) : Skill F32 F64 :=
  { Skill.newAim (Difficulty.new (GoFloat.lit 5) (GoFloat.lit 5) (GoFloat.lit 5) (GoFloat.lit 5)) true with
    strainPeaks := p, currentSectionPeak := x }

def Sample.valueOf (p : List F64) (x : F64) : F64 :=
  @Skill.difficultyValue F32 F64 _ Sample.libm insertionGoSort (Sample.withPeaks p x)

/-- C50: reordering does not change the value, raising a peak and adding one raise it. -/
example : Fl.eq (Sample.valueOf [fin 3 false, fin 1 false] (fin 2 false))
    (Sample.valueOf [fin 1 false, fin 2 false] (fin 3 false)) = true := by decide +kernel
example : Fl.lt (Sample.valueOf [fin 3 false, fin 1 false] (fin 2 false))
    (Sample.valueOf [fin 3 false, fin 1 false, fin 1 false] (fin (5 / 2) false)) = true := by decide +kernel

/-- A finite and non-negative value. -/
def Sample.fine (x : F64) : Bool := isFin x && Fl.le (GoFloat.lit 0) x

/-- C51: the peaks of all beginnings of the sample are finite and non-negative. -/
def Sample.allFine (mods : Modifier) : Option Bool :=
  Sample.observe Sample.stacked (fun m => (List.range 7).all fun n =>
    match @calculateStrainPeaks F32 F64 _ Sample.libm _ _ 100 (m.hitObjects.take n) (m.difficulty.setMods mods) with
    | .ok p => (p.aim ++ p.speed ++ p.flashlight).all Sample.fine
    | .error _ => true)

example : Sample.allFine Mod.Flashlight = some true := by decide +kernel
example : (Sample.steps Sample.stacked Mod.Flashlight).map (fun l => l.map fun a =>
    decide (a.speed = GoFloat.lit 0)) = some [true, false, false, false, false, false] := by decide +kernel

end GosuPP.Props
