import Verif.Lemmas.Peaks
import Verif.Lemmas.Calc

/-!
# Processing an object only adds or raises peaks
-/

namespace GosuPP
open Go Spec

section
variable {α : Type} {le : α → α → Bool}

theorem Under.of_append {a b q : List α} (h : Under le (a ++ b) q) : Under le a q := by
  induction a generalizing q with
  | nil => exact .nil _
  | cons x a ih =>
    cases h with
    | cons h1 h2 => exact .cons h1 (ih h2)

theorem Under.last {a : List α} {y z : α} (h : ∀ x ∈ a, le x x = true) (hyz : le y z = true) :
    Under le (a ++ [y]) (a ++ [z]) := by
  induction a with
  | nil => exact .cons hyz (.nil _)
  | cons x a ih => exact .cons (h x (by simp)) (ih fun w hw => h w (by simp [hw]))
end

namespace Skill
variable {S D : Type} [GoFloat D] [GoLibm D]

omit [GoFloat D] [GoLibm D] in
theorem _root_.GosuPP.Spec.SameSettings.refl (a : Skill S D) : SameSettings a a := ⟨rfl, rfl, rfl, rfl, rfl, rfl, rfl, rfl, rfl, rfl⟩

omit [GoFloat D] [GoLibm D] in
theorem _root_.GosuPP.Spec.SameSettings.trans {a b c : Skill S D} (h : SameSettings a b) (h' : SameSettings b c) :
    SameSettings a c :=
  ⟨h.1.trans h'.1, h.2.trans h'.2, h.3.trans h'.3, h.4.trans h'.4, h.5.trans h'.5, h.6.trans h'.6,
    h.7.trans h'.7, h.8.trans h'.8, h.9.trans h'.9, h.10.trans h'.10⟩

/-- The section loop closes sections: it adds peaks at the end. -/
theorem sectionLoop_peaks (P : D → Prop) (t : D) (fuel : Nat) (sk sk' : Skill S D)
    (h : sectionLoop t fuel sk = .ok sk') (hP : ∀ s : Skill S D, s.currentStrain = sk.currentStrain →
      s.currentRhythm = sk.currentRhythm → s.previous = sk.previous → SameSettings sk s →
      ∀ u v, s.calculateInitialStrain u = .ok v → P v) :
    SameSettings sk sk' ∧ sk'.previous = sk.previous ∧ sk'.currentStrain = sk.currentStrain ∧
    sk'.currentRhythm = sk.currentRhythm ∧
    ∃ extra, sk'.getCurrentStrainPeaks = sk.getCurrentStrainPeaks ++ extra ∧ ∀ x ∈ extra, P x := by
  induction fuel generalizing sk with
  | zero => cases h
  | succ fuel ih =>
    unfold sectionLoop at h
    split at h
    · obtain ⟨peak, hp, h⟩ := bind_ok h
      obtain ⟨h1, h2, h3, h4, extra, h5, h6⟩ := ih _ h (fun s e1 e2 e3 e4 => hP s e1 e2 e3
        ⟨e4.1, e4.2, e4.3, e4.4, e4.5, e4.6, e4.7, e4.8, e4.9, e4.10⟩)
      refine ⟨⟨h1.1, h1.2, h1.3, h1.4, h1.5, h1.6, h1.7, h1.8, h1.9, h1.10⟩, h2, h3, h4, peak :: extra, ?_, ?_⟩
      · rw [h5]; simp [getCurrentStrainPeaks]
      · intro x hx
        rcases List.mem_cons.mp hx with rfl | hx
        · exact hP sk rfl rfl rfl (SameSettings.refl _) _ _ hp
        · exact h6 x hx
    · cases h
      exact ⟨SameSettings.refl _, rfl, rfl, rfl, [], by simp, by simp⟩

variable [GoFloat S] [GoConv S D]

/-- What `addStrain` does, in terms of the strain value and the rhythm. -/
theorem addStrain_spec {c : DiffObject S D} {sk sk' : Skill S D} (h : addStrain c sk = .ok sk') :
    SameSettings sk sk' ∧ sk'.previous = sk.previous ∧ sk'.strainPeaks = sk.strainPeaks ∧
    sk'.currentSectionEnd = sk.currentSectionEnd ∧
    ∃ value, strainValueOf { sk with currentStrain := sk.currentStrain *. sk.strainDecay c.deltaTime } c = .ok value ∧
      sk'.currentStrain = sk.currentStrain *. sk.strainDecay c.deltaTime +. value *. sk.skillMultiplier ∧
      ((sk.kind = .speed ∧ (∃ s : Skill S D, s.previous = sk.previous ∧ s.diff = sk.diff ∧
          Speed.rhythm s c = .ok sk'.currentRhythm) ∧
        sk'.currentSectionPeak = fmax (sk'.currentStrain *. sk'.currentRhythm) sk.currentSectionPeak) ∨
      (sk.kind ≠ .speed ∧ sk'.currentRhythm = sk.currentRhythm ∧
        sk'.currentSectionPeak = fmax sk'.currentStrain sk.currentSectionPeak)) := by
  unfold addStrain at h
  simp only at h
  obtain ⟨value, hv, h⟩ := bind_ok h
  split at h
  · rename_i hk
    obtain ⟨bonus, hb, h⟩ := bind_ok h
    cases h
    exact ⟨⟨rfl, rfl, rfl, rfl, rfl, rfl, rfl, rfl, rfl, rfl⟩, rfl, rfl, rfl, value, hv, rfl,
      .inl ⟨hk, by refine ⟨_, ?_, ?_, hb⟩ <;> rfl, rfl⟩⟩
  · rename_i hk
    cases h
    exact ⟨⟨rfl, rfl, rfl, rfl, rfl, rfl, rfl, rfl, rfl, rfl⟩, rfl, rfl, rfl, value, hv, rfl,
      .inr ⟨hk, rfl, rfl⟩⟩

/-- The phases of `process`. -/
theorem process_spec {fuel : Nat} {c : DiffObject S D} {sk sk' : Skill S D} (h : sk.process fuel c = .ok sk') :
    ∃ s0 s1 s2 : Skill S D, SameSettings sk s0 ∧ s0.currentStrain = sk.currentStrain ∧
      s0.currentRhythm = sk.currentRhythm ∧ s0.getCurrentStrainPeaks = sk.getCurrentStrainPeaks ∧
      s0.previous <:+ sk.previous ∧
      sectionLoop c.startTime fuel s0 = .ok s1 ∧ addStrain c s1 = .ok s2 ∧
      sk' = { s2 with previous := s2.previous ++ [c] } := by
  unfold process processInternal at h
  simp only at h
  obtain ⟨s2, hs, h⟩ := bind_ok h
  obtain ⟨s1, hs1, hs⟩ := bind_ok hs
  cases h
  refine ⟨_, s1, s2, ?_, ?_, ?_, ?_, ?_, hs1, hs, rfl⟩ <;> split <;> split <;>
    first
    | rfl
    | exact ⟨rfl, rfl, rfl, rfl, rfl, rfl, rfl, rfl, rfl, rfl⟩
    | exact List.drop_suffix _ _
    | exact List.suffix_refl _

end Skill

section
open Fl
variable {S : Type} [GoFloat S] [GoConv S F64] [GoLibm F64]

/-- All peaks are doubles. -/
def Skill.PeaksWF (sk : Skill S F64) : Prop := ∀ x ∈ sk.getCurrentStrainPeaks, WF x

theorem fin_fmax {x y : F64} (h : Fl.Fin (fmax x y)) : NN y := by
  by_contra hy
  have hy : y = nan := by simpa [NN] using hy
  subst hy
  unfold fmax at h
  split at h
  · obtain ⟨v, b, h⟩ := h; cases h
  · rw [if_pos (by simp [go_isNaN, isNaN])] at h
    obtain ⟨v, b, h⟩ := h; cases h

omit [GoFloat S] [GoConv S F64] in
theorem Skill.initial_wf {sk : Skill S F64} {t v : F64} (h : sk.calculateInitialStrain t = .ok v) : WF v := by
  unfold calculateInitialStrain at h
  obtain ⟨prev, -, h⟩ := bind_ok h
  cases hk : sk.kind <;> simp only [hk] at h <;> cases h <;> exact mul_wf

theorem Skill.process_settings {fuel : Nat} {c : DiffObject S F64} {sk sk' : Skill S F64}
    (h : sk.process fuel c = .ok sk') : SameSettings sk sk' := by
  obtain ⟨s0, s1, s2, h1, h2, h3, h4, -, h5, h6, rfl⟩ := process_spec h
  obtain ⟨k1, -⟩ := sectionLoop_peaks (fun _ => True) _ _ _ _ h5 (fun _ _ _ _ _ _ _ _ => trivial)
  obtain ⟨l1, -⟩ := addStrain_spec h6
  have := (h1.trans k1).trans l1
  exact ⟨this.1, this.2, this.3, this.4, this.5, this.6, this.7, this.8, this.9, this.10⟩

theorem Skill.process_peaks {fuel : Nat} {c : DiffObject S F64} {sk sk' : Skill S F64}
    (h : sk.process fuel c = .ok sk') (hw : sk.PeaksWF) (hc : WF sk.currentStrain) :
    sk'.PeaksWF ∧ WF sk'.currentStrain ∧
    ((∀ x ∈ sk'.getCurrentStrainPeaks, Fl.Fin x) → Under Fl.le sk.getCurrentStrainPeaks sk'.getCurrentStrainPeaks) := by
  obtain ⟨s0, s1, s2, h1, h2, h3, h4, -, h5, h6, rfl⟩ := process_spec h
  obtain ⟨k1, k2, k3, k4, extra, k5, k6⟩ := sectionLoop_peaks WF _ _ _ _ h5
    (fun s _ _ _ _ u v hv => initial_wf hv)
  obtain ⟨l1, l2, l3, l4, value, l5, l6, l7⟩ := addStrain_spec h6
  have hwf1 : s1.PeaksWF := by
    intro x hx
    rw [k5, h4] at hx
    rcases List.mem_append.mp hx with hx | hx
    · exact hw x hx
    · exact k6 x hx
  have hstrain : WF s2.currentStrain := by rw [l6]; exact add_wf mul_wf mul_wf
  obtain ⟨z, hz⟩ : ∃ z : F64, WF z ∧ s2.currentSectionPeak = fmax z s1.currentSectionPeak := by
    rcases l7 with ⟨-, -, e⟩ | ⟨-, -, e⟩
    · exact ⟨_, mul_wf, e⟩
    · exact ⟨_, hstrain, e⟩
  have hpk : ({ s2 with previous := s2.previous ++ [c] } : Skill S F64).getCurrentStrainPeaks =
      s1.strainPeaks ++ [fmax z s1.currentSectionPeak] := by
    show s2.strainPeaks ++ [s2.currentSectionPeak] = _
    rw [l3, hz.2]
  refine ⟨?_, hstrain, ?_⟩
  · intro x hx
    rw [hpk] at hx
    rcases List.mem_append.mp hx with hx | hx
    · exact hwf1 x (by unfold getCurrentStrainPeaks; simp [hx])
    · rw [List.mem_singleton.mp hx]
      exact fmax_wf hz.1 (hwf1 _ (by unfold getCurrentStrainPeaks; simp))
  · intro hfin
    rw [hpk] at hfin ⊢
    have hf := hfin (fmax z s1.currentSectionPeak) (by simp)
    have hle := fmax_nn_right hf.nn (fin_fmax hf)
    have hu : Under Fl.le (s1.strainPeaks ++ [s1.currentSectionPeak]) (s1.strainPeaks ++ [fmax z s1.currentSectionPeak]) :=
      Under.last (fun x hx => Fl.le_refl (hfin x (by simp [hx])).nn) hle
    have e : s1.strainPeaks ++ [s1.currentSectionPeak] = sk.getCurrentStrainPeaks ++ extra := by
      rw [← h4]; exact k5
    rw [e] at hu
    exact hu.of_append

end

/-! ### Steps -/

section
variable {S D : Type} [GoFloat S] [GoFloat D] [GoConv S D] [GoLibm D] [GoSort]

theorem singleLoop_attr {fuel : Nat} {ds : List (DiffObject S D)} {objs : List (Obj S D)} {b b' : Attributes D}
    {sk s : SkillSet S D} (c : Attributes D) (h : singleLoop fuel ds objs b sk = .ok (b', s)) :
    ∃ c', singleLoop fuel ds objs c sk = .ok (c', s) := by
  induction ds generalizing objs b sk c with
  | nil => rw [singleLoop] at h; cases h; exact ⟨c, rfl⟩
  | cons d ds ih =>
    rw [singleLoop] at h
    obtain ⟨o, h0, h⟩ := bind_ok h
    obtain ⟨sk1, h1, h⟩ := bind_ok h
    obtain ⟨c', hc⟩ := ih (addObjectToAttribs o c) h
    exact ⟨c', by rw [singleLoop_cons_ok h0 h1, hc]⟩

/-- A relation between the results before and after each processed object holds along all results
of the step loop. `J` is an invariant, `Inv` is assumed of the states that occur. -/
theorem stepLoop_chain {fuel : Nat} {diff : Difficulty D} (J Inv : SkillSet S D → Prop)
    (R : Attributes D → Attributes D → Prop)
    (hJ : ∀ sk sk' d, J sk → sk.process fuel d = .ok sk' → J sk')
    (hR : ∀ sk sk' d, J sk → Inv sk → sk.process fuel d = .ok sk' → Inv sk' →
      ∀ a b, R (sk.getStars diff a) (sk'.getStars diff b))
    {ds : List (DiffObject S D)} {objs : List (Obj S D)} {a : Attributes D} {sk sk' : SkillSet S D}
    {stars : List (Attributes D)} (h : stepLoop fuel diff ds objs a sk = .ok (stars, sk')) (h0 : J sk)
    (hinv : ∀ n s, (∃ b b', singleLoop fuel (ds.take n) objs b sk = .ok (b', s)) → Inv s) (x : Attributes D) :
    List.IsChain R (sk.getStars diff x :: stars) := by
  induction ds generalizing objs a sk stars x with
  | nil => rw [stepLoop] at h; cases h; exact .singleton _
  | cons d ds ih =>
    rw [stepLoop] at h
    obtain ⟨o, h0', h⟩ := bind_ok h
    obtain ⟨sk1, h1, h⟩ := bind_ok h
    obtain ⟨⟨rest, sk2⟩, h2, h⟩ := bind_ok h
    cases h
    have hinv' : ∀ n s, (∃ b b', singleLoop fuel (ds.take n) objs.tail b sk1 = .ok (b', s)) → Inv s := by
      rintro n s ⟨b, b', hs⟩
      obtain ⟨b'', hs⟩ := singleLoop_attr (addObjectToAttribs o b) hs
      refine hinv (n + 1) s ⟨b, b'', ?_⟩
      rw [List.take_succ_cons, singleLoop_cons_ok h0' h1, hs]
    refine .cons_cons (hR sk sk1 d h0 (hinv 0 sk ⟨x, x, rfl⟩) h1 (hinv' 0 sk1 ⟨x, x, rfl⟩) _ _) ?_
    exact ih h2 (hJ _ _ _ h0 h1) hinv' _
end
end GosuPP
