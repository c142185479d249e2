import Verif.Lemmas.StarInputs
import Verif.Lemmas.SpeedMono
import Verif.Spec.Harder

/-! Only the speed skill sees the hit window. -/

namespace GosuPP
open Go Spec

section
variable {S D : Type} [GoFloat S] [GoFloat D] [GoConv S D] [GoLibm D]

/-- The second skill is the first with another hit window. -/
structure Rewindowed (d d' : Difficulty D) (sk sk' : Skill S D) : Prop where
  diff : sk.diff = d
  kind : sk.kind ≠ .speed
  eq : sk' = sk.withDiff d'

variable {d : Difficulty D} {w : D} {sk sk' : Skill S D}

theorem decorateAll_window (objs : List (Obj S D)) : decorateAll { d with hit300 := w } objs = decorateAll d objs := by
  induction objs with
  | nil => rfl
  | cons o objs ih =>
    unfold decorateAll
    rw [ih]
    rfl

theorem create_window (objs : List (Obj S D)) :
    createDifficultyObjects objs { d with hit300 := w } = createDifficultyObjects objs d := by
  have loop : ∀ (ll : Option (PObj S D)) (l : PObj S D) (rest : List (PObj S D)),
      diffObjectLoop { d with hit300 := w } ll l rest = diffObjectLoop d ll l rest := by
    intro ll l rest
    induction rest generalizing ll l with
    | nil => rfl
    | cons c rest ih => unfold diffObjectLoop; rw [ih]; rfl
  unfold createDifficultyObjects
  rw [decorateAll_window]
  cases decorateAll d objs with
  | error e => rfl
  | ok ps => cases ps with
    | nil => rfl
    | cons p rest => simp only [ok_bind, loop]

theorem flashlight_window (c : DiffObject S D) (i : ℕ) (ps : List (DiffObject S D)) (st : Flashlight.State D) :
    Flashlight.loop { d with hit300 := w } c i ps st = Flashlight.loop d c i ps st := by
  induction ps generalizing i st with
  | nil => rfl
  | cons p ps ih =>
    unfold Flashlight.loop
    simp only [ih]

theorem value_window (h : Rewindowed d { d with hit300 := w } sk sk') (c : DiffObject S D) :
    sk'.strainValueOf c = sk.strainValueOf c := by
  obtain ⟨rfl, hk, rfl⟩ := h
  unfold Skill.strainValueOf
  have ek : (sk.withDiff { sk.diff with hit300 := w }).kind = sk.kind := rfl
  rw [ek]
  cases hk' : sk.kind with
  | aim ws => rfl
  | speed => exact absurd hk' hk
  | flashlight =>
    simp only
    unfold Flashlight.strainValue
    have e : (sk.withDiff { sk.diff with hit300 := w }).diff = { sk.diff with hit300 := w } := rfl
    rw [e, flashlight_window]
    rfl

theorem addStrain_window (h : Rewindowed d { d with hit300 := w } sk sk') (c : DiffObject S D) :
    Both (Rewindowed d { d with hit300 := w }) (sk.addStrain c) (sk'.addStrain c) := by
  have hv : ∀ x : D, Skill.strainValueOf ({ sk' with currentStrain := x } : Skill S D) c =
      Skill.strainValueOf ({ sk with currentStrain := x } : Skill S D) c := fun x =>
    value_window (sk := { sk with currentStrain := x }) ⟨h.diff, h.kind, by rw [h.eq]; rfl⟩ c
  obtain ⟨hd, hk, rfl⟩ := h
  unfold Skill.addStrain
  dsimp only
  have e : ∀ x, (sk.withDiff { d with hit300 := w }).strainDecay x = sk.strainDecay x := fun x => rfl
  have e' : (sk.withDiff { d with hit300 := w }).currentStrain = sk.currentStrain := rfl
  rw [e, e']
  refine (Both.of_eq (hv _)).bind fun v v' hvv => ?_
  subst hvv
  have ek : (sk.withDiff { d with hit300 := w }).kind = sk.kind := rfl
  rw [ek]
  cases hk' : sk.kind with
  | aim ws => exact ⟨hd, (fun h => by cases h), rfl⟩
  | speed => exact absurd hk' hk
  | flashlight => exact ⟨hd, (fun h => by cases h), rfl⟩

theorem sectionLoop_window (t : D) (fuel : ℕ) (h : Rewindowed d { d with hit300 := w } sk sk') :
    Both (Rewindowed d { d with hit300 := w }) (Skill.sectionLoop t fuel sk) (Skill.sectionLoop t fuel sk') := by
  induction fuel generalizing sk sk' with
  | zero => exact rfl
  | succ fuel ih =>
    obtain ⟨hd, hk, rfl⟩ := h
    unfold Skill.sectionLoop
    have e1 : (sk.withDiff { d with hit300 := w }).currentSectionEnd = sk.currentSectionEnd := rfl
    rw [e1]
    split
    · refine (Both.of_eq (show (sk.withDiff { d with hit300 := w }).calculateInitialStrain sk.currentSectionEnd =
        sk.calculateInitialStrain sk.currentSectionEnd from rfl)).bind fun p p' hp => ?_
      subst hp
      exact ih ⟨hd, hk, rfl⟩
    · exact ⟨hd, hk, rfl⟩

theorem process_window (h : Rewindowed d { d with hit300 := w } sk sk') (fuel : ℕ) (c : DiffObject S D) :
    Both (Rewindowed d { d with hit300 := w }) (sk.process fuel c) (sk'.process fuel c) := by
  obtain ⟨hd, hk, rfl⟩ := h
  have inner : ∀ {u u' : Skill S D}, Rewindowed d { d with hit300 := w } u u' →
      Both (Rewindowed d { d with hit300 := w }) (u.processInternal fuel c) (u'.processInternal fuel c) := by
    intro u u' hu
    obtain ⟨hd, hk, rfl⟩ := hu
    unfold Skill.processInternal
    refine (sectionLoop_window _ _ ?_).bind fun r r' hr => addStrain_window hr c
    have el : (u.withDiff { d with hit300 := w }).previous = u.previous := rfl
    rw [el]
    split <;> exact ⟨hd, hk, rfl⟩
  unfold Skill.process
  refine (inner ?_).bind fun r r' hr => ?_
  · have el : (sk.withDiff { d with hit300 := w }).previous = sk.previous := rfl
    have eh : (sk.withDiff { d with hit300 := w }).historyLength = sk.historyLength := rfl
    rw [el, eh]
    split <;> exact ⟨hd, hk, rfl⟩
  · obtain ⟨hd, hk, rfl⟩ := hr
    exact ⟨hd, hk, rfl⟩

theorem value_rewindowed [GoSort] {d' : Difficulty D} (h : Rewindowed d d' sk sk') :
    sk'.difficultyValue = sk.difficultyValue ∧ sk'.getCurrentStrainPeaks = sk.getCurrentStrainPeaks := by
  obtain ⟨hd, hk, rfl⟩ := h
  exact ⟨rfl, rfl⟩

end

namespace Exactly
attribute [local instance] exactLibm

/-- The skills of two calculations. -/
structure SetAhead (d d' : Difficulty (Option ℝ)) (s s' : SkillSet (Option ℝ) (Option ℝ)) : Prop where
  aim : Rewindowed d d' s.aim s'.aim
  aimNoSliders : Rewindowed d d' s.aimNoSliders s'.aimNoSliders
  speed : Ahead s.speed s'.speed
  flashlight : Option.Rel (Rewindowed d d') s.flashlight s'.flashlight


theorem set_new {d : Difficulty (Option ℝ)} {w : Option ℝ} (h : Stricter d { d with hit300 := w }) :
    SetAhead d { d with hit300 := w } (SkillSet.new d) (SkillSet.new { d with hit300 := w }) where
  aim := ⟨rfl, (fun h => by cases h), rfl⟩
  aimNoSliders := ⟨rfl, (fun h => by cases h), rfl⟩
  speed := ahead_new h
  flashlight := by
    unfold SkillSet.new
    dsimp only
    have e : Difficulty.checkModActive { d with hit300 := w } Mod.Flashlight = d.checkModActive Mod.Flashlight := rfl
    rw [e]
    split
    · exact .some ⟨rfl, (fun h => by cases h), rfl⟩
    · exact .none

variable {d : Difficulty (Option ℝ)} {w : Option ℝ} {s s' : SkillSet (Option ℝ) (Option ℝ)}

theorem opt_window {f f' : Option (Skill (Option ℝ) (Option ℝ))} (h : Option.Rel (Rewindowed d { d with hit300 := w }) f f')
    (fuel : ℕ) (c : DiffObject (Option ℝ) (Option ℝ)) :
    Both (Option.Rel (Rewindowed d { d with hit300 := w })) (SkillSet.processOpt fuel c f) (SkillSet.processOpt fuel c f') := by
  cases h with
  | none => exact .none
  | some h => exact (process_window h fuel c).bind fun r r' hr => .some hr

theorem set_process (h : SetAhead d { d with hit300 := w } s s') (fuel : ℕ) {c : DiffObject (Option ℝ) (Option ℝ)}
    (hc : Wider c c) : Both (SetAhead d { d with hit300 := w }) (s.process fuel c) (s'.process fuel c) := by
  unfold SkillSet.process
  exact (process_window h.aim fuel c).bind fun a a' ha => (process_window h.aimNoSliders fuel c).bind fun b b' hb =>
    (process_ahead h.speed hc fuel).bind fun p p' hp => (opt_window h.flashlight fuel c).bind fun f f' hf => ⟨ha, hb, hp, hf⟩

theorem raw_harder {x n v y y' : Option ℝ} (h : NoMore y y') {attr attr' : Attributes (Option ℝ)}
    (hcount : (attr'.objectCount, attr'.circles, attr'.sliders, attr'.spinners, attr'.maxCombo) =
      (attr.objectCount, attr.circles, attr.sliders, attr.spinners, attr.maxCombo)) :
    HarderToTap (getStarsFromRawValues x n y v d attr) (getStarsFromRawValues x n y' v { d with hit300 := w } attr') := by
  have hsp : NoMore (if d.checkModActive Mod.Relax then lit 0 else GoFloat.sqrt y *. lit 0.0675)
      (if d.checkModActive Mod.Relax then lit 0 else GoFloat.sqrt y' *. lit 0.0675) := by
    split
    · exact .lit (by norm_num)
    · exact h.sqrt.mul (.lit (by norm_num))
  refine ⟨rfl, rfl, rfl, hcount, hsp, ?_⟩
  refine total_atMost (ppBase_atMost ((NoMore.sqrt_self _).mul (.lit (by norm_num)))) (ppBase_atMost hsp) ?_
  show NoMore (if d.checkModActive Mod.Flashlight = true then _ else _) (if d.checkModActive Mod.Flashlight = true then _ else _)
  split
  · exact (((NoMore.sqrt_self _).mul (.lit (by norm_num))).pow (by norm_num)).mul (.lit (by norm_num))
  · exact .lit (by norm_num)

theorem set_stars [GoSort] (h : SetAhead d { d with hit300 := w } s s') {attr attr' : Attributes (Option ℝ)}
    (hcount : (attr'.objectCount, attr'.circles, attr'.sliders, attr'.spinners, attr'.maxCombo) =
      (attr.objectCount, attr.circles, attr.sliders, attr.spinners, attr.maxCombo)) :
    HarderToTap (s.getStars d attr) (s'.getStars { d with hit300 := w } attr') := by
  have e1 := (value_rewindowed h.aim).1
  have e2 := (value_rewindowed h.aimNoSliders).1
  have e3 := value_ahead h.speed
  obtain ⟨v, e4, e5⟩ : ∃ v, s.getStars d attr =
        getStarsFromRawValues s.aim.difficultyValue s.aimNoSliders.difficultyValue s.speed.difficultyValue v d attr ∧
      s'.getStars { d with hit300 := w } attr' =
        getStarsFromRawValues s'.aim.difficultyValue s'.aimNoSliders.difficultyValue s'.speed.difficultyValue v
          { d with hit300 := w } attr' := by
    have := h.flashlight
    revert this
    unfold SkillSet.getStars
    cases s.flashlight <;> cases s'.flashlight <;> intro hf
    · exact ⟨_, rfl, rfl⟩
    · cases hf
    · cases hf
    · cases hf with
      | some hf => exact ⟨_, rfl, by simp only [(value_rewindowed hf).1]⟩
  rw [e4, e5, e1, e2]
  exact raw_harder e3 hcount

theorem peaks_harder (fl : Option (List (Option ℝ))) {sp sp' : List (Option ℝ)} (h : List.Forall₂ NoMore sp sp') (i : ℕ)
    (l : List (Option ℝ)) :
    Both (List.Forall₂ NoMore) (peaksLoop d fl sp i l) (peaksLoop { d with hit300 := w } fl sp' i l) := by
  induction l generalizing i with
  | nil => exact .nil
  | cons a l ih =>
    have key : ∀ f : Option ℝ, Both (List.Forall₂ NoMore)
        (do let y ← index sp i
            let r ← peaksLoop d fl sp (i + 1) l
            return (getStarsFromRawValues a a y f d Attributes.zero).total :: r)
        (do let y ← index sp' i
            let r ← peaksLoop { d with hit300 := w } fl sp' (i + 1) l
            return (getStarsFromRawValues a a y f { d with hit300 := w } Attributes.zero).total :: r) := fun f =>
      (get_both h _).bind fun y y' hy => (ih (i + 1)).bind fun r r' hr => .cons (raw_harder hy rfl).total hr
    unfold peaksLoop
    cases fl with
    | none => exact key (lit 0)
    | some fl =>
      refine (Both.refl (index fl i)).bind fun f f' hf => ?_
      subst hf
      exact key f

theorem set_peaks (h : SetAhead d { d with hit300 := w } s s') :
    Both (fun p p' => p'.aim = p.aim ∧ p'.flashlight = p.flashlight ∧ List.Forall₂ NoMore p.speed p'.speed ∧
      List.Forall₂ NoMore p.total p'.total) (getPeaks s.aim s.speed s.flashlight d)
      (getPeaks s'.aim s'.speed s'.flashlight { d with hit300 := w }) := by
  have e1 : s'.aim.getCurrentStrainPeaks = s.aim.getCurrentStrainPeaks := by rw [h.aim.eq]; rfl
  have e2 : s'.flashlight.map (·.getCurrentStrainPeaks) = s.flashlight.map (·.getCurrentStrainPeaks) := by
    have := h.flashlight
    revert this
    cases s.flashlight <;> cases s'.flashlight <;> intro hf
    · rfl
    · cases hf
    · cases hf
    · cases hf with
      | some hf => rw [hf.eq]; rfl
  unfold getPeaks
  simp only [e1, e2]
  exact (peaks_harder _ (peaks_ahead h.speed) 0 _).bind fun t t' ht => ⟨rfl, rfl, peaks_ahead h.speed, ht⟩

end Exactly
end GosuPP
