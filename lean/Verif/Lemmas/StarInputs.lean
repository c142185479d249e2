import Verif.Lemmas.Skills
import Verif.Lemmas.ParserFrame
import Verif.Spec.StarInputs

/-! Star ratings depend on the difficulty only through a few values. -/

namespace GosuPP
open Go Spec

variable {S D : Type} [GoFloat D]

theorem err_bind {ε α β : Type} (e : ε) (f : α → Except ε β) : (Except.error e >>= f) = .error e := rfl

section
variable [GoFloat S]

omit [GoFloat D] in
theorem modifyPosition_same {d d' : Difficulty D} (h : SameForStars d d') (b : HitObject S D) (p : Vec S) :
    b.modifyPosition p d.mods = b.modifyPosition p d'.mods := by
  unfold HitObject.modifyPosition
  rw [h.hardRock, h.easy]

omit [GoFloat D] in
theorem startMod_same {d d' : Difficulty D} (h : SameForStars d d') (b : HitObject S D) :
    b.getStackedStartPositionMod d.mods = b.getStackedStartPositionMod d'.mods := modifyPosition_same h b _

omit [GoFloat D] in
theorem endMod_same {d d' : Difficulty D} (h : SameForStars d d') (b : HitObject S D) :
    b.getStackedEndPositionMod d.mods = b.getStackedEndPositionMod d'.mods := modifyPosition_same h b _

omit [GoFloat D] in
theorem endCursor_same {d d' : Difficulty D} (h : SameForStars d d') (o : PObj S D) :
    getEndCursorPosition o d.mods = getEndCursorPosition o d'.mods := by
  unfold getEndCursorPosition
  rw [startMod_same h]

variable [GoConv S D]

theorem positionMod_same {d d' : Difficulty D} (h : SameForStars d d') (o : Obj S D) (t : D) :
    o.getStackedPositionAtMod t d.mods = o.getStackedPositionAtMod t d'.mods := by
  unfold Obj.getStackedPositionAtMod
  simp only [modifyPosition_same h]

theorem lazyStep_same {d d' : Difficulty D} (h : SameForStars d d') (o : Obj S D) (sf : D) (p : TickPoint D)
    (last : Bool) (st : LazyState S) : lazyStep o d.mods sf p last st = lazyStep o d'.mods sf p last st := by
  unfold lazyStep
  simp only [positionMod_same h]

theorem lazyLoop_same {d d' : Difficulty D} (h : SameForStars d d') (o : Obj S D) (sf : D) (ps : List (TickPoint D))
    (st : LazyState S) : lazyLoop o d.mods sf ps st = lazyLoop o d'.mods sf ps st := by
  induction ps generalizing st with
  | nil => rfl
  | cons p ps ih =>
    cases ps with
    | nil => exact lazyStep_same h ..
    | cons q qs =>
      rw [lazyLoop, lazyLoop, lazyStep_same h]
      · simp only [ih]
      · simp
      · simp

variable [GoLibm D]

theorem newLazySlider_same {d d' : Difficulty D} (h : SameForStars d d') (o : Obj S D) (s : SliderData S D) :
    newLazySlider o s d = newLazySlider o s d' := by
  unfold newLazySlider
  simp only [positionMod_same h, lazyLoop_same h, startMod_same h, h.circleRadius]

theorem decorateAll_same {d d' : Difficulty D} (h : SameForStars d d') (objs : List (Obj S D)) :
    decorateAll d objs = decorateAll d' objs := by
  induction objs with
  | nil => rfl
  | cons o rest ih =>
    have : decorate d o = decorate d' o := by
      unfold decorate
      cases o.kind <;> simp only [newLazySlider_same h]
    rw [decorateAll, decorateAll, ih, this]

theorem newDiffObject_same {d d' : Difficulty D} (h : SameForStars d d') (b : PObj S D) (c : Option (PObj S D))
    (a : PObj S D) : newDiffObject b c a d = newDiffObject b c a d' := by
  unfold newDiffObject setDistances setAngle setTravel
  simp only [startMod_same h, endMod_same h, endCursor_same h, h.circleRadius, h.speed]

theorem createDifficultyObjects_same {d d' : Difficulty D} (h : SameForStars d d') (objs : List (Obj S D)) :
    createDifficultyObjects objs d = createDifficultyObjects objs d' := by
  have loop : ∀ (ps : List (PObj S D)) ll l, diffObjectLoop d ll l ps = diffObjectLoop d' ll l ps := by
    intro ps
    induction ps with
    | nil => intro _ _; rfl
    | cons p ps ih => intro ll l; rw [diffObjectLoop, diffObjectLoop, ih, newDiffObject_same h]
  unfold createDifficultyObjects
  rw [decorateAll_same h]
  simp only [loop]

/-! ### skills -/

/-- The same skill for another difficulty. -/
def Skill.withDiff (d : Difficulty D) (sk : Skill S D) : Skill S D := { sk with diff := d }

omit [GoConv S D] [GoFloat S] in
theorem derefPrevious_withDiff (d : Difficulty D) (sk : Skill S D) (i : Nat) :
    (sk.withDiff d).derefPrevious i = sk.derefPrevious i := rfl

omit [GoConv S D] [GoFloat S] in
theorem rhythm_same {d : Difficulty D} {sk : Skill S D} (h : SameForStars sk.diff d) (c : DiffObject S D) :
    Speed.rhythm (sk.withDiff d) c = Speed.rhythm sk c := by
  have loop : ∀ g i r, Speed.rhythmLoop g (sk.withDiff d) c i r = Speed.rhythmLoop g sk c i r := by
    intro g i
    induction i with
    | zero => intro r; rfl
    | succ i ih =>
      intro r
      rw [Speed.rhythmLoop, Speed.rhythmLoop]
      simp only [derefPrevious_withDiff, ih]
      rfl
  unfold Speed.rhythm
  simp only [loop]
  show (if _ then _ else Speed.rhythmLoop (d.hit300 /. d.speed) sk c (sk.previous.length - 2) _ >>= _) = _
  rw [← h.hit300, ← h.speed]

omit [GoConv S D] [GoFloat S] in
theorem speedValue_same {d : Difficulty D} {sk : Skill S D} (h : SameForStars sk.diff d) (c : DiffObject S D) :
    Speed.strainValue (sk.withDiff d) c = Speed.strainValue sk c := by
  unfold Speed.strainValue
  have e : (sk.withDiff d).diff = d := rfl
  rw [e, ← h.hit300, ← h.speed]
  rfl

theorem flashlightLoop_same {d d' : Difficulty D} (h : SameForStars d d') (c : DiffObject S D) (i : Nat)
    (ps : List (DiffObject S D)) (st : Flashlight.State D) :
    Flashlight.loop d c i ps st = Flashlight.loop d' c i ps st := by
  induction ps generalizing i st with
  | nil => rfl
  | cons p ps ih =>
    rw [Flashlight.loop, Flashlight.loop]
    simp only [ih, startMod_same h, endMod_same h, h.circleRadius]

theorem strainValueOf_same {d : Difficulty D} {sk : Skill S D} (h : SameForStars sk.diff d) (c : DiffObject S D) :
    (sk.withDiff d).strainValueOf c = sk.strainValueOf c := by
  unfold Skill.strainValueOf
  have ek : (sk.withDiff d).kind = sk.kind := rfl
  rw [ek]
  cases hk : sk.kind with
  | aim ws => rfl
  | speed => simp only [speedValue_same h]
  | flashlight =>
    simp only
    unfold Flashlight.strainValue
    have e : (sk.withDiff d).diff = d := rfl
    rw [e, ← flashlightLoop_same h]
    rfl

omit [GoConv S D] [GoFloat S] in
theorem sectionLoop_same (d : Difficulty D) (t : D) (fuel : Nat) (sk : Skill S D) :
    Skill.sectionLoop t fuel (sk.withDiff d) = (Skill.sectionLoop t fuel sk).map (Skill.withDiff d) := by
  induction fuel generalizing sk with
  | zero => rfl
  | succ fuel ih =>
    rw [Skill.sectionLoop, Skill.sectionLoop]
    have e1 : (sk.withDiff d).currentSectionEnd = sk.currentSectionEnd := rfl
    rw [e1]
    split
    · have e2 : (sk.withDiff d).calculateInitialStrain sk.currentSectionEnd = sk.calculateInitialStrain sk.currentSectionEnd := rfl
      rw [e2]
      cases sk.calculateInitialStrain sk.currentSectionEnd with
      | error e => rfl
      | ok peak =>
        simp only [ok_bind]
        exact ih { sk with
          strainPeaks := sk.strainPeaks ++ [sk.currentSectionPeak]
          currentSectionPeak := peak
          currentSectionEnd := sk.currentSectionEnd +. sk.sectionLength }
    · rfl

theorem addStrain_same {d : Difficulty D} {sk : Skill S D} (h : SameForStars sk.diff d) (c : DiffObject S D) :
    (sk.withDiff d).addStrain c = (sk.addStrain c).map (Skill.withDiff d) := by
  have hv : ∀ x : D, Skill.strainValueOf (Skill.withDiff d { sk with currentStrain := x }) c =
      Skill.strainValueOf ({ sk with currentStrain := x } : Skill S D) c := fun x =>
    strainValueOf_same (sk := { sk with currentStrain := x }) h c
  have hr : ∀ x : D, Speed.rhythm (Skill.withDiff d { sk with currentStrain := x }) c =
      Speed.rhythm ({ sk with currentStrain := x } : Skill S D) c := fun x =>
    rhythm_same (sk := { sk with currentStrain := x }) h c
  have ed : (sk.withDiff d).strainDecay c.deltaTime = sk.strainDecay c.deltaTime := rfl
  unfold Skill.addStrain
  rw [ed]
  generalize sk.strainDecay c.deltaTime = dec
  cases sk with | mk kind _ _ _ _ _ _ _ _ _ _ _ _ _ _ _ =>
  simp only [Skill.withDiff] at hv hr ⊢
  simp only [hv]
  generalize Skill.strainValueOf _ c = r
  cases r with
  | error e => rfl
  | ok value =>
    simp only [ok_bind]
    cases kind with
    | aim ws => rfl
    | flashlight => rfl
    | speed =>
      simp only [hr]
      generalize Speed.rhythm _ c = r
      cases r <;> rfl

omit [GoConv S D] [GoFloat S] in
theorem sectionLoop_diff {t : D} {fuel : Nat} {sk sk' : Skill S D} (h : Skill.sectionLoop t fuel sk = .ok sk') :
    sk'.diff = sk.diff := by
  rcases Skill.sectionLoop_lock t fuel sk sk rfl with ⟨e, he, _⟩ | ⟨a, _, ha, _, _, hs, _⟩
  · rw [h] at he; cases he
  · rw [h] at ha
    rw [Except.ok.inj ha]
    exact hs.diff

theorem addStrain_diff {c : DiffObject S D} {sk sk' : Skill S D} (h : sk.addStrain c = .ok sk') :
    sk'.diff = sk.diff := by
  unfold Skill.addStrain at h
  simp only at h
  obtain ⟨v, _, h⟩ := bind_ok h
  split at h
  · obtain ⟨b, _, h⟩ := bind_ok h
    rw [← Except.ok.inj h]
  · rw [← Except.ok.inj h]

theorem processInternal_same {d : Difficulty D} {sk : Skill S D} (h : SameForStars sk.diff d) (fuel : Nat)
    (c : DiffObject S D) :
    (sk.withDiff d).processInternal fuel c = (sk.processInternal fuel c).map (Skill.withDiff d) ∧
    ∀ sk', sk.processInternal fuel c = .ok sk' → sk'.diff = sk.diff := by
  have key : ∀ t : Skill S D, SameForStars t.diff d →
      (Skill.sectionLoop c.startTime fuel (t.withDiff d) >>= Skill.addStrain c) =
        (Skill.sectionLoop c.startTime fuel t >>= Skill.addStrain c).map (Skill.withDiff d) ∧
      ∀ t', (Skill.sectionLoop c.startTime fuel t >>= Skill.addStrain c) = .ok t' → t'.diff = t.diff := by
    intro t ht
    rw [sectionLoop_same]
    cases hs : Skill.sectionLoop c.startTime fuel t with
    | error e => exact ⟨rfl, fun _ h => by cases h⟩
    | ok t' =>
      have : t'.diff = t.diff := (sectionLoop_diff hs)
      exact ⟨addStrain_same (this ▸ ht) c, fun t'' h => (addStrain_diff h).trans this⟩
  unfold Skill.processInternal
  have el : (sk.withDiff d).previous.length = sk.previous.length := rfl
  simp only [el]
  split
  · exact key { sk with currentSectionEnd := GoFloat.ceil (c.startTime /. sk.sectionLength) *. sk.sectionLength } h
  · exact key sk h

theorem process_same {d : Difficulty D} {sk : Skill S D} (h : SameForStars sk.diff d) (fuel : Nat)
    (c : DiffObject S D) :
    (sk.withDiff d).process fuel c = (sk.process fuel c).map (Skill.withDiff d) ∧
    ∀ sk', sk.process fuel c = .ok sk' → sk'.diff = sk.diff := by
  have key : ∀ t : Skill S D, SameForStars t.diff d →
      (((t.withDiff d).processInternal fuel c >>= fun s => (pure { s with previous := s.previous ++ [c] } : Result _)) =
        (t.processInternal fuel c >>= fun s => (pure { s with previous := s.previous ++ [c] } : Result _)).map
          (Skill.withDiff d)) ∧
      ∀ t', (t.processInternal fuel c >>= fun s => (pure { s with previous := s.previous ++ [c] } : Result _)) = .ok t' →
        t'.diff = t.diff := by
    intro t ht
    obtain ⟨h1, h2⟩ := processInternal_same ht fuel c
    rw [h1]
    cases hs : t.processInternal fuel c with
    | error e => exact ⟨rfl, fun _ h => by cases h⟩
    | ok t' =>
      refine ⟨rfl, fun t'' h => ?_⟩
      rw [← Except.ok.inj h]
      exact h2 t' hs
  unfold Skill.process
  have el : (sk.withDiff d).previous.length = sk.previous.length := rfl
  have eh : (sk.withDiff d).historyLength = sk.historyLength := rfl
  simp only [el, eh]
  split
  · exact key { sk with previous := sk.previous.drop (sk.previous.length - sk.historyLength) } h
  · exact key sk h

/-! ### sets of skills -/

/-- The same skills for another difficulty. -/
def SkillSet.withDiff (d : Difficulty D) (s : SkillSet S D) : SkillSet S D :=
  { aim := s.aim.withDiff d
    aimNoSliders := s.aimNoSliders.withDiff d
    speed := s.speed.withDiff d
    flashlight := s.flashlight.map (Skill.withDiff d) }

/-- All skills of a set were made for this difficulty. -/
structure SkillSet.For (d : Difficulty D) (s : SkillSet S D) : Prop where
  aim : s.aim.diff = d
  aimNoSliders : s.aimNoSliders.diff = d
  speed : s.speed.diff = d
  flashlight : ∀ f, s.flashlight = some f → f.diff = d

theorem processOpt_same {d d' : Difficulty D} (h : SameForStars d d') (fuel : Nat) (c : DiffObject S D)
    (o : Option (Skill S D)) (ho : ∀ f, o = some f → f.diff = d) :
    SkillSet.processOpt fuel c (o.map (Skill.withDiff d')) =
      (SkillSet.processOpt fuel c o).map (Option.map (Skill.withDiff d')) ∧
    ∀ o', SkillSet.processOpt fuel c o = .ok o' → ∀ f, o' = some f → f.diff = d := by
  cases o with
  | none =>
    refine ⟨rfl, fun o' h f hf => ?_⟩
    rw [← Except.ok.inj h] at hf
    cases hf
  | some sk =>
    have hd := ho sk rfl
    obtain ⟨h1, h2⟩ := process_same (sk := sk) (hd ▸ h) fuel c
    simp only [Option.map_some, SkillSet.processOpt]
    rw [h1]
    cases hs : sk.process fuel c with
    | error e => exact ⟨rfl, fun _ h => by cases h⟩
    | ok t' =>
      refine ⟨rfl, fun o' h f hf => ?_⟩
      rw [← Except.ok.inj h] at hf
      rw [← Option.some.inj hf, h2 t' hs, hd]

theorem setProcess_same {d d' : Difficulty D} (h : SameForStars d d') (fuel : Nat) (c : DiffObject S D)
    (s : SkillSet S D) (hs : s.For d) :
    (s.withDiff d').process fuel c = (s.process fuel c).map (SkillSet.withDiff d') ∧
    ∀ s', s.process fuel c = .ok s' → s'.For d := by
  obtain ⟨a1, a2⟩ := process_same (sk := s.aim) (hs.aim ▸ h) fuel c
  obtain ⟨b1, b2⟩ := process_same (sk := s.aimNoSliders) (hs.aimNoSliders ▸ h) fuel c
  obtain ⟨c1, c2⟩ := process_same (sk := s.speed) (hs.speed ▸ h) fuel c
  obtain ⟨f1, f2⟩ := processOpt_same h fuel c s.flashlight hs.flashlight
  unfold SkillSet.process SkillSet.withDiff
  simp only [a1, b1, c1, f1]
  cases ha : s.aim.process fuel c with
  | error e => exact ⟨rfl, fun _ h => by cases h⟩
  | ok a =>
    cases hb : s.aimNoSliders.process fuel c with
    | error e => exact ⟨rfl, fun _ h => by cases h⟩
    | ok b =>
      cases hc : s.speed.process fuel c with
      | error e => exact ⟨rfl, fun _ h => by cases h⟩
      | ok sp =>
        cases hf : SkillSet.processOpt fuel c s.flashlight with
        | error e => exact ⟨rfl, fun _ h => by cases h⟩
        | ok f =>
          refine ⟨rfl, fun s' h => ?_⟩
          rw [← Except.ok.inj h]
          exact ⟨(a2 a ha).trans hs.aim, (b2 b hb).trans hs.aimNoSliders, (c2 sp hc).trans hs.speed, f2 f hf⟩

omit [GoFloat S] [GoConv S D] in
theorem setNew_same {d d' : Difficulty D} (h : SameForStars d d') :
    (SkillSet.new d' : SkillSet S D) = (SkillSet.new d).withDiff d' ∧ (SkillSet.new d : SkillSet S D).For d := by
  unfold SkillSet.new SkillSet.withDiff Difficulty.checkModActive
  rw [← h.flashlight]
  split
  · exact ⟨rfl, rfl, rfl, rfl, fun f hf => by rw [← Option.some.inj hf]; rfl⟩
  · exact ⟨rfl, rfl, rfl, rfl, fun f hf => by cases hf⟩

omit [GoFloat S] [GoConv S D] in
theorem starsFromRaw_same {d d' : Difficulty D} (h : SameForStars d d') (a b c e : D) (attr : Attributes D) :
    getStarsFromRawValues a b c e d' attr = getStarsFromRawValues a b c e d attr := by
  unfold getStarsFromRawValues Difficulty.checkModActive
  rw [h.relax, h.flashlight]

omit [GoFloat S] [GoConv S D] in
theorem getPeaks_same {d d' : Difficulty D} (h : SameForStars d d') (a s : Skill S D) (f : Option (Skill S D)) :
    getPeaks (a.withDiff d') (s.withDiff d') (f.map (Skill.withDiff d')) d' = getPeaks a s f d := by
  have loop : ∀ (fl : Option (List D)) (sp : List D) (l : List D) i,
      peaksLoop d' fl sp i l = peaksLoop d fl sp i l := by
    intro fl sp l
    induction l with
    | nil => intro _; rfl
    | cons x xs ih =>
      intro i
      cases fl <;> simp only [peaksLoop, ih, starsFromRaw_same h]
  unfold getPeaks
  simp only [loop]
  cases f <;> rfl

variable [GoSort]

omit [GoFloat S] [GoConv S D] in
theorem setStars_same {d d' : Difficulty D} (h : SameForStars d d') (s : SkillSet S D) (attr : Attributes D) :
    (s.withDiff d').getStars d' attr = s.getStars d attr := by
  unfold SkillSet.getStars
  rw [starsFromRaw_same h]
  cases hf : s.flashlight <;> simp only [SkillSet.withDiff, hf] <;> rfl

theorem singleLoop_same {d d' : Difficulty D} (h : SameForStars d d') (fuel : Nat) (os : List (DiffObject S D))
    (objs : List (Obj S D)) (attr : Attributes D) (s : SkillSet S D) (hs : s.For d) :
    singleLoop fuel os objs attr (s.withDiff d') =
      (singleLoop fuel os objs attr s).map (fun r => (r.1, r.2.withDiff d')) := by
  induction os generalizing objs attr s with
  | nil => rfl
  | cons o os ih =>
    rw [singleLoop, singleLoop]
    cases index objs 0 with
    | error e => rfl
    | ok obj =>
      obtain ⟨h1, h2⟩ := setProcess_same h fuel o s hs
      simp only [ok_bind, h1]
      cases hp : s.process fuel o with
      | error e => rfl
      | ok s' => exact ih _ _ s' (h2 s' hp)

theorem stepLoop_same {d d' : Difficulty D} (h : SameForStars d d') (fuel : Nat) (os : List (DiffObject S D))
    (objs : List (Obj S D)) (attr : Attributes D) (s : SkillSet S D) (hs : s.For d) :
    stepLoop fuel d' os objs attr (s.withDiff d') =
      (stepLoop fuel d os objs attr s).map (fun r => (r.1, r.2.withDiff d')) := by
  induction os generalizing objs attr s with
  | nil => rfl
  | cons o os ih =>
    rw [stepLoop, stepLoop]
    cases index objs 0 with
    | error e => rfl
    | ok obj =>
      obtain ⟨h1, h2⟩ := setProcess_same h fuel o s hs
      simp only [ok_bind, h1]
      cases hp : s.process fuel o with
      | error e => rfl
      | ok s' =>
        simp only [Except.map, ok_bind, setStars_same h, ih _ _ s' (h2 s' hp)]
        generalize stepLoop fuel d os _ _ s' = r
        cases r <;> rfl

omit [GoSort] in
theorem peakLoop_same {d d' : Difficulty D} (h : SameForStars d d') (fuel : Nat) (os : List (DiffObject S D))
    (s : PeakSkills S D) (ha : s.aim.diff = d) (hsp : s.speed.diff = d)
    (hf : ∀ f, s.flashlight = some f → f.diff = d) :
    peakLoop fuel os { aim := s.aim.withDiff d', speed := s.speed.withDiff d', flashlight := s.flashlight.map (Skill.withDiff d') } =
      (peakLoop fuel os s).map (fun s =>
        { aim := s.aim.withDiff d', speed := s.speed.withDiff d', flashlight := s.flashlight.map (Skill.withDiff d') }) := by
  induction os generalizing s with
  | nil => rfl
  | cons o os ih =>
    rw [peakLoop, peakLoop]
    obtain ⟨a1, a2⟩ := process_same (sk := s.aim) (ha ▸ h) fuel o
    obtain ⟨c1, c2⟩ := process_same (sk := s.speed) (hsp ▸ h) fuel o
    obtain ⟨f1, f2⟩ := processOpt_same h fuel o s.flashlight hf
    simp only [a1, c1, f1]
    cases hpa : s.aim.process fuel o with
    | error e => rfl
    | ok a =>
      cases hpc : s.speed.process fuel o with
      | error e => rfl
      | ok sp =>
        cases hpf : SkillSet.processOpt fuel o s.flashlight with
        | error e => rfl
        | ok f => exact ih { aim := a, speed := sp, flashlight := f } ((a2 a hpa).trans ha) ((c2 sp hpc).trans hsp) (f2 f hpf)

/-! ### whole calculations -/

theorem singleCore_same {d d' : Difficulty D} (h : SameForStars d d') (fuel : Nat) (objs : List (Obj S D)) :
    calculateSingleCore fuel objs d' =
      (calculateSingleCore fuel objs d).map (fun r => (r.1, r.2.withDiff d')) := by
  unfold calculateSingleCore
  rw [← createDifficultyObjects_same h]
  cases createDifficultyObjects objs d with
  | error e => rfl
  | ok os =>
    cases index objs 0 with
    | error e => rfl
    | ok first =>
      obtain ⟨n1, n2⟩ := setNew_same (S := S) h
      simp only [ok_bind, n1, singleLoop_same h fuel os objs.tail _ _ n2]
      generalize singleLoop fuel os objs.tail _ (SkillSet.new d) = r
      cases r with
      | error e => rfl
      | ok r =>
        obtain ⟨attr, s⟩ := r
        simp only [Except.map, ok_bind, setStars_same h]
        rfl

theorem stepCore_same {d d' : Difficulty D} (h : SameForStars d d') (fuel : Nat) (objs : List (Obj S D)) :
    calculateStepCore fuel objs d' =
      (calculateStepCore fuel objs d).map (fun r => (r.1, r.2.withDiff d')) := by
  unfold calculateStepCore
  rw [← createDifficultyObjects_same h]
  cases createDifficultyObjects objs d with
  | error e => rfl
  | ok os =>
    simp only [ok_bind]
    split
    · rfl
    · cases index objs 0 with
      | error e => rfl
      | ok first =>
        obtain ⟨n1, n2⟩ := setNew_same (S := S) h
        simp only [ok_bind, n1, stepLoop_same h fuel os objs.tail _ _ n2]
        generalize stepLoop fuel d os objs.tail _ (SkillSet.new d) = r
        cases r <;> rfl

theorem single_same {d d' : Difficulty D} (h : SameForStars d d') (fuel : Nat) (objs : List (Obj S D)) :
    calculateSingle fuel objs d' = calculateSingle fuel objs d := by
  unfold calculateSingle
  rw [singleCore_same h]
  cases calculateSingleCore fuel objs d <;> rfl

theorem singlePeaks_same {d d' : Difficulty D} (h : SameForStars d d') (fuel : Nat) (objs : List (Obj S D)) :
    calculateSingleWithPeaks fuel objs d' = calculateSingleWithPeaks fuel objs d := by
  unfold calculateSingleWithPeaks
  rw [singleCore_same h]
  cases calculateSingleCore fuel objs d with
  | error e => simp only [Except.map, err_bind]
  | ok r =>
    obtain ⟨stars, sk⟩ := r
    have e1 : (sk.withDiff d').aim = sk.aim.withDiff d' := rfl
    have e2 : (sk.withDiff d').speed = sk.speed.withDiff d' := rfl
    have e3 : (sk.withDiff d').flashlight = sk.flashlight.map (Skill.withDiff d') := rfl
    have e : getPeaks (sk.withDiff d').aim (sk.withDiff d').speed (sk.withDiff d').flashlight d' =
        getPeaks sk.aim sk.speed sk.flashlight d := by
      rw [e1, e2, e3]
      exact getPeaks_same h _ _ _
    simp only [Except.map, ok_bind, e]

theorem step_same {d d' : Difficulty D} (h : SameForStars d d') (fuel : Nat) (objs : List (Obj S D)) :
    calculateStep fuel objs d' = calculateStep fuel objs d := by
  unfold calculateStep
  rw [stepCore_same h]
  cases calculateStepCore fuel objs d <;> rfl

theorem stepPeaks_same {d d' : Difficulty D} (h : SameForStars d d') (fuel : Nat) (objs : List (Obj S D)) :
    calculateStepWithPeaks fuel objs d' = calculateStepWithPeaks fuel objs d := by
  unfold calculateStepWithPeaks
  rw [stepCore_same h]
  cases calculateStepCore fuel objs d with
  | error e => simp only [Except.map, err_bind]
  | ok r =>
    obtain ⟨stars, sk⟩ := r
    have e1 : (sk.withDiff d').aim = sk.aim.withDiff d' := rfl
    have e2 : (sk.withDiff d').speed = sk.speed.withDiff d' := rfl
    have e3 : (sk.withDiff d').flashlight = sk.flashlight.map (Skill.withDiff d') := rfl
    have e : getPeaks (sk.withDiff d').aim (sk.withDiff d').speed (sk.withDiff d').flashlight d' =
        getPeaks sk.aim sk.speed sk.flashlight d := by
      rw [e1, e2, e3]
      exact getPeaks_same h _ _ _
    simp only [Except.map, ok_bind, e]

omit [GoSort] in
theorem strainPeaks_same {d d' : Difficulty D} (h : SameForStars d d') (fuel : Nat) (objs : List (Obj S D)) :
    calculateStrainPeaks fuel objs d' = calculateStrainPeaks fuel objs d := by
  unfold calculateStrainPeaks
  rw [← createDifficultyObjects_same h]
  cases createDifficultyObjects objs d with
  | error e => simp only [Except.map, err_bind]
  | ok os =>
    obtain ⟨n1, n2⟩ := setNew_same (S := S) h
    have e := peakLoop_same h fuel os { aim := (SkillSet.new d).aim, speed := (SkillSet.new d).speed, flashlight := (SkillSet.new d).flashlight }
      n2.aim n2.speed n2.flashlight
    have e1 : ((SkillSet.new d : SkillSet S D).withDiff d').flashlight = (SkillSet.new d' : SkillSet S D).flashlight := by
      rw [n1]
    have e2 : Option.map (Skill.withDiff d') (SkillSet.new d : SkillSet S D).flashlight =
      ((SkillSet.new d : SkillSet S D).withDiff d').flashlight := rfl
    rw [e2, e1] at e
    simp only [ok_bind]
    refine Eq.trans (congrArg (fun r : Result (PeakSkills S D) => r >>= _) e) ?_
    show _ = (peakLoop fuel os { aim := (SkillSet.new d).aim, speed := (SkillSet.new d).speed, flashlight := (SkillSet.new d).flashlight } >>= _)
    generalize peakLoop fuel os _ = r
    cases r with
    | error e => simp only [Except.map, err_bind]
    | ok r =>
      simp only [Except.map, ok_bind]
      exact getPeaks_same h ..

end
end GosuPP
