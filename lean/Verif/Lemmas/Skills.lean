import Verif.Lemmas.Calc

/-! Skills: strains never fail, and all skills go through their sections in lockstep. -/

namespace GosuPP
open Go
variable {S D : Type} [GoFloat S] [GoFloat D] [GoConv S D] [GoLibm D]

namespace Skill

omit [GoFloat S] [GoFloat D] [GoConv S D] [GoLibm D] in
theorem derefPrevious_ok (sk : Skill S D) {i : Nat} (h : i < sk.previous.length) :
    ∃ o, sk.derefPrevious i = .ok o := by
  unfold derefPrevious getPrevious
  rw [List.getElem?_eq_getElem (by simpa using h)]
  exact ⟨_, rfl⟩

omit [GoFloat S] [GoFloat D] [GoConv S D] [GoLibm D] in
theorem derefPrevious_nil (sk : Skill S D) (h : sk.previous = []) (i : Nat) :
    sk.derefPrevious i = .error .panic := by
  unfold derefPrevious getPrevious
  rw [h]; rfl

end Skill

omit [GoFloat S] [GoConv S D] in
theorem aim_strainValue_ok (w : Bool) (sk : Skill S D) (c : DiffObject S D) :
    ∃ v, Aim.strainValue w sk c = .ok v := by
  unfold Aim.strainValue
  split
  · exact ⟨_, rfl⟩
  · rename_i h
    simp only [Bool.or_eq_true, decide_eq_true_eq, not_or, not_le] at h
    obtain ⟨o, ho⟩ := sk.derefPrevious_ok (i := 0) (by omega)
    obtain ⟨o', ho'⟩ := sk.derefPrevious_ok (i := 1) (by omega)
    simp only [ho, ho', ok_bind]
    split
    · exact ⟨_, rfl⟩
    · exact ⟨_, rfl⟩

theorem strainValueOf_ok (sk : Skill S D) (c : DiffObject S D) : ∃ v, sk.strainValueOf c = .ok v := by
  unfold Skill.strainValueOf
  cases sk.kind with
  | aim w => exact aim_strainValue_ok w sk c
  | speed => exact ⟨_, rfl⟩
  | flashlight => exact ⟨_, rfl⟩

omit [GoFloat S] [GoConv S D] in
theorem rhythmLoop_ok (g : D) (sk : Skill S D) (c : DiffObject S D) (i : Nat) (r : Speed.Rhythm D)
    (h : i = 0 ∨ i + 1 < sk.previous.length) : ∃ r', Speed.rhythmLoop g sk c i r = .ok r' := by
  induction i generalizing r with
  | zero => exact ⟨r, rfl⟩
  | succ i ih =>
    obtain ⟨a, ha⟩ := sk.derefPrevious_ok (i := i) (by omega)
    obtain ⟨b, hb⟩ := sk.derefPrevious_ok (i := i + 1) (by omega)
    obtain ⟨e, he⟩ := sk.derefPrevious_ok (i := i + 2) (by omega)
    rw [Speed.rhythmLoop, ha, hb, he]
    exact ih _ (by omega)

omit [GoFloat S] [GoConv S D] in
theorem rhythm_ok (sk : Skill S D) (c : DiffObject S D) : ∃ v, Speed.rhythm sk c = .ok v := by
  unfold Speed.rhythm
  split
  · exact ⟨_, rfl⟩
  · obtain ⟨r, hr⟩ := rhythmLoop_ok (sk.diff.hit300 /. sk.diff.speed) sk c (sk.previous.length - 2)
      { previousIslandSize := 0, complexitySum := lit 0, islandSize := 1, startRatio := lit 0
        firstDeltaSwitch := false } (by omega)
    simp only [hr, ok_bind]
    exact ⟨_, rfl⟩

namespace Skill

/-- What the sections of a skill are. -/
structure Sec (D : Type) where
  started : Bool
  endTime : D
  sectionLength : D
  peaks : Nat

omit [GoFloat S] [GoFloat D] [GoConv S D] [GoLibm D] in
def sec (sk : Skill S D) : Sec D :=
  { started := !sk.previous.isEmpty, endTime := sk.currentSectionEnd
    sectionLength := sk.sectionLength, peaks := sk.strainPeaks.length }

/-- The strain of an object is added without failing, and only strain, rhythm and section peak
change. -/
theorem addStrain_ok (c : DiffObject S D) (sk : Skill S D) :
    ∃ s r p, addStrain c sk =
      .ok { sk with currentStrain := s, currentRhythm := r, currentSectionPeak := p } := by
  unfold addStrain
  simp only
  obtain ⟨v, hv⟩ := strainValueOf_ok
    { sk with currentStrain := sk.currentStrain *. sk.strainDecay c.deltaTime } c
  simp only [hv, ok_bind]
  cases hk : sk.kind with
  | speed =>
    simp only
    obtain ⟨b, hb⟩ := rhythm_ok { sk with
      currentStrain := sk.currentStrain *. sk.strainDecay c.deltaTime +. v *. sk.skillMultiplier } c
    exact ⟨_, _, _, by rw [hk] at hb; rw [hb]; rfl⟩
  | aim w => exact ⟨_, sk.currentRhythm, _, rfl⟩
  | flashlight => exact ⟨_, sk.currentRhythm, _, rfl⟩

omit [GoFloat S] [GoConv S D] in
theorem calculateInitialStrain_cases (sk : Skill S D) (t : D) :
    if sk.previous = [] then sk.calculateInitialStrain t = .error .panic
    else ∃ v, sk.calculateInitialStrain t = .ok v := by
  unfold calculateInitialStrain
  split
  · rename_i h; rw [sk.derefPrevious_nil h]; rfl
  · rename_i h
    obtain ⟨o, ho⟩ := sk.derefPrevious_ok (i := 0) (by
      cases hp : sk.previous with
      | nil => exact absurd hp h
      | cons _ _ => simp)
    rw [ho]
    cases sk.kind <;> exact ⟨_, rfl⟩

/-- The fields that the section loop leaves alone. -/
structure SameShape (a b : Skill S D) : Prop where
  previous : a.previous = b.previous
  historyLength : a.historyLength = b.historyLength
  kind : a.kind = b.kind
  diff : a.diff = b.diff

omit [GoFloat S] [GoConv S D] in
/-- Section loops of two skills in the same section state. -/
theorem sectionLoop_lock (t : D) (fuel : Nat) (a b : Skill S D) (h : a.sec = b.sec) :
    (∃ e, sectionLoop t fuel a = .error e ∧ sectionLoop t fuel b = .error e) ∨
    ∃ a' b', sectionLoop t fuel a = .ok a' ∧ sectionLoop t fuel b = .ok b' ∧ a'.sec = b'.sec ∧
      SameShape a' a ∧ SameShape b' b := by
  induction fuel generalizing a b with
  | zero => exact Or.inl ⟨_, rfl, rfl⟩
  | succ fuel ih =>
    simp only [sec, Sec.mk.injEq] at h
    obtain ⟨h1, h2, h3, h4⟩ := h
    rw [sectionLoop, sectionLoop, h2]
    by_cases hc : (b.currentSectionEnd <. t) = true
    · rw [if_pos hc, if_pos hc]
      have ha := a.calculateInitialStrain_cases b.currentSectionEnd
      have hb := b.calculateInitialStrain_cases b.currentSectionEnd
      have hab : a.previous = [] ↔ b.previous = [] := by
        rw [← List.isEmpty_iff, ← List.isEmpty_iff]
        cases ha : a.previous.isEmpty <;> cases hb : b.previous.isEmpty <;> simp [ha, hb] at h1 ⊢
      by_cases he : b.previous = []
      · rw [if_pos (hab.mpr he)] at ha
        rw [if_pos he] at hb
        rw [ha, hb]
        exact Or.inl ⟨_, rfl, rfl⟩
      · rw [if_neg (fun h => he (hab.mp h))] at ha
        rw [if_neg he] at hb
        obtain ⟨va, ha⟩ := ha
        obtain ⟨vb, hb⟩ := hb
        rw [ha, hb]
        rcases ih { a with
            strainPeaks := a.strainPeaks ++ [a.currentSectionPeak]
            currentSectionPeak := va, currentSectionEnd := b.currentSectionEnd +. a.sectionLength }
          { b with
            strainPeaks := b.strainPeaks ++ [b.currentSectionPeak]
            currentSectionPeak := vb, currentSectionEnd := b.currentSectionEnd +. b.sectionLength }
          (by simp [sec, h1, h3, h4]) with ⟨e, e1, e2⟩ | ⟨a', b', e1, e2, e3, e4, e5⟩
        · exact Or.inl ⟨e, e1, e2⟩
        · exact Or.inr ⟨a', b', e1, e2, e3, ⟨e4.1, e4.2, e4.3, e4.4⟩, ⟨e5.1, e5.2, e5.3, e5.4⟩⟩
    · rw [if_neg hc, if_neg hc]
      exact Or.inr ⟨a, b, rfl, rfl, by simp [sec, h1, h2, h3, h4], ⟨rfl, rfl, rfl, rfl⟩,
        ⟨rfl, rfl, rfl, rfl⟩⟩

omit [GoFloat S] [GoFloat D] [GoConv S D] [GoLibm D] in
/-- The history after trimming. -/
def trimmed (sk : Skill S D) : Skill S D :=
  if sk.previous.length > sk.historyLength then
    { sk with previous := sk.previous.drop (sk.previous.length - sk.historyLength) }
  else sk

omit [GoFloat S] [GoFloat D] [GoConv S D] [GoLibm D] in
theorem trimmed_sec (sk : Skill S D) (h : 1 ≤ sk.historyLength) : sk.trimmed.sec = sk.sec := by
  unfold trimmed
  split
  · rename_i hl
    have : (sk.previous.drop (sk.previous.length - sk.historyLength)).isEmpty = sk.previous.isEmpty := by
      have h1 : sk.previous.isEmpty = false := by
        cases hp : sk.previous with
        | nil => rw [hp] at hl; simp at hl
        | cons _ _ => rfl
      rw [h1]
      rw [List.isEmpty_eq_false_iff, ne_eq, List.drop_eq_nil_iff]
      omega
    simp [sec, this]
  · rfl

theorem process_lock (fuel : Nat) (c : DiffObject S D) (a b : Skill S D) (h : a.sec = b.sec)
    (ha : 1 ≤ a.historyLength) (hb : 1 ≤ b.historyLength) :
    (∃ e, process fuel c a = .error e ∧ process fuel c b = .error e) ∨
    ∃ a' b', process fuel c a = .ok a' ∧ process fuel c b = .ok b' ∧ a'.sec = b'.sec ∧
      a'.historyLength = a.historyLength ∧ b'.historyLength = b.historyLength := by
  have hta := a.trimmed_sec ha
  have htb := b.trimmed_sec hb
  have hha : a.trimmed.historyLength = a.historyLength := by unfold trimmed; split <;> rfl
  have hhb : b.trimmed.historyLength = b.historyLength := by unfold trimmed; split <;> rfl
  have hpa : ∀ sk : Skill S D, process fuel c sk = (do
      let sk ← processInternal fuel c sk.trimmed
      return { sk with previous := sk.previous ++ [c] }) := fun sk => rfl
  rw [hpa, hpa, ← hha, ← hhb]
  rw [← hta, ← htb] at h
  clear hta htb hha hhb hpa ha hb
  generalize a.trimmed = a at *
  generalize b.trimmed = b at *
  unfold processInternal
  simp only [sec, Sec.mk.injEq] at h
  obtain ⟨h1, h2, h3, h4⟩ := h
  have hab : a.previous = [] ↔ b.previous = [] := by
    rw [← List.isEmpty_iff, ← List.isEmpty_iff]
    cases ha : a.previous.isEmpty <;> cases hb : b.previous.isEmpty <;> simp [ha, hb] at h1 ⊢
  have key : ∀ a b : Skill S D, a.sec = b.sec →
      (∃ e, (do
          let sk ← (do addStrain c (← sectionLoop c.startTime fuel a))
          return { sk with previous := sk.previous ++ [c] } : Result (Skill S D)) = .error e ∧
        (do
          let sk ← (do addStrain c (← sectionLoop c.startTime fuel b))
          return { sk with previous := sk.previous ++ [c] } : Result (Skill S D)) = .error e) ∨
      ∃ a' b', (do
          let sk ← (do addStrain c (← sectionLoop c.startTime fuel a))
          return { sk with previous := sk.previous ++ [c] } : Result (Skill S D)) = .ok a' ∧
        (do
          let sk ← (do addStrain c (← sectionLoop c.startTime fuel b))
          return { sk with previous := sk.previous ++ [c] } : Result (Skill S D)) = .ok b' ∧
        a'.sec = b'.sec ∧ a'.historyLength = a.historyLength ∧ b'.historyLength = b.historyLength := by
    intro a b h
    rcases sectionLoop_lock c.startTime fuel a b h with ⟨e, e1, e2⟩ | ⟨a', b', e1, e2, e3, e4, e5⟩
    · left
      rw [e1, e2]
      exact ⟨e, rfl, rfl⟩
    · right
      obtain ⟨s, r, p, hs⟩ := addStrain_ok c a'
      obtain ⟨s2, r2, p2, hs2⟩ := addStrain_ok c b'
      simp only [e1, e2, ok_bind, hs, hs2]
      refine ⟨_, _, rfl, rfl, ?_, e4.2, e5.2⟩
      simp only [sec, Sec.mk.injEq] at e3 ⊢
      obtain ⟨f1, f2, f3, f4⟩ := e3
      exact ⟨by cases a'.previous <;> cases b'.previous <;> rfl, f2, f3, f4⟩
  by_cases he : b.previous = []
  · have hae := hab.mpr he
    rw [if_pos (by rw [hae]; rfl), if_pos (by rw [he]; rfl)]
    exact key _ _ (by simp [sec, h1, h3, h4])
  · have hane : a.previous ≠ [] := fun h => he (hab.mp h)
    rw [if_neg (by simpa using hane), if_neg (by simpa using he)]
    exact key _ _ (by simp [sec, h1, h2, h3, h4])

end Skill

/-! ### The skills of a calculation -/

/-- All skills are in the same section. -/
structure Locked (sk : SkillSet S D) : Prop where
  aim : sk.aim.sec = sk.aimNoSliders.sec
  speed : sk.aim.sec = sk.speed.sec
  flashlight : ∀ f, sk.flashlight = some f → sk.aim.sec = f.sec ∧ 1 ≤ f.historyLength
  h1 : 1 ≤ sk.aim.historyLength
  h2 : 1 ≤ sk.aimNoSliders.historyLength
  h3 : 1 ≤ sk.speed.historyLength

omit [GoFloat S] [GoConv S D] [GoLibm D] in
theorem locked_new (diff : Difficulty D) : Locked (S := S) (SkillSet.new diff) where
  aim := rfl
  speed := rfl
  flashlight f h := by
    unfold SkillSet.new at h
    simp only at h
    split at h
    · cases h; exact ⟨rfl, Nat.le_add_left 1 9⟩
    · cases h
  h1 := Nat.le_add_left 1 1
  h2 := Nat.le_add_left 1 1
  h3 := Nat.le_add_left 1 31

/-- Processing an object fails for all skills or for none. -/
theorem process_locked (fuel : Nat) (o : DiffObject S D) (sk : SkillSet S D) (h : Locked sk) :
    (∃ e, sk.process fuel o = .error e ∧ sk.aim.process fuel o = .error e) ∨
    ∃ a n s f, sk.process fuel o = .ok ⟨a, n, s, f⟩ ∧ sk.aim.process fuel o = .ok a ∧
      sk.speed.process fuel o = .ok s ∧ SkillSet.processOpt fuel o sk.flashlight = .ok f ∧
      Locked ⟨a, n, s, f⟩ ∧ f.isSome = sk.flashlight.isSome := by
  obtain ⟨aim, nos, speed, fl⟩ := sk
  obtain ⟨k1, k2, k3, k4, k5, k6⟩ := h
  simp only at k1 k2 k3 k4 k5 k6
  unfold SkillSet.process
  rcases Skill.process_lock fuel o aim nos k1 k4 k5 with ⟨e, e1, e2⟩ | ⟨a, n, e1, e2, e3, e4, e5⟩
  · left; simp only [e1]; exact ⟨e, rfl, rfl⟩
  rcases Skill.process_lock fuel o aim speed k2 k4 k6 with ⟨e, f1, f2⟩ | ⟨a2, s, f1, f2, f3, f4, f5⟩
  · rw [f1] at e1; cases e1
  rw [e1] at f1
  cases f1
  right
  cases fl with
  | none =>
    simp only [e1, e2, f2, ok_bind]
    refine ⟨_, _, _, none, rfl, rfl, rfl, rfl, ⟨e3, f3, ?_, e4.symm ▸ k4, e5.symm ▸ k5, f5.symm ▸ k6⟩, rfl⟩
    intro f h; cases h
  | some f =>
    obtain ⟨q1, q2⟩ := k3 f rfl
    rcases Skill.process_lock fuel o aim f q1 k4 q2 with ⟨e, g1, g2⟩ | ⟨a3, f', g1, g2, g3, g4, g5⟩
    · rw [g1] at e1; cases e1
    rw [e1] at g1
    cases g1
    have hopt : SkillSet.processOpt fuel o (some f) = .ok (some f') := by
      unfold SkillSet.processOpt
      simp only [g2]; rfl
    simp only [e1, e2, f2, ok_bind, hopt]
    refine ⟨_, _, _, some f', rfl, rfl, rfl, rfl, ⟨e3, f3, ?_, e4.symm ▸ k4, e5.symm ▸ k5, f5.symm ▸ k6⟩, rfl⟩
    intro x h
    cases h
    exact ⟨g3, g5.symm ▸ q2⟩

theorem peakLoop_single [GoSort] (fuel : Nat) (ds : List (DiffObject S D)) (objs : List (Obj S D))
    (hlen : ds.length ≤ objs.length) (attr : Attributes D) (sk : SkillSet S D) (h : Locked sk) :
    (∃ e, singleLoop fuel ds objs attr sk = .error e ∧
      peakLoop fuel ds ⟨sk.aim, sk.speed, sk.flashlight⟩ = .error e) ∨
    ∃ attr' sk', singleLoop fuel ds objs attr sk = .ok (attr', sk') ∧
      peakLoop fuel ds ⟨sk.aim, sk.speed, sk.flashlight⟩ =
        .ok ⟨sk'.aim, sk'.speed, sk'.flashlight⟩ ∧ Locked sk' ∧
      sk'.flashlight.isSome = sk.flashlight.isSome := by
  induction ds generalizing objs attr sk with
  | nil => exact Or.inr ⟨attr, sk, rfl, rfl, h, rfl⟩
  | cons d ds ih =>
    cases objs with
    | nil => simp at hlen
    | cons o objs =>
      have h0 : index (o :: objs) 0 = .ok o := rfl
      rcases process_locked fuel d sk h with ⟨e, e1, e2⟩ | ⟨a, n, s, f, e1, e2, e3, e4, e5, e6⟩
      · left
        refine ⟨e, ?_, ?_⟩
        · rw [singleLoop, h0, ok_bind, e1]; rfl
        · rw [peakLoop]; simp only [e2]; rfl
      · rw [singleLoop_cons_ok h0 e1, peakLoop]
        simp only [e2, e3, e4, ok_bind]
        rcases ih objs (by simpa using hlen) (addObjectToAttribs o attr) ⟨a, n, s, f⟩ e5 with
          ⟨e, g1, g2⟩ | ⟨at', sk', g1, g2, g3, g4⟩
        · exact Or.inl ⟨e, g1, g2⟩
        · exact Or.inr ⟨at', sk', g1, g2, g3, g4.trans e6⟩

/-- The totals are computed without going out of range. -/
theorem peaksLoop_ok (diff : Difficulty D) (fl : Option (List D)) (speed : List D) (i : Nat) (aim : List D)
    (h1 : aim.length + i ≤ speed.length) (h2 : ∀ l, fl = some l → aim.length + i ≤ l.length) :
    ∃ t, peaksLoop diff fl speed i aim = .ok t ∧ t.length = aim.length := by
  induction aim generalizing i with
  | nil => exact ⟨[], rfl, rfl⟩
  | cons a rest ih =>
    simp only [List.length_cons] at h1 h2
    obtain ⟨t, ht, hlen⟩ := ih (i + 1) (by omega) (fun l hl => by have := h2 l hl; omega)
    have hidx : ∀ l : List D, i < l.length → ∃ v, index l i = .ok v := by
      intro l hl
      unfold index
      rw [if_neg (by omega), Int.toNat_natCast, List.getElem?_eq_getElem hl]
      exact ⟨_, rfl⟩
    obtain ⟨v, hv⟩ := hidx speed (by omega)
    unfold peaksLoop
    cases fl with
    | none =>
      simp only [hv, ht, ok_bind, pure_bind]
      exact ⟨_, rfl, by simp [hlen]⟩
    | some l =>
      obtain ⟨w, hw⟩ := hidx l (by have := h2 l rfl; omega)
      simp only [hv, hw, ht, ok_bind]
      exact ⟨_, rfl, by simp [hlen]⟩

theorem getPeaks_ok (diff : Difficulty D) (sk : SkillSet S D) (h : Locked sk) :
    ∃ p, getPeaks sk.aim sk.speed sk.flashlight diff = .ok p ∧
      p.aim = sk.aim.getCurrentStrainPeaks ∧ p.speed = sk.speed.getCurrentStrainPeaks ∧
      p.flashlight = (sk.flashlight.map (·.getCurrentStrainPeaks)).getD [] ∧
      p.speed.length = p.aim.length ∧ p.total.length = p.aim.length ∧
      p.flashlight.length = if sk.flashlight.isSome then p.aim.length else 0 := by
  have hl : ∀ s : Skill S D, s.getCurrentStrainPeaks.length = s.sec.peaks + 1 := fun s => by
    simp [Skill.getCurrentStrainPeaks, Skill.sec]
  obtain ⟨t, ht, hlen⟩ := peaksLoop_ok diff (sk.flashlight.map (·.getCurrentStrainPeaks))
    sk.speed.getCurrentStrainPeaks 0 sk.aim.getCurrentStrainPeaks
    (by rw [hl, hl, h.speed])
    (by
      intro l hl'
      cases hf : sk.flashlight with
      | none => rw [hf] at hl'; cases hl'
      | some f =>
        rw [hf] at hl'
        cases hl'
        rw [hl, hl, (h.flashlight f hf).1])
  unfold getPeaks
  simp only [ht, ok_bind]
  refine ⟨_, rfl, rfl, rfl, rfl, ?_, hlen, ?_⟩
  · simp only [hl, h.speed]
  · simp only
    cases hf : sk.flashlight with
    | none => rfl
    | some f => simp [hl, (h.flashlight f hf).1]

end GosuPP
