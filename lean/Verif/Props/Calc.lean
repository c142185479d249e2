import Verif.Lemmas.Skills
import Verif.Lemmas.Curve
import Verif.Lemmas.IEEE
import Verif.Spec.Calc
import Verif.Props.Sample

/-!
# Difficulty calculation: C43 (steps agree with single results), C44 (the first step),
C45 (strain peaks), C46 (counts), C47 (panics)
-/

namespace GosuPP.Props
open Go Fl

section
variable {S D : Type} [GoFloat S] [GoFloat D] [GoConv S D] [GoLibm D] [GoSort]

/-- The calculation in terms of its loop. -/
private theorem core_eq {fuel : Nat} {o : Obj S D} {objs : List (Obj S D)} {diff : Difficulty D}
    {ds : List (DiffObject S D)} (h : createDifficultyObjects (o :: objs) diff = .ok ds) :
    calculateSingleCore fuel (o :: objs) diff =
      singleLoop fuel ds objs (addObjectToAttribs o Attributes.zero) (SkillSet.new diff) >>=
        fun p => .ok (p.2.getStars diff p.1, p.2) := by
  unfold calculateSingleCore
  have : index (o :: objs) 0 = .ok o := rfl
  simp only [h, this, ok_bind, List.tail_cons]
  rfl

private theorem step_eq {fuel : Nat} {o : Obj S D} {objs : List (Obj S D)} {diff : Difficulty D}
    {ds : List (DiffObject S D)} (h : createDifficultyObjects (o :: objs) diff = .ok ds) :
    calculateStepCore fuel (o :: objs) diff =
      stepLoop fuel diff ds objs (addObjectToAttribs o Attributes.zero) (SkillSet.new diff) >>=
        fun p => .ok (addObjectToAttribs o Attributes.zero :: p.1, p.2) := by
  unfold calculateStepCore
  have : index (o :: objs) 0 = .ok o := rfl
  simp only [h, this, ok_bind, List.tail_cons, List.length_cons]
  rw [if_neg (by omega)]
  rfl

/-- Both calculations fail in the same way or succeed with the same skills. -/
private theorem core_cases (fuel : Nat) (objs : List (Obj S D)) (diff : Difficulty D) :
    (∃ e, calculateSingleCore fuel objs diff = .error e ∧ calculateStepCore fuel objs diff = .error e) ∨
    ∃ a stars sk, calculateSingleCore fuel objs diff = .ok (a, sk) ∧
      calculateStepCore fuel objs diff = .ok (stars, sk) := by
  cases h : createDifficultyObjects objs diff with
  | error e =>
    left
    refine ⟨e, ?_, ?_⟩
    · unfold calculateSingleCore; rw [h]; rfl
    · unfold calculateStepCore; rw [h]; rfl
  | ok ds =>
    cases objs with
    | nil =>
      left
      refine ⟨.panic, ?_, ?_⟩
      · unfold calculateSingleCore; rw [h]; rfl
      · unfold calculateStepCore; rw [h]; rfl
    | cons o objs =>
      rw [core_eq h, step_eq h]
      cases hs : stepLoop fuel diff ds objs (addObjectToAttribs o Attributes.zero) (SkillSet.new diff) with
      | error e =>
        left
        rw [(stepLoop_error _ _ _ _ _ _ _ _).mp hs]
        exact ⟨e, rfl, rfl⟩
      | ok p =>
        right
        obtain ⟨stars, sk⟩ := p
        obtain ⟨-, ⟨b, hb⟩, -⟩ := stepLoop_ok (addObjectToAttribs o Attributes.zero)
          ⟨rfl, rfl, rfl, rfl, rfl⟩ hs
        rw [hb]
        exact ⟨_, _, sk, rfl, rfl⟩

/-- C43 (any arithmetic). `CalculateStep` panics or hangs exactly when `CalculateSingle` does. -/
theorem C43_faults (fuel : Nat) (objs : List (Obj S D)) (diff : Difficulty D) (e : Fault) :
    calculateStep fuel objs diff = .error e ↔ calculateSingle fuel objs diff = .error e := by
  unfold calculateStep calculateSingle
  rcases core_cases fuel objs diff with ⟨e', h1, h2⟩ | ⟨a, stars, sk, h1, h2⟩
  · rw [h1, h2]; constructor <;> intro h <;> cases h <;> rfl
  · rw [h1, h2]; constructor <;> intro h <;> cases h

/-- C43 (any arithmetic). There is one result per object and, from the second on, result `i` is
that of `CalculateSingle` on the first `i + 1` objects. -/
theorem C43_steps (fuel : Nat) (objs : List (Obj S D)) (diff : Difficulty D)
    (stars : List (Attributes D)) (h : calculateStep fuel objs diff = .ok stars) :
    stars.length = objs.length ∧
    ∀ i, 1 ≤ i → i < objs.length → ∃ a, stars[i]? = some a ∧
      calculateSingle fuel (objs.take (i + 1)) diff = .ok a := by
  unfold calculateStep at h
  obtain ⟨⟨st, sk⟩, hc, h⟩ := bind_ok h
  cases h
  cases hd : createDifficultyObjects objs diff with
  | error e =>
    unfold calculateStepCore at hc
    rw [hd] at hc
    cases hc
  | ok ds =>
    have hlen := createDifficultyObjects_length hd
    cases objs with
    | nil =>
      unfold calculateStepCore at hc
      rw [hd] at hc
      cases hc
    | cons o objs =>
      rw [step_eq hd] at hc
      obtain ⟨⟨rest, sk'⟩, hs, hc⟩ := bind_ok hc
      cases hc
      obtain ⟨h1, -, h3⟩ := stepLoop_ok (addObjectToAttribs o Attributes.zero)
        ⟨rfl, rfl, rfl, rfl, rfl⟩ hs
      simp only [List.length_cons, Nat.add_sub_cancel] at hlen
      refine ⟨by simp [h1, hlen], ?_⟩
      intro i hi1 hi2
      obtain ⟨n, rfl⟩ : ∃ n, i = n + 1 := ⟨i - 1, by omega⟩
      simp only [List.length_cons] at hi2
      obtain ⟨b, sk'', k1, k2⟩ := h3 n (by omega)
      refine ⟨_, k2, ?_⟩
      have ht := createDifficultyObjects_take hd (n + 1)
      simp only [List.take_succ_cons] at ht ⊢
      unfold calculateSingle
      rw [core_eq ht, singleLoop_objs (by simp), k1]
      rfl

/-- C44 (any arithmetic). The first result of `CalculateStep` only counts the first object: all its
ratings, its total and its slider factor are 0. -/
theorem C44_first (fuel : Nat) (objs : List (Obj S D)) (diff : Difficulty D)
    (stars : List (Attributes D)) (h : calculateStep fuel objs diff = .ok stars) :
    ∃ a, stars[0]? = some a ∧ a.total = lit 0 ∧ a.aim = lit 0 ∧ a.speed = lit 0 ∧
      a.flashlight = lit 0 ∧ a.sliderFactor = lit 0 ∧ a.objectCount = 1 := by
  unfold calculateStep at h
  obtain ⟨⟨st, sk⟩, hc, h⟩ := bind_ok h
  cases h
  unfold calculateStepCore at hc
  obtain ⟨ds, -, hc⟩ := bind_ok hc
  split at hc
  · cases hc
  obtain ⟨o, -, hc⟩ := bind_ok hc
  obtain ⟨⟨rest, sk'⟩, -, hc⟩ := bind_ok hc
  cases hc
  refine ⟨_, rfl, ?_⟩
  unfold addObjectToAttribs
  cases o.kind <;> exact ⟨rfl, rfl, rfl, rfl, rfl, rfl⟩

/-- C45 (any arithmetic). The three ways to get strain peaks fail in the same way as
`CalculateSingle` or give the same peaks. -/
theorem C45_same (fuel : Nat) (objs : List (Obj S D)) (hne : objs ≠ []) (diff : Difficulty D) :
    (∃ e, calculateSingle fuel objs diff = .error e ∧
      calculateSingleWithPeaks fuel objs diff = .error e ∧
      calculateStepWithPeaks fuel objs diff = .error e ∧
      calculateStrainPeaks fuel objs diff = .error e) ∨
    ∃ a stars peaks, calculateSingle fuel objs diff = .ok a ∧
      calculateStep fuel objs diff = .ok stars ∧
      calculateSingleWithPeaks fuel objs diff = .ok (a, peaks) ∧
      calculateStepWithPeaks fuel objs diff = .ok (stars, peaks) ∧
      calculateStrainPeaks fuel objs diff = .ok peaks ∧
      peaks.speed.length = peaks.aim.length ∧ peaks.total.length = peaks.aim.length ∧
      peaks.flashlight.length =
        if diff.checkModActive Mod.Flashlight then peaks.aim.length else 0 := by
  cases h : createDifficultyObjects objs diff with
  | error e =>
    left
    refine ⟨e, ?_, ?_, ?_, ?_⟩
    · unfold calculateSingle calculateSingleCore; rw [h]; rfl
    · unfold calculateSingleWithPeaks calculateSingleCore; rw [h]; rfl
    · unfold calculateStepWithPeaks calculateStepCore; rw [h]; rfl
    · unfold calculateStrainPeaks; rw [h]; rfl
  | ok ds =>
    cases objs with
    | nil => exact absurd rfl hne
    | cons o objs =>
      have hlen := createDifficultyObjects_length h
      simp only [List.length_cons, Nat.add_sub_cancel] at hlen
      have hpeak : calculateStrainPeaks fuel (o :: objs) diff =
          peakLoop fuel ds ⟨(SkillSet.new (S := S) diff).aim, (SkillSet.new diff).speed,
            (SkillSet.new diff).flashlight⟩ >>=
          fun sk => getPeaks sk.aim sk.speed sk.flashlight diff := by
        unfold calculateStrainPeaks
        rw [h]
        rfl
      rcases peakLoop_single fuel ds objs hlen.le (addObjectToAttribs o Attributes.zero)
        (SkillSet.new diff) (locked_new diff) with ⟨e, h1, h2⟩ | ⟨at', sk, h1, h2, h3, h4⟩
      · left
        have hcore : calculateSingleCore fuel (o :: objs) diff = .error e := by
          rw [core_eq h, h1]; rfl
        have hstep : calculateStepCore fuel (o :: objs) diff = .error e := by
          rcases core_cases fuel (o :: objs) diff with ⟨e', k1, k2⟩ | ⟨a, stars, sk, k1, k2⟩
          · rw [hcore] at k1; cases k1; exact k2
          · rw [hcore] at k1; cases k1
        refine ⟨e, ?_, ?_, ?_, ?_⟩
        · unfold calculateSingle; rw [hcore]; rfl
        · unfold calculateSingleWithPeaks; rw [hcore]; rfl
        · unfold calculateStepWithPeaks; rw [hstep]; rfl
        · rw [hpeak, h2]; rfl
      · right
        have hcore : calculateSingleCore fuel (o :: objs) diff = .ok (sk.getStars diff at', sk) := by
          rw [core_eq h, h1]; rfl
        obtain ⟨p, hp, hp1, hp2, hp3, l1, l2, l3⟩ := getPeaks_ok diff sk h3
        rcases core_cases fuel (o :: objs) diff with ⟨e', k1, k2⟩ | ⟨a, stars, sk', k1, k2⟩
        · rw [hcore] at k1; cases k1
        rw [hcore] at k1
        cases k1
        refine ⟨sk.getStars diff at', stars, p, ?_, ?_, ?_, ?_, ?_, l1, l2, ?_⟩
        · unfold calculateSingle; rw [hcore]; rfl
        · unfold calculateStep; rw [k2]; rfl
        · unfold calculateSingleWithPeaks; simp only [hcore, ok_bind, hp]; rfl
        · unfold calculateStepWithPeaks; simp only [k2, ok_bind, hp]; rfl
        · rw [hpeak, h2]; exact hp
        · rw [l3, h4]
          unfold SkillSet.new
          simp only
          split <;> simp_all

/-- C45. `CalculateStrainPeaks` does not panic on the empty list, on which the others do. -/
theorem C45_empty (fuel : Nat) (diff : Difficulty D) :
    calculateSingleWithPeaks fuel ([] : List (Obj S D)) diff = .error .panic ∧
    calculateStepWithPeaks fuel ([] : List (Obj S D)) diff = .error .panic ∧
    ∃ p, calculateStrainPeaks fuel ([] : List (Obj S D)) diff = .ok p := by
  refine ⟨rfl, rfl, ?_⟩
  obtain ⟨p, hp, -⟩ := getPeaks_ok diff (SkillSet.new (S := S) diff) (locked_new diff)
  exact ⟨p, hp⟩

/-- The counts of `attr` are those of a list of objects. -/
private def Counts (attr : Attributes D) (objs : List (Obj S D)) : Prop :=
  attr.objectCount = objs.length ∧ attr.circles = (objs.countP Obj.isCircle : Nat) ∧
  attr.sliders = (objs.countP Obj.isSlider : Nat) ∧ attr.spinners = (objs.countP Obj.isSpinner : Nat) ∧
  attr.maxCombo = ((objs.map Spec.comboOf).sum : Nat)

omit [GoFloat S] [GoConv S D] [GoLibm D] [GoSort] in
private theorem counts_add {attr : Attributes D} {objs : List (Obj S D)} (h : Counts attr objs) (o : Obj S D) :
    Counts (addObjectToAttribs o attr) (objs ++ [o]) := by
  obtain ⟨h1, h2, h3, h4, h5⟩ := h
  unfold addObjectToAttribs Counts
  have hc : ∀ p : Obj S D → Bool, (objs ++ [o]).countP p = objs.countP p + if p o then 1 else 0 := by
    intro p; simp [List.countP_cons]
  simp only [hc, List.length_append, List.length_singleton, List.map_append, List.sum_append,
    List.map_cons, List.map_nil, List.sum_cons, List.sum_nil]
  cases hk : o.kind <;>
    simp [Obj.isCircle, Obj.isSlider, Obj.isSpinner, Spec.comboOf, hk, h1, h2, h3, h4, h5] <;> omega

omit [GoSort] in
private theorem counts_loop {fuel : Nat} {ds : List (DiffObject S D)} {objs pre : List (Obj S D)}
    {attr attr' : Attributes D} {sk sk' : SkillSet S D} [GoSort] (hlen : ds.length = objs.length)
    (h : singleLoop fuel ds objs attr sk = .ok (attr', sk')) (hc : Counts attr pre) :
    Counts attr' (pre ++ objs) := by
  induction ds generalizing objs pre attr sk with
  | nil =>
    cases objs with
    | nil => cases h; simpa using hc
    | cons => simp at hlen
  | cons d ds ih =>
    cases objs with
    | nil => simp at hlen
    | cons o objs =>
      rw [singleLoop] at h
      obtain ⟨o', ho, h⟩ := bind_ok h
      cases ho
      obtain ⟨sk1, -, h⟩ := bind_ok h
      have := ih (by simpa using hlen) h (counts_add hc o)
      rwa [List.append_assoc] at this

/-- C46 (any arithmetic). `CalculateSingle` counts the objects by kind; the maximum combo is one
per object plus one per score point. -/
theorem C46_counts (fuel : Nat) (objs : List (Obj S D)) (diff : Difficulty D) (a : Attributes D)
    (h : calculateSingle fuel objs diff = .ok a) :
    a.objectCount = objs.length ∧ a.circles = (objs.countP Obj.isCircle : Nat) ∧
    a.sliders = (objs.countP Obj.isSlider : Nat) ∧ a.spinners = (objs.countP Obj.isSpinner : Nat) ∧
    a.maxCombo = ((objs.map Spec.comboOf).sum : Nat) := by
  unfold calculateSingle at h
  obtain ⟨⟨at', sk⟩, hc, h⟩ := bind_ok h
  cases h
  cases hd : createDifficultyObjects objs diff with
  | error e => unfold calculateSingleCore at hc; rw [hd] at hc; cases hc
  | ok ds =>
    cases objs with
    | nil => unfold calculateSingleCore at hc; rw [hd] at hc; cases hc
    | cons o objs =>
      rw [core_eq hd] at hc
      obtain ⟨⟨b, sk'⟩, hl, hc⟩ := bind_ok hc
      cases hc
      have hlen := createDifficultyObjects_length hd
      have h0 : Counts (S := S) (Attributes.zero (D := D)) [] := ⟨rfl, rfl, rfl, rfl, rfl⟩
      exact counts_loop (by simpa using hlen) hl (counts_add h0 o)

/-- C47 (any arithmetic). `CalculateSingle` panics on the empty list. -/
theorem C47_empty (fuel : Nat) (diff : Difficulty D) :
    calculateSingle fuel ([] : List (Obj S D)) diff = .error .panic := rfl

/-- C47 (any arithmetic). On the objects of a parsed map, under any mods, the difficulty objects
cannot be created exactly if there is a slider without score points. Then `CalculateSingle` panics. -/
theorem C47_hollow (fuel fuel' : Nat) (text : Str) (m : BeatMap S D)
    (h : parseText fuel text = .ok (some m)) (diff : Difficulty D) :
    ((∃ e, createDifficultyObjects m.hitObjects diff = .error e) ↔ ∃ o ∈ m.hitObjects, Spec.Hollow o) ∧
    ((∃ o ∈ m.hitObjects, Spec.Hollow o) → calculateSingle fuel' m.hitObjects diff = .error .panic) := by
  rcases decorateAll_shaped diff _ (parsed_shaped h) with ⟨h1, h2⟩ | ⟨h1, ps, h2⟩
  · have hc : createDifficultyObjects m.hitObjects diff = .error .panic := by
      unfold createDifficultyObjects; rw [h2]; rfl
    refine ⟨⟨fun _ => h1, fun _ => ⟨_, hc⟩⟩, fun _ => ?_⟩
    unfold calculateSingle calculateSingleCore
    rw [hc]; rfl
  · have hno : ¬ ∃ o ∈ m.hitObjects, Spec.Hollow o := by
      rintro ⟨o, ho, s, k1, k2⟩
      exact h1 o ho s k1 k2
    refine ⟨⟨?_, fun hx => absurd hx hno⟩, fun hx => absurd hx hno⟩
    rintro ⟨e, he⟩
    unfold createDifficultyObjects at he
    rw [h2] at he
    cases ps <;> cases he

end

/-! ### A single object -/

/-- Zero or NaN. -/
private def ZN (x : F64) : Prop := x = nan ∨ ∃ b, x = fin 0 b

private theorem zn_mul {x : F64} (h : ZN x) (y : F64) : ZN (x *. y) := by
  rw [go_mul]
  rcases h with rfl | ⟨b, rfl⟩
  · exact Or.inl (by cases y <;> rfl)
  · cases y with
    | nan => exact Or.inl rfl
    | inf s => exact Or.inl (by simp [mul])
    | fin v c => exact Or.inr ⟨_, by simp only [mul, zero_mul]; exact ofRat_zero _⟩

private theorem zn_add {x y : F64} (h : ZN x) (h' : ZN y) : ZN (x +. y) := by
  rw [go_add]
  rcases h with rfl | ⟨b, rfl⟩
  · exact Or.inl (by cases y <;> rfl)
  · rcases h' with rfl | ⟨c, rfl⟩
    · exact Or.inl rfl
    · exact Or.inr ⟨_, by simp only [add, add_zero]; exact ofRat_zero _⟩

private theorem zn_lit0 : ZN (lit 0 : F64) := Or.inr ⟨false, by rw [go_lit]; exact ofRat_zero _⟩

private theorem zn_sqrt {x : F64} (h : ZN x) : ZN (GoFloat.sqrt x) := by
  rcases h with rfl | ⟨b, rfl⟩
  · exact Or.inl rfl
  · exact Or.inr ⟨b, rfl⟩

private theorem zn_gt {x : F64} (h : ZN x) : (x >. (lit 0.00001 : F64)) = false := by
  rcases h with rfl | ⟨b, rfl⟩
  · rw [go_lt]; cases (lit 0.00001 : F64) <;> rfl
  · cases b <;> decide +kernel

variable {S : Type} [GoFloat S] [GoConv S F64] [GoLibm F64] [GoSort]

omit [GoFloat S] [GoConv S F64] in
private theorem zn_value (sk : Skill S F64) (h : sk.strainPeaks = []) (h' : ZN sk.currentSectionPeak) :
    ZN sk.difficultyValue := by
  unfold Skill.difficultyValue Skill.getCurrentStrainPeaks Skill.valueOfPeaks
  rw [h]
  have hs : ∀ x : F64, Skill.reverseSort [x] = [x] := fun x =>
    (GoSort.slice_perm (fun a b : F64 => a >. b) [x]).eq_singleton
  simp only [List.nil_append, hs]
  have : ∃ y, ZN y ∧ Skill.reduceLoop sk.reducedSectionCount sk.reducedStrainBaseline 0
      [sk.currentSectionPeak] = [y] := by
    unfold Skill.reduceLoop
    split
    · exact ⟨_, zn_mul h' _, rfl⟩
    · exact ⟨_, h', rfl⟩
  obtain ⟨y, hy, e⟩ := this
  rw [e, hs]
  unfold Skill.weightedSum Skill.weightedSum
  exact zn_mul (zn_add zn_lit0 (zn_mul hy _)) _

/-- C44 (IEEE, any library functions). `CalculateSingle` on one object gives slider factor 1. -/
theorem C44_single (fuel : Nat) (o : Obj S F64) (diff : Difficulty F64) (a : Attributes F64)
    (h : calculateSingle fuel [o] diff = .ok a) : a.sliderFactor = lit 1 := by
  unfold calculateSingle at h
  obtain ⟨⟨at', sk⟩, hc, h⟩ := bind_ok h
  cases h
  cases hd : createDifficultyObjects [o] diff with
  | error e => unfold calculateSingleCore at hc; rw [hd] at hc; cases hc
  | ok ds =>
    have hlen := createDifficultyObjects_length hd
    have : ds = [] := List.length_eq_zero_iff.mp hlen
    subst this
    rw [core_eq hd] at hc
    cases hc
    have hv : ZN (SkillSet.new (S := S) diff).aim.difficultyValue := zn_value _ rfl zn_lit0
    show (if _ then _ else _) = _
    rw [if_neg]
    have := zn_gt (zn_mul (zn_sqrt hv) (lit 0.0675))
    rw [this]
    decide

/-! ### Concrete cases -/

/-- `CalculateStep` on the sample. -/
def Sample.steps (text : Str) (mods : Modifier) : Option (List (Attributes F64)) :=
  (Sample.observe text (fun m =>
    (@calculateStep F32 F64 _ Sample.libm _ _ insertionGoSort 100 m.hitObjects
      (m.difficulty.setMods mods)).toOption)).join

/-- C43, C44, C46: a map with objects of all kinds on which the calculation succeeds. -/
example : (Sample.steps Sample.stacked Mod.None).map (fun l => l.map (fun a =>
      [a.objectCount, a.circles, a.sliders, a.spinners, a.maxCombo])) =
    some [[1, 1, 0, 0, 1], [2, 2, 0, 0, 2], [3, 3, 0, 0, 3], [4, 3, 0, 1, 4], [5, 3, 1, 1, 6],
      [6, 4, 1, 1, 7]] := by decide +kernel

/-- C44: the first step and a single calculation disagree. -/
example : (Sample.steps Sample.stacked Mod.None).map (fun l => l.map (fun a =>
      decide (a.sliderFactor = lit 1))) =
    some [false, true, true, true, true, true] := by decide +kernel

/-- Lengths of the peaks of the sample. -/
def Sample.peakLengths (mods : Modifier) : Option (List Nat) :=
  (Sample.observe Sample.stacked (fun m =>
    ((@calculateStrainPeaks F32 F64 _ Sample.libm _ _ 100 m.hitObjects
      (m.difficulty.setMods mods)).toOption).map (fun p =>
        [p.aim.length, p.speed.length, p.flashlight.length, p.total.length]))).join

/-- C45: peaks with and without Flashlight. -/
example : Sample.peakLengths Mod.None = some [11, 11, 0, 11] := by decide +kernel
example : Sample.peakLengths Mod.Flashlight = some [11, 11, 11, 11] := by decide +kernel

/-- A map with a slider that has no score points (its repeat count is 0). -/
def Sample.hollow : Str := "osu file format v14
[Metadata]
Title:a
[Difficulty]
SliderMultiplier:1
SliderTickRate:1
[TimingPoints]
0,500,4,1,0,100,1,0
[HitObjects]
100,100,1000,1,0
64,64,5000,2,0,L|164:64,0,100
".toList

/-- A map without hit objects. -/
def Sample.empty : Str := "osu file format v14
[Metadata]
Title:a
[TimingPoints]
0,500,4,1,0,100,1,0
".toList

/-- C47: the parser accepts a slider without score points, and a map without objects. -/
example : Sample.observe Sample.hollow (fun m => m.hitObjects.map (fun o =>
    match o.kind with | .slider s => decide (s.scorePoints.length = 0) | _ => false)) =
    some [false, true] := by decide +kernel
example : Sample.observe Sample.empty (fun m => m.hitObjects.length) = some 0 := by decide +kernel

end GosuPP.Props
