import Verif.Lemmas.Still
import Verif.Props.StarBounds
import Verif.Props.Sample

/-!
# C89: maps without movement have no aim rating, and spinners are not rated
-/

namespace GosuPP.Props
open Go Fl Spec Runs

section
variable [GoLibm F64]

/-- All objects are spinners, or circles that are shown in one place. -/
def OnePlace (d : Difficulty F64) (objs : List (Obj F32 F64)) : Prop :=
  ∃ p, ∀ o ∈ objs, o.isSpinner = true ∨ (o.isCircle = true ∧ o.base.getStackedStartPositionMod d.mods = p)

private def isAim : SkillKind → Prop
  | .aim _ => True
  | _ => False

private theorem aim_rests (hl : PowLaws) {d : Difficulty F64} {objs : List (Obj F32 F64)} {ds : List (DiffObject F32 F64)} (hm : OrdinaryMap d objs)
    (hp : OnePlace d objs) (h : createDifficultyObjects objs d = .ok ds) : ∀ k, isAim k → ∀ o ∈ ds, Rests k o := by
  obtain ⟨p, hp⟩ := hp
  intro k hk
  cases k with
  | aim ws => exact rests_aim hl hm hp h ws
  | speed => cases hk
  | flashlight => cases hk

private theorem single_none (hl : PowLaws) (ht : TrigLaws) [GoSort] (fuel : ℕ) {objs : List (Obj F32 F64)} {d : Difficulty F64}
    (hm : OrdinaryMap d objs) {K : SkillKind → Prop} (hK : ∀ ds, createDifficultyObjects objs d = .ok ds → ∀ k, K k → ∀ o ∈ ds, Rests k o)
    {a : Attributes F64} (h : calculateSingle fuel objs d = .ok a) : NoRating K a := by
  unfold calculateSingle at h
  obtain ⟨⟨a', s⟩, h1, h⟩ := bind_ok h
  cases h
  unfold calculateSingleCore at h1
  obtain ⟨ds, hd, h1⟩ := bind_ok h1
  obtain ⟨o, -, h1⟩ := bind_ok h1
  obtain ⟨⟨attr, sk⟩, hs, h1⟩ := bind_ok h1
  cases h1
  obtain ⟨last, hr⟩ := single_quiet hl ht (given hl hm hd) (hK ds hd) (quiets_new K d) (by intro p hp; cases hp) hs
  exact quiets_stars ht hr _

private theorem step_none (hl : PowLaws) (ht : TrigLaws) [GoSort] (fuel : ℕ) {objs : List (Obj F32 F64)} {d : Difficulty F64}
    (hm : OrdinaryMap d objs) {K : SkillKind → Prop} (hK : ∀ ds, createDifficultyObjects objs d = .ok ds → ∀ k, K k → ∀ o ∈ ds, Rests k o)
    {stars : List (Attributes F64)} (h : calculateStep fuel objs d = .ok stars) :
    ∀ a ∈ stars, (K (.aim true) → (a.aim ==. lit 0) = true) ∧ (K .speed → (a.speed ==. lit 0) = true) ∧
      (K .flashlight → (a.flashlight ==. lit 0) = true) := by
  unfold calculateStep at h
  obtain ⟨⟨st, s⟩, h1, h⟩ := bind_ok h
  cases h
  unfold calculateStepCore at h1
  obtain ⟨ds, hd, h1⟩ := bind_ok h1
  split at h1
  · cases h1
  obtain ⟨o, -, h1⟩ := bind_ok h1
  obtain ⟨⟨rest, sk⟩, hs, h1⟩ := bind_ok h1
  cases h1
  intro a ha
  rcases List.mem_cons.mp ha with rfl | ha
  · have e : ((lit 0 : F64) ==. lit 0) = true := in_zero.eq_zero
    unfold addObjectToAttribs
    simp only
    cases o.kind <;> exact ⟨fun _ => e, fun _ => e, fun _ => e⟩
  · have := step_quiet hl ht (given hl hm hd) (hK ds hd) (quiets_new K d) (by intro p hp; cases hp) hs a ha
    exact ⟨fun k => (this.aim k).1, this.speed, this.flashlight⟩

private theorem peaks_none (hl : PowLaws) (ht : TrigLaws) (fuel : ℕ) {objs : List (Obj F32 F64)} {d : Difficulty F64}
    (hm : OrdinaryMap d objs) {K : SkillKind → Prop} (hK : ∀ ds, createDifficultyObjects objs d = .ok ds → ∀ k, K k → ∀ o ∈ ds, Rests k o)
    {p : StrainPeaks F64} (h : calculateStrainPeaks fuel objs d = .ok p) :
    (K (.aim true) → ∀ x ∈ p.aim, (x ==. lit 0) = true) ∧ (K .speed → ∀ x ∈ p.speed, (x ==. lit 0) = true) ∧
      (K .flashlight → ∀ x ∈ p.flashlight, (x ==. lit 0) = true) := by
  unfold calculateStrainPeaks at h
  obtain ⟨ds, hd, h⟩ := bind_ok h
  obtain ⟨sk, hs, h⟩ := bind_ok h
  have hn := quiets_new K d
  obtain ⟨r1, r2, r3⟩ := peak_quiet hl ht (given hl hm hd) (hK ds hd) hn.aim hn.speed hn.flashlight
    (by intro p hp; cases hp) hs
  unfold getPeaks at h
  simp only at h
  obtain ⟨total, htot, h⟩ := bind_ok h
  cases h
  refine ⟨fun k x hx => (r1 k x hx).eq_zero, fun k x hx => (r2 k x hx).eq_zero, ?_⟩
  intro k x hx
  cases hsk : sk.flashlight with
  | none => rw [hsk] at hx; cases hx
  | some g => rw [hsk] at hx; exact (r3 k g hsk x hx).eq_zero

/-- C89 (IEEE doubles). A map in which all circles are in one place has no aim rating, and its slider factor is one. -/
theorem C89_still (hl : PowLaws) (ht : TrigLaws) [GoSort] (fuel : ℕ) {objs : List (Obj F32 F64)} {d : Difficulty F64}
    (hm : OrdinaryMap d objs) (hp : OnePlace d objs) {a : Attributes F64} (h : calculateSingle fuel objs d = .ok a) :
    (a.aim ==. lit 0) = true ∧ a.sliderFactor = lit 1 :=
  (single_none hl ht fuel hm (fun _ hd => aim_rests hl hm hp hd) h).aim trivial

/-- C89 (IEEE doubles). Nor does it have one after any of its objects. -/
theorem C89_still_step (hl : PowLaws) (ht : TrigLaws) [GoSort] (fuel : ℕ) {objs : List (Obj F32 F64)} {d : Difficulty F64}
    (hm : OrdinaryMap d objs) (hp : OnePlace d objs) {stars : List (Attributes F64)} (h : calculateStep fuel objs d = .ok stars) :
    ∀ a ∈ stars, (a.aim ==. lit 0) = true := fun a ha =>
  (step_none hl ht fuel hm (fun _ hd => aim_rests hl hm hp hd) h a ha).1 trivial

/-- C89 (IEEE doubles). All its aim strain peaks are zero. -/
theorem C89_still_peaks (hl : PowLaws) (ht : TrigLaws) (fuel : ℕ) {objs : List (Obj F32 F64)} {d : Difficulty F64}
    (hm : OrdinaryMap d objs) (hp : OnePlace d objs) {p : StrainPeaks F64} (h : calculateStrainPeaks fuel objs d = .ok p) :
    ∀ x ∈ p.aim, (x ==. lit 0) = true :=
  (peaks_none hl ht fuel hm (fun _ hd => aim_rests hl hm hp hd) h).1 trivial

/-- C89 (IEEE doubles). Spinners alone are not rated for aim, speed or flashlight. -/
theorem C89_spinners (hl : PowLaws) (ht : TrigLaws) [GoSort] (fuel : ℕ) {objs : List (Obj F32 F64)} {d : Difficulty F64}
    (hm : OrdinaryMap d objs) (hp : ∀ o ∈ objs, o.isSpinner = true) {a : Attributes F64} (h : calculateSingle fuel objs d = .ok a) :
    (a.aim ==. lit 0) = true ∧ (a.speed ==. lit 0) = true ∧ (a.flashlight ==. lit 0) = true ∧ a.sliderFactor = lit 1 := by
  have := single_none hl ht fuel hm (K := fun _ => True) (fun _ hd k _ => rests_spinners hp hd k) h
  exact ⟨(this.aim trivial).1, this.speed trivial, this.flashlight trivial, (this.aim trivial).2⟩

/-- C89 (IEEE doubles). Nor after any of them. -/
theorem C89_spinners_step (hl : PowLaws) (ht : TrigLaws) [GoSort] (fuel : ℕ) {objs : List (Obj F32 F64)} {d : Difficulty F64}
    (hm : OrdinaryMap d objs) (hp : ∀ o ∈ objs, o.isSpinner = true) {stars : List (Attributes F64)} (h : calculateStep fuel objs d = .ok stars) :
    ∀ a ∈ stars, (a.aim ==. lit 0) = true ∧ (a.speed ==. lit 0) = true ∧ (a.flashlight ==. lit 0) = true := by
  intro a ha
  have := step_none hl ht fuel hm (K := fun _ => True) (fun _ hd k _ => rests_spinners hp hd k) h a ha
  exact ⟨this.1 trivial, this.2.1 trivial, this.2.2 trivial⟩

/-- C89 (IEEE doubles). All their strain peaks are zero. -/
theorem C89_spinners_peaks (hl : PowLaws) (ht : TrigLaws) (fuel : ℕ) {objs : List (Obj F32 F64)} {d : Difficulty F64}
    (hm : OrdinaryMap d objs) (hp : ∀ o ∈ objs, o.isSpinner = true) {p : StrainPeaks F64} (h : calculateStrainPeaks fuel objs d = .ok p) :
    ∀ x ∈ p.aim ++ p.speed ++ p.flashlight, (x ==. lit 0) = true := by
  obtain ⟨h1, h2, h3⟩ := peaks_none hl ht fuel hm (K := fun _ => True) (fun _ hd k _ => rests_spinners hp hd k) h
  intro x hx
  simp only [List.mem_append] at hx
  rcases hx with (hx | hx) | hx
  · exact h1 trivial x hx
  · exact h2 trivial x hx
  · exact h3 trivial x hx

end

/-! ### Concrete cases -/

/-- Three circles in one place, too far apart in time to be stacked, and a spinner. -/
def Sample.oneplace : Str := "osu file format v14
[Metadata]
Title:a
[Difficulty]
ApproachRate:9
[TimingPoints]
0,500,4,1,0,100,1,0
[HitObjects]
100,100,1000,1,0
100,100,2700,1,0
256,192,3000,12,0,4000
100,100,5000,1,0
".toList

/-- Two spinners. -/
def Sample.spinners : Str := "osu file format v14
[Metadata]
Title:a
[TimingPoints]
0,500,4,1,0,100,1,0
[HitObjects]
256,192,1000,12,0,2000
256,192,3000,12,0,4000
".toList

private def stillDiff : Difficulty F64 := (DiffInput.mk (lit 5) (lit 4) (lit 8) (lit 9) Mod.Flashlight (lit 1)).fresh

private def withinB (lo hi : ℚ) (x : F64) : Bool := ((lit lo : F64) <=. x) && (x <=. (lit hi : F64))

private def placedB (v : Vec F32) : Bool :=
  (((lit (-1048575) : F32) <=. v.x) && (v.x <=. (lit 1048575 : F32))) && (((lit (-1048575) : F32) <=. v.y) && (v.y <=. (lit 1048575 : F32)))

private def plainB (d : Difficulty F64) (o : Obj F32 F64) : Bool :=
  !o.isSlider && withinB (-2 ^ 40) (2 ^ 40) o.base.startTime && placedB (o.base.getStackedStartPositionMod d.mods) &&
    placedB (o.base.getStackedEndPositionMod d.mods)

private theorem plain_of {d : Difficulty F64} {o : Obj F32 F64} (h : plainB d o = true) : OrdinaryObject d o := by
  unfold plainB withinB placedB at h
  simp only [Bool.and_eq_true, Bool.not_eq_true'] at h
  obtain ⟨⟨⟨h1, h2⟩, h3⟩, h4⟩ := h
  refine ⟨h2, h3, h4, ?_⟩
  intro s hs
  unfold Obj.isSlider at h1
  rw [hs] at h1
  cases h1

private def ordinaryB (objs : List (Obj F32 F64)) : Bool :=
  decide (objs.length ≤ 10) && objs.all (plainB stillDiff) && decide (objs.IsChain fun a b => (a.base.startTime <=. b.base.startTime) = true)

private theorem ordinary_of {objs : List (Obj F32 F64)} (h : ordinaryB objs = true) : OrdinaryMap stillDiff objs := by
  unfold ordinaryB at h
  simp only [Bool.and_eq_true, decide_eq_true_eq, List.all_eq_true] at h
  obtain ⟨⟨h1, h2⟩, h3⟩ := h
  have hs := C70_stats (lit 5) (lit 4) (lit 8) (lit 9) (lit 1) Mod.Flashlight
    (by unfold Within; decide +kernel) (by unfold Within; decide +kernel) (by unfold Within; decide +kernel)
  exact ⟨hs.1, hs.2.1, hs.2.2, h1.trans (by norm_num), fun o ho => plain_of (h2 o ho), h3⟩

/-- C89: a file with circles in one place and a spinner. -/
example : ∃ m, GosuPP.Sample.parse Sample.oneplace = .ok (some m) ∧ m.hitObjects.length = 4 ∧ OrdinaryMap stillDiff m.hitObjects ∧
    OnePlace stillDiff m.hitObjects := by
  have h : (match GosuPP.Sample.parse Sample.oneplace with
      | .ok (some m) => decide (m.hitObjects.length = 4) && ordinaryB m.hitObjects && m.hitObjects.all fun o => o.isSpinner || (o.isCircle &&
        decide (o.base.getStackedStartPositionMod stillDiff.mods = ⟨.fin 100 false, .fin 100 false⟩))
      | _ => false) = true := by decide +kernel
  split at h
  · rename_i m e
    simp only [Bool.and_eq_true, decide_eq_true_eq, List.all_eq_true, Bool.or_eq_true] at h
    exact ⟨m, e, h.1.1, ordinary_of h.1.2, _, h.2⟩
  · cases h

/-- C89: a file with two spinners. -/
example : ∃ m, GosuPP.Sample.parse Sample.spinners = .ok (some m) ∧ m.hitObjects.length = 2 ∧ OrdinaryMap stillDiff m.hitObjects ∧
    ∀ o ∈ m.hitObjects, o.isSpinner = true := by
  have h : (match GosuPP.Sample.parse Sample.spinners with
      | .ok (some m) => decide (m.hitObjects.length = 2) && ordinaryB m.hitObjects && m.hitObjects.all Obj.isSpinner
      | _ => false) = true := by decide +kernel
  split at h
  · rename_i m e
    simp only [Bool.and_eq_true, decide_eq_true_eq, List.all_eq_true] at h
    exact ⟨m, e, h.1.1, ordinary_of h.1.2, h.2⟩
  · cases h

end GosuPP.Props
