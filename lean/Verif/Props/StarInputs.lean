import Verif.Lemmas.StarInputs
import Verif.Lemmas.ModScore
import Verif.Props.Strains

/-!
# C68: what star ratings depend on
-/

namespace GosuPP.Props
open Go Spec

/-- All difficulty calculations give the same results for two difficulties, for every list of objects. -/
def SameResults (S : Type) {D : Type} [GoFloat S] [GoFloat D] [GoConv S D] [GoLibm D] [GoSort]
    (d d' : Difficulty D) : Prop :=
  ∀ (fuel : Nat) (objs : List (Obj S D)),
    calculateSingle fuel objs d = calculateSingle fuel objs d' ∧
    calculateSingleWithPeaks fuel objs d = calculateSingleWithPeaks fuel objs d' ∧
    calculateStep fuel objs d = calculateStep fuel objs d' ∧
    calculateStepWithPeaks fuel objs d = calculateStepWithPeaks fuel objs d' ∧
    calculateStrainPeaks fuel objs d = calculateStrainPeaks fuel objs d'

section
variable {S D : Type} [GoFloat S] [GoFloat D] [GoConv S D] [GoLibm D] [GoSort]

/-- C68 (any arithmetic). Every difficulty calculation depends on the difficulty only through the circle
radius, the 300 window, the speed and the mods HardRock, Easy, Relax and Flashlight. -/
theorem C68_inputs (d d' : Difficulty D) (h : SameForStars d d') : SameResults S d d' := fun fuel objs =>
  ⟨(single_same h fuel objs).symm, (singlePeaks_same h fuel objs).symm, (step_same h fuel objs).symm,
    (stepPeaks_same h fuel objs).symm, (strainPeaks_same h fuel objs).symm⟩

omit [GoSort] in
private theorem activeEq {l : List Modifier} {m m' : Modifier} (h : AgreeOn l m m') {i : Nat} (hi : i < 63)
    (hm : Mod.bit i ∈ l) : Modifier.active m (Mod.bit i) = Modifier.active m' (Mod.bit i) := by
  rw [active_iff_has m hi, active_iff_has m' hi, decide_eq_decide]
  exact h _ hm

omit [GoLibm D] [GoSort] in
private theorem sameOfMods {m m' : Modifier} (h : AgreeOn [Mod.Easy, Mod.HardRock, Mod.Relax, Mod.Flashlight] m m')
    (d : Difficulty D) (c c' : D) (hs : Difficulty.modifiedTime m c (lit 1) = Difficulty.modifiedTime m' c' (lit 1)) :
    SameForStars ((d.setCustomSpeed c).setMods m) ((d.setCustomSpeed c').setMods m') := by
  have hez := activeEq (i := 1) h (by decide) (by decide)
  have hhr := activeEq (i := 4) h (by decide) (by decide)
  have hrx := activeEq (i := 7) h (by decide) (by decide)
  have hfl := activeEq (i := 10) h (by decide) (by decide)
  have ha : ∀ k (x : D), Difficulty.adjust m k x = Difficulty.adjust m' k x := by
    intro k x
    unfold Difficulty.adjust
    rw [show Mod.Easy = Mod.bit 1 from rfl, show Mod.HardRock = Mod.bit 4 from rfl, hez, hhr]
  refine ⟨?_, ?_, ?_, hhr, hez, hrx, hfl⟩
  · exact congrArg (difficultyRate · _ _ _) (ha _ _)
  · exact congrArg (difficultyRate · _ _ _) (ha _ _)
  · exact congrArg (lit 1 /. ·) hs

omit [GoLibm D] [GoSort] in
private theorem setMods_custom (d : Difficulty D) (m : Modifier) :
    d.setMods m = (d.setCustomSpeed d.customSpeed).setMods m := rfl

/-- C68 (any arithmetic). Mods other than Easy, HardRock, DoubleTime, Relax, HalfTime and Flashlight do not
change any difficulty calculation. -/
theorem C68_mods (d : Difficulty D) (m m' : Modifier)
    (h : AgreeOn [Mod.Easy, Mod.HardRock, Mod.DoubleTime, Mod.Relax, Mod.HalfTime, Mod.Flashlight] m m') :
    SameResults S (d.setMods m) (d.setMods m') := by
  apply C68_inputs
  rw [setMods_custom d m, setMods_custom d m']
  refine sameOfMods (fun x hx => h x ?_) d _ _ ?_
  · simp only [List.mem_cons, List.not_mem_nil, or_false] at hx ⊢
    rcases hx with h | h | h | h <;> simp [h]
  · unfold Difficulty.modifiedTime
    rw [show Mod.DoubleTime = Mod.bit 6 from rfl, show Mod.HalfTime = Mod.bit 8 from rfl,
      activeEq (i := 6) h (by decide) (by decide), activeEq (i := 8) h (by decide) (by decide)]

/-- C68 (any arithmetic). Mods with the same `DifficultyAdjustMask` part give the same results, so a caller
may keep results per masked value. -/
theorem C68_mask (d : Difficulty D) (m m' : Modifier)
    (h : m &&& Mod.DifficultyAdjustMask = m' &&& Mod.DifficultyAdjustMask) :
    SameResults S (d.setMods m) (d.setMods m') := by
  apply C68_mods
  intro x hx
  have hsub : ∀ x ∈ [Mod.Easy, Mod.HardRock, Mod.DoubleTime, Mod.Relax, Mod.HalfTime, Mod.Flashlight],
      Mod.DifficultyAdjustMask &&& x = x := by
    simp only [List.forall_mem_cons]
    exact ⟨rfl, rfl, rfl, rfl, rfl, rfl, fun _ h => by cases h⟩
  have key : ∀ n : Modifier, n &&& x = n &&& Mod.DifficultyAdjustMask &&& x := by
    intro n
    rw [BitVec.and_assoc, hsub x hx]
  unfold has
  rw [key m, key m', h]

/-- C68 (any arithmetic). DoubleTime is exactly a custom speed: with DoubleTime at custom speed `c` every
result is the one without a rate mod at custom speed `1.5 * c`. -/
theorem C68_double_time (d : Difficulty D) (c : D) (m m' : Modifier)
    (h : AgreeOn [Mod.Easy, Mod.HardRock, Mod.Relax, Mod.Flashlight] m m')
    (hm : has m Mod.DoubleTime) (hd : ¬ has m' Mod.DoubleTime) (hh : ¬ has m' Mod.HalfTime) :
    SameResults S ((d.setCustomSpeed c).setMods m) ((d.setCustomSpeed (lit 1.5 *. c)).setMods m') := by
  apply C68_inputs
  refine sameOfMods h d _ _ ?_
  unfold Difficulty.modifiedTime
  rw [show Mod.DoubleTime = Mod.bit 6 from rfl, show Mod.HalfTime = Mod.bit 8 from rfl] at *
  simp only [active_iff_has _ (show 6 < 63 by decide), active_iff_has _ (show 8 < 63 by decide)]
  rw [if_pos (by simpa using hm), if_neg (by simpa using hd), if_neg (by simpa using hh)]

/-- C68 (any arithmetic). HalfTime without DoubleTime is exactly a custom speed factor of `0.75`. -/
theorem C68_half_time (d : Difficulty D) (c : D) (m m' : Modifier)
    (h : AgreeOn [Mod.Easy, Mod.HardRock, Mod.Relax, Mod.Flashlight] m m')
    (hm : has m Mod.HalfTime) (hmd : ¬ has m Mod.DoubleTime)
    (hd : ¬ has m' Mod.DoubleTime) (hh : ¬ has m' Mod.HalfTime) :
    SameResults S ((d.setCustomSpeed c).setMods m) ((d.setCustomSpeed (lit 0.75 *. c)).setMods m') := by
  apply C68_inputs
  refine sameOfMods h d _ _ ?_
  unfold Difficulty.modifiedTime
  rw [show Mod.DoubleTime = Mod.bit 6 from rfl, show Mod.HalfTime = Mod.bit 8 from rfl] at *
  rw [active_iff_has _ (by decide), active_iff_has _ (by decide), active_iff_has _ (by decide),
    active_iff_has _ (by decide)]
  rw [if_neg (by simpa using hmd), if_pos (by simpa using hm), if_neg (by simpa using hd), if_neg (by simpa using hh)]

/-- C68 (any arithmetic). Changing the approach rate or the health drain after the map has been read does
not change any difficulty calculation. -/
theorem C68_stats (d : Difficulty D) (x : D) :
    SameResults S (d.setAR x) (d.setMods d.mods) ∧ SameResults S (d.setHP x) (d.setMods d.mods) :=
  ⟨C68_inputs _ _ ⟨rfl, rfl, rfl, rfl, rfl, rfl, rfl⟩, C68_inputs _ _ ⟨rfl, rfl, rfl, rfl, rfl, rfl, rfl⟩⟩

end

/-! ### the hypotheses are met -/

/-- Hidden, NoFail and SpunOut beside DoubleTime and HardRock -/
example : AgreeOn [Mod.Easy, Mod.HardRock, Mod.DoubleTime, Mod.Relax, Mod.HalfTime, Mod.Flashlight]
    (Mod.Hidden ||| Mod.NoFail ||| Mod.SpunOut ||| Mod.DoubleTime ||| Mod.HardRock)
    (Mod.DoubleTime ||| Mod.HardRock) := by decide +kernel

example : (Mod.Hidden ||| Mod.NoFail ||| Mod.DoubleTime) &&& Mod.DifficultyAdjustMask =
    Mod.DoubleTime &&& Mod.DifficultyAdjustMask := by decide +kernel

example : AgreeOn [Mod.Easy, Mod.HardRock, Mod.Relax, Mod.Flashlight] (Mod.DoubleTime ||| Mod.HardRock) Mod.HardRock ∧
    has (Mod.DoubleTime ||| Mod.HardRock) Mod.DoubleTime ∧ ¬ has Mod.HardRock Mod.DoubleTime ∧
    ¬ has Mod.HardRock Mod.HalfTime := by decide +kernel

example : AgreeOn [Mod.Easy, Mod.HardRock, Mod.Relax, Mod.Flashlight] (Mod.HalfTime ||| Mod.Easy) Mod.Easy ∧
    has (Mod.HalfTime ||| Mod.Easy) Mod.HalfTime ∧ ¬ has (Mod.HalfTime ||| Mod.Easy) Mod.DoubleTime ∧
    ¬ has Mod.Easy Mod.DoubleTime ∧ ¬ has Mod.Easy Mod.HalfTime := by decide +kernel

/-- The hypothesis of `C68_inputs` for two difficulties with different mods and different approach rates,
on which the peaks exist and are equal; with HardRock they differ. -/
def Sample.ratingDiff (m : Modifier) (ar : F64) : Difficulty F64 :=
  (Difficulty.new (lit 5) (lit 4) (lit 8) ar).setMods m

example : SameForStars (Sample.ratingDiff Mod.Hidden (lit 9)) (Sample.ratingDiff Mod.NoFail (lit 5)) := by
  refine ⟨?_, ?_, ?_, ?_, ?_, ?_, ?_⟩ <;> decide +kernel

example : ¬ SameForStars (Sample.ratingDiff Mod.HardRock (lit 9)) (Sample.ratingDiff Mod.NoFail (lit 9)) := by
  intro h
  have := h.hardRock
  revert this
  decide +kernel

end GosuPP.Props
