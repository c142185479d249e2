import Verif.Model.Skills
import Verif.Model.PPBase

/-!
# `performance/osu/difficulty.go`
-/

namespace GosuPP
open Go

/-- difficulty.go:16-37 -/
structure Attributes (D : Type) where
  total : D
  aim : D
  sliderFactor : D
  speed : D
  flashlight : D
  objectCount : Int
  circles : Int
  sliders : Int
  spinners : Int
  maxCombo : Int

/-- difficulty.go:40-52 -/
structure StrainPeaks (D : Type) where
  aim : List D
  speed : List D
  flashlight : List D
  total : List D

variable {S D : Type} [GoFloat D]

/-- the Go zero value `Attributes{}` -/
def Attributes.zero : Attributes D :=
  { total := lit 0, aim := lit 0, sliderFactor := lit 0, speed := lit 0, flashlight := lit 0
    objectCount := 0, circles := 0, sliders := 0, spinners := 0, maxCombo := 0 }

/-- difficulty.go:143-155 -/
def addObjectToAttribs (o : Obj S D) (attr : Attributes D) : Attributes D :=
  let attr := match o.kind with
    | .slider s => { attr with
        sliders := attr.sliders + 1, maxCombo := attr.maxCombo + (s.scorePoints.length : Int) }
    | .circle => { attr with circles := attr.circles + 1 }
    | .spinner => { attr with spinners := attr.spinners + 1 }
  { attr with maxCombo := attr.maxCombo + 1, objectCount := attr.objectCount + 1 }

variable [GoLibm D]

/-- difficulty.go:66, 80-89: the star rating from the three base performance values -/
def totalFromBases (baseAim baseSpeed baseFlashlight : D) : D :=
  let basePerformance := GoLibm.pow
    (GoLibm.pow baseAim (lit 1.1) +. GoLibm.pow baseSpeed (lit 1.1) +.
      GoLibm.pow baseFlashlight (lit 1.1)) (lit (1 / 1.1))
  if basePerformance >. lit 0.00001 then
    GoLibm.cbrt (lit 1.12) *. lit 0.027 *.
      (GoLibm.cbrt (lit 100000 /. GoLibm.pow (lit 2) (lit (1 / 1.1)) *. basePerformance) +. lit 4)
  else lit 0

/-- difficulty.go:55-98 -/
def getStarsFromRawValues (rawAim rawAimNoSliders rawSpeed rawFlashlight : D) (diff : Difficulty D)
    (attr : Attributes D) : Attributes D :=
  let aimRating := GoFloat.sqrt rawAim *. lit 0.0675
  let aimRatingNoSliders := GoFloat.sqrt rawAimNoSliders *. lit 0.0675
  let speedRating := GoFloat.sqrt rawSpeed *. lit 0.0675
  let flashlightVal := GoFloat.sqrt rawFlashlight *. lit 0.0675
  let sliderFactor := if aimRating >. lit 0.00001 then aimRatingNoSliders /. aimRating else lit 1
  let speedRating := if diff.checkModActive Mod.Relax then lit 0 else speedRating
  let baseFlashlight := if diff.checkModActive Mod.Flashlight then
    GoLibm.pow flashlightVal (lit 2) *. lit 25 else lit 0
  { attr with
    total := totalFromBases (ppBase aimRating) (ppBase speedRating) baseFlashlight
    aim := aimRating
    sliderFactor
    speed := speedRating
    flashlight := flashlightVal }

/-- The skills of one calculation; `flashlight` is `nil` without the mod. -/
structure SkillSet (S D : Type) where
  aim : Skill S D
  aimNoSliders : Skill S D
  speed : Skill S D
  flashlight : Option (Skill S D)

namespace SkillSet
variable [GoFloat S] [GoConv S D]

omit [GoLibm D] [GoFloat S] [GoConv S D] in
/-- difficulty.go:160-167 and 205-212 -/
def new (diff : Difficulty D) : SkillSet S D :=
  { aim := Skill.newAim diff true
    aimNoSliders := Skill.newAim diff false
    speed := Skill.newSpeed diff
    flashlight := if diff.checkModActive Mod.Flashlight then some (Skill.newFlashlight diff) else none }

/-- `if flashlightSkill != nil { flashlightSkill.Process(o) }` -/
def processOpt (fuel : Nat) (o : DiffObject S D) : Option (Skill S D) → Result (Option (Skill S D))
  | none => .ok none
  | some sk => do return some (← sk.process fuel o)

/-- difficulty.go:176-182 and 222-228 -/
def process (fuel : Nat) (o : DiffObject S D) (s : SkillSet S D) : Result (SkillSet S D) := do
  return { aim := ← s.aim.process fuel o
           aimNoSliders := ← s.aimNoSliders.process fuel o
           speed := ← s.speed.process fuel o
           flashlight := ← processOpt fuel o s.flashlight }

variable [GoSort]

omit [GoFloat S] [GoConv S D] in
/-- difficulty.go:101-115 -/
def getStars (s : SkillSet S D) (diff : Difficulty D) (attr : Attributes D) : Attributes D :=
  let rawFlashlight := match s.flashlight with
    | some f => f.difficultyValue
    | none => lit 0
  getStarsFromRawValues s.aim.difficultyValue s.aimNoSliders.difficultyValue s.speed.difficultyValue
    rawFlashlight diff attr
end SkillSet

/-- difficulty.go:130-138, from index `i` -/
def peaksLoop (diff : Difficulty D) (flashlight : Option (List D)) (speed : List D) :
    Nat → List D → Result (List D)
  | _, [] => .ok []
  | i, a :: rest => do
    let flVal ← match flashlight with
      | some fl => index fl i
      | none => pure (lit 0)
    let sp ← index speed i
    let t := (getStarsFromRawValues a a sp flVal diff Attributes.zero).total
    return t :: (← peaksLoop diff flashlight speed (i + 1) rest)

/-- difficulty.go:118-141 -/
def getPeaks (aim speed : Skill S D) (flashlight : Option (Skill S D)) (diff : Difficulty D) :
    Result (StrainPeaks D) := do
  let aimPeaks := aim.getCurrentStrainPeaks
  let speedPeaks := speed.getCurrentStrainPeaks
  let flPeaks := flashlight.map (·.getCurrentStrainPeaks)
  let total ← peaksLoop diff flPeaks speedPeaks 0 aimPeaks
  return { aim := aimPeaks, speed := speedPeaks, flashlight := flPeaks.getD [], total }

variable [GoFloat S] [GoConv S D] [GoSort]

/-- difficulty.go:173-183; `objs` is `objects[i+1:]` -/
def singleLoop (fuel : Nat) : List (DiffObject S D) → List (Obj S D) → Attributes D → SkillSet S D →
    Result (Attributes D × SkillSet S D)
  | [], _, attr, sk => .ok (attr, sk)
  | o :: os, objs, attr, sk => do
    let obj ← index objs 0
    let sk ← sk.process fuel o
    singleLoop fuel os objs.tail (addObjectToAttribs obj attr) sk

/-- difficulty.go:157-188 -/
def calculateSingleCore (fuel : Nat) (objs : List (Obj S D)) (diff : Difficulty D) :
    Result (Attributes D × SkillSet S D) := do
  let diffObjects ← createDifficultyObjects objs diff
  let first ← index objs 0
  let (attr, sk) ← singleLoop fuel diffObjects objs.tail
    (addObjectToAttribs first Attributes.zero) (SkillSet.new diff)
  return (sk.getStars diff attr, sk)

/-- difficulty.go:191-194 -/
def calculateSingle (fuel : Nat) (objs : List (Obj S D)) (diff : Difficulty D) :
    Result (Attributes D) := do
  return (← calculateSingleCore fuel objs diff).1

/-- difficulty.go:197-200 -/
def calculateSingleWithPeaks (fuel : Nat) (objs : List (Obj S D)) (diff : Difficulty D) :
    Result (Attributes D × StrainPeaks D) := do
  let (stars, sk) ← calculateSingleCore fuel objs diff
  return (stars, ← getPeaks sk.aim sk.speed sk.flashlight diff)

/-- difficulty.go:218-231; `attr` is `stars[i]`; returns the attributes appended to `stars` -/
def stepLoop (fuel : Nat) (diff : Difficulty D) : List (DiffObject S D) → List (Obj S D) →
    Attributes D → SkillSet S D → Result (List (Attributes D) × SkillSet S D)
  | [], _, _, sk => .ok ([], sk)
  | o :: os, objs, attr, sk => do
    let obj ← index objs 0
    let attr := addObjectToAttribs obj attr
    let sk ← sk.process fuel o
    let stars := sk.getStars diff attr
    let (rest, sk) ← stepLoop fuel diff os objs.tail stars sk
    return (stars :: rest, sk)

/-- difficulty.go:202-234; for an empty slice `make([]Attributes, 1, 0)` panics -/
def calculateStepCore (fuel : Nat) (objs : List (Obj S D)) (diff : Difficulty D) :
    Result (List (Attributes D) × SkillSet S D) := do
  let diffObjects ← createDifficultyObjects objs diff
  if objs.length < 1 then .error .panic
  else
    let first ← index objs 0
    let attr := addObjectToAttribs first Attributes.zero
    let (rest, sk) ← stepLoop fuel diff diffObjects objs.tail attr (SkillSet.new diff)
    return (attr :: rest, sk)

/-- difficulty.go:237-240 -/
def calculateStep (fuel : Nat) (objs : List (Obj S D)) (diff : Difficulty D) :
    Result (List (Attributes D)) := do
  return (← calculateStepCore fuel objs diff).1

/-- difficulty.go:243-246 -/
def calculateStepWithPeaks (fuel : Nat) (objs : List (Obj S D)) (diff : Difficulty D) :
    Result (List (Attributes D) × StrainPeaks D) := do
  let (stars, sk) ← calculateStepCore fuel objs diff
  return (stars, ← getPeaks sk.aim sk.speed sk.flashlight diff)

/-- The skills of `CalculateStrainPeaks`. -/
structure PeakSkills (S D : Type) where
  aim : Skill S D
  speed : Skill S D
  flashlight : Option (Skill S D)

omit [GoSort] in
/-- difficulty.go:260-267 -/
def peakLoop (fuel : Nat) : List (DiffObject S D) → PeakSkills S D → Result (PeakSkills S D)
  | [], sk => .ok sk
  | o :: os, sk => do
    let aim ← sk.aim.process fuel o
    let speed ← sk.speed.process fuel o
    let flashlight ← SkillSet.processOpt fuel o sk.flashlight
    peakLoop fuel os { aim, speed, flashlight }

omit [GoSort] in
/-- difficulty.go:249-270 -/
def calculateStrainPeaks (fuel : Nat) (objs : List (Obj S D)) (diff : Difficulty D) :
    Result (StrainPeaks D) := do
  let diffObjects ← createDifficultyObjects objs diff
  let sk ← peakLoop fuel diffObjects
    { aim := Skill.newAim diff true
      speed := Skill.newSpeed diff
      flashlight := if diff.checkModActive Mod.Flashlight then some (Skill.newFlashlight diff) else none }
  getPeaks sk.aim sk.speed sk.flashlight diff

end GosuPP
