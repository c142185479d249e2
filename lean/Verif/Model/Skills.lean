import Verif.Model.Preprocessing

/-!
# `performance/osu/skills`

A `Skill` with its delegates (`StrainValueOf`, `StrainBonusOf`, `CalculateInitialStrain`) is a
record whose `kind` selects the delegates.
-/

namespace GosuPP
open Go

/-- Which of `AimSkill`, `SpeedSkill`, `Flashlight`. -/
inductive SkillKind where
  | aim (withSliders : Bool)
  | speed
  | flashlight
  deriving DecidableEq

/-- skill.go:11-57; `currentRhythm` is the field that `SpeedSkill` adds (speed.go:22) -/
structure Skill (S D : Type) where
  kind : SkillKind
  skillMultiplier : D
  strainDecayBase : D
  decayWeight : D
  sectionLength : D
  historyLength : Nat
  reducedSectionCount : Nat
  reducedStrainBaseline : D
  difficultyMultiplier : D
  previous : List (DiffObject S D)
  currentStrain : D
  currentRhythm : D
  currentSectionPeak : D
  currentSectionEnd : D
  strainPeaks : List D
  diff : Difficulty D

variable {S D : Type} [GoFloat D]

namespace Skill

/-- skill.go:59-75 -/
def new (kind : SkillKind) (d : Difficulty D) : Skill S D :=
  { kind, decayWeight := lit 0.9, sectionLength := lit 400, historyLength := 1
    reducedSectionCount := 10, reducedStrainBaseline := lit 0.75, difficultyMultiplier := lit 1.06
    diff := d, skillMultiplier := lit 0, strainDecayBase := lit 0, previous := []
    currentStrain := lit 0, currentRhythm := lit 0, currentSectionPeak := lit 0
    currentSectionEnd := lit 0, strainPeaks := [] }

/-- aim.go:23-32 -/
def newAim (d : Difficulty D) (withSliders : Bool) : Skill S D :=
  { (new (.aim withSliders) d) with
    skillMultiplier := lit 23.25, strainDecayBase := lit 0.15, historyLength := 2 }

/-- speed.go:25-40 -/
def newSpeed (d : Difficulty D) : Skill S D :=
  { (new .speed d) with
    skillMultiplier := lit 1375, strainDecayBase := lit 0.3, reducedSectionCount := 5
    difficultyMultiplier := lit 1.04, historyLength := 32 }

/-- flashlight.go:14-23 -/
def newFlashlight (d : Difficulty D) : Skill S D :=
  { (new .flashlight d) with
    skillMultiplier := lit 0.15, strainDecayBase := lit 0.15, decayWeight := lit 1
    historyLength := 10 }

omit [GoFloat D] in
/-- skill.go:115-121; `none` is `nil` -/
def getPrevious (sk : Skill S D) (i : Nat) : Option (DiffObject S D) := sk.previous.reverse[i]?

omit [GoFloat D] in
/-- `skill.GetPrevious(i)` followed by a field access: panics on `nil` -/
def derefPrevious (sk : Skill S D) (i : Nat) : Result (DiffObject S D) :=
  match sk.getPrevious i with
  | some o => .ok o
  | none => .error .panic

omit [GoFloat D] in
/-- skill.go:123-129 -/
def getCurrentStrainPeaks (sk : Skill S D) : List D := sk.strainPeaks ++ [sk.currentSectionPeak]

section
variable [GoLibm D]

/-- skill.go:155-157 -/
def strainDecay (sk : Skill S D) (ms : D) : D := GoLibm.pow sk.strainDecayBase (ms /. lit 1000)

/-- skill.go:140-143 on the sorted strains; `i` is the index of the head -/
def reduceLoop (count : Nat) (baseline : D) : Nat → List D → List D
  | _, [] => []
  | i, s :: rest =>
    if i < count then
      let scale := GoLibm.log10 (lerpF64 (lit 1) (lit 10)
        (clampF64 (ofInt i /. ofInt count) (lit 0) (lit 1)))
      s *. lerpF64 baseline (lit 1) scale :: reduceLoop count baseline (i + 1) rest
    else s :: rest

omit [GoLibm D] in
/-- skill.go:147-150 -/
def weightedSum (decayWeight : D) : List D → D → D → D
  | [], diff, _ => diff
  | s :: rest, diff, weight => weightedSum decayWeight rest (diff +. s *. weight) (weight *. decayWeight)

variable [GoSort]

omit [GoLibm D] in
/-- skill.go:167-178 -/
def reverseSort (l : List D) : List D := GoSort.slice (fun a b : D => a >. b) l

/-- skill.go:131-153, as a function of the peaks -/
def valueOfPeaks (sk : Skill S D) (peaks : List D) : D :=
  let strains := reverseSort peaks
  let strains := reduceLoop sk.reducedSectionCount sk.reducedStrainBaseline 0 strains
  let strains := reverseSort strains
  weightedSum sk.decayWeight strains (lit 0) (lit 1) *. sk.difficultyMultiplier

/-- skill.go:131-153 -/
def difficultyValue (sk : Skill S D) : D := sk.valueOfPeaks sk.getCurrentStrainPeaks
end
end Skill

variable [GoLibm D]

/-- `math.Pi/2` as a `float64` constant -/
def halfPi : D := lit (piConst / 2)

/-- aim.go:142-144 -/
def calcWideAngleBonus (angle : D) : D :=
  GoLibm.pow (GoLibm.sin (lit 0.75 *. (fmin (lit (5 / 6 * piConst)) (fmax (lit (piConst / 6)) angle)
    -. lit (piConst / 6)))) (lit 2)

/-- aim.go:146-148 -/
def calcAcuteAngleBonus (angle : D) : D := lit 1 -. calcWideAngleBonus angle

namespace Aim

/-- aim.go:47-55 and 58-65: the velocity into `cur`, whose predecessor is `prev` -/
def velocity (withSliders : Bool) (cur prev : DiffObject S D) : D :=
  let v := cur.jumpDistance /. cur.strainTime
  if prev.baseObject.lazy.isSome && withSliders then
    let movementVelocity := cur.movementDistance /. cur.movementTime
    let travelVelocity := cur.travelDistance /. cur.travelTime
    fmax v (movementVelocity +. travelVelocity)
  else v

/-- aim.go:67-101: `(wideAngleBonus, acuteAngleBonus)` -/
def angleBonuses (cur last lastLast : DiffObject S D) (currVelocity prevVelocity : D) : D × D :=
  if fmax cur.strainTime last.strainTime <. lit 1.25 *. fmin cur.strainTime last.strainTime then
    if !GoFloat.isNaN cur.angle && !GoFloat.isNaN last.angle && !GoFloat.isNaN lastLast.angle then
      let angleBonus := fmin currVelocity prevVelocity
      let wide := calcWideAngleBonus cur.angle
      let acute := calcAcuteAngleBonus cur.angle
      let acute :=
        if cur.strainTime >. lit 100 then lit 0
        else acute *. (calcAcuteAngleBonus last.angle *.
          fmin angleBonus (lit 125 /. cur.strainTime) *.
          GoLibm.pow (GoLibm.sin (halfPi *. fmin (lit 1) ((lit 100 -. cur.strainTime) /. lit 25))) (lit 2) *.
          GoLibm.pow (GoLibm.sin (halfPi *. (clampF64 cur.jumpDistance (lit 50) (lit 100) -. lit 50)
            /. lit 50)) (lit 2))
      let wide := wide *. (angleBonus *.
        (lit 1 -. fmin wide (GoLibm.pow (calcWideAngleBonus last.angle) (lit 3))))
      let acute := acute *. (lit 0.5 +. lit 0.5 *.
        (lit 1 -. fmin acute (GoLibm.pow (calcAcuteAngleBonus lastLast.angle) (lit 3))))
      (wide, acute)
    else (lit 0, lit 0)
  else (lit 0, lit 0)

/-- aim.go:103-124 -/
def velocityChangeBonus (cur last : DiffObject S D) (currVelocity prevVelocity : D) : D :=
  if !(fmax prevVelocity currVelocity ==. lit 0) then
    let prevVelocity := (last.jumpDistance +. last.travelDistance) /. last.strainTime
    let currVelocity := (cur.jumpDistance +. cur.travelDistance) /. cur.strainTime
    let distRatio := GoLibm.pow (GoLibm.sin (halfPi *. GoFloat.abs (prevVelocity -. currVelocity)
      /. fmax prevVelocity currVelocity)) (lit 2)
    let overlap := fmin (lit 125 /. fmin cur.strainTime last.strainTime)
      (GoFloat.abs (prevVelocity -. currVelocity))
    let nonOverlap := GoFloat.abs (prevVelocity -. currVelocity) *.
      GoLibm.pow (GoLibm.sin (halfPi *. fmin (lit 1) (fmin cur.jumpDistance last.jumpDistance
        /. lit 100))) (lit 2)
    fmax overlap nonOverlap *. distRatio *.
      GoLibm.pow (fmin cur.strainTime last.strainTime /. fmax cur.strainTime last.strainTime) (lit 2)
  else lit 0

/-- aim.go:42-139 -/
def strain (withSliders : Bool) (cur last lastLast : DiffObject S D) : D :=
  let currVelocity := velocity withSliders cur last
  let prevVelocity := velocity withSliders last lastLast
  let (wide, acute) := angleBonuses cur last lastLast currVelocity prevVelocity
  let change := velocityChangeBonus cur last currVelocity prevVelocity
  let sliderBonus := if !(cur.travelTime ==. lit 0) then cur.travelDistance /. cur.travelTime else lit 0
  let aimStrain := currVelocity +.
    fmax (acute *. lit 2) (wide *. lit 1.5 +. change *. lit 0.75)
  if withSliders then aimStrain +. sliderBonus *. lit 1.5 else aimStrain

/-- aim.go:34-140 -/
def strainValue (withSliders : Bool) (sk : Skill S D) (current : DiffObject S D) : Result D := do
  if current.baseObject.obj.isSpinner || sk.previous.length ≤ 1 then return lit 0
  else
    let last ← sk.derefPrevious 0
    if last.baseObject.obj.isSpinner then return lit 0
    else
      let lastLast ← sk.derefPrevious 1
      return strain withSliders current last lastLast

end Aim

namespace Speed

/-- speed.go:42-70 -/
def strainValue (sk : Skill S D) (current : DiffObject S D) : D :=
  if current.baseObject.obj.isSpinner then lit 0
  else
    let distance := fmin (lit 125) (current.travelDistance +. current.jumpDistance)
    let strainTime := current.strainTime
    let greatWindowFull := sk.diff.hit300 /. sk.diff.speed *. lit 2
    let speedWindowRatio := strainTime /. greatWindowFull
    let strainTime :=
      match sk.getPrevious 0 with
      | some previous =>
        if strainTime <. greatWindowFull && previous.strainTime >. strainTime then
          lerpF64 previous.strainTime strainTime speedWindowRatio
        else strainTime
      | none => strainTime
    let strainTime := strainTime /.
      clampF64 ((strainTime /. greatWindowFull) /. lit 0.93) (lit 0.92) (lit 1)
    let speedBonus :=
      if strainTime <. lit 75 then
        lit 1 +. lit 0.75 *. GoLibm.pow ((lit 75 -. strainTime) /. lit 40) (lit 2)
      else lit 1
    (speedBonus +. speedBonus *. GoLibm.pow (distance /. lit 125) (lit 3.5)) /. strainTime

/-- The variables of the loop in speed.go:87-153. -/
structure Rhythm (D : Type) where
  previousIslandSize : Nat
  complexitySum : D
  islandSize : Nat
  startRatio : D
  firstDeltaSwitch : Bool

/-- speed.go:114-132 -/
def penalise (r : Rhythm D) (cur prev last : DiffObject S D) (ratio : D) : D :=
  let ratio := if cur.baseObject.lazy.isSome then ratio *. lit 0.125 else ratio
  let ratio := if prev.baseObject.lazy.isSome then ratio *. lit 0.25 else ratio
  let ratio := if r.previousIslandSize = r.islandSize then ratio *. lit 0.25 else ratio
  let ratio := if r.previousIslandSize % 2 = r.islandSize % 2 then ratio *. lit 0.5 else ratio
  if last.strainTime >. prev.strainTime +. lit 10 && prev.strainTime >. cur.strainTime +. lit 10 then
    ratio *. lit 0.125
  else ratio

/-- speed.go:92-152: one iteration -/
def rhythmStep (greatWindow : D) (len i : Nat) (current cur prev last : DiffObject S D)
    (r : Rhythm D) : Rhythm D :=
  let decay := fmax (lit 0) (lit 5000 -. (current.startTime -. cur.startTime)) /. lit 5000
  if !(decay ==. lit 0) then
    let decay := fmin (ofInt ((len : Int) - i) /. ofInt len) decay
    let currDelta := cur.strainTime
    let prevDelta := prev.strainTime
    let currRatio := lit 1 +. lit 6 *. fmin (lit 0.5) (GoLibm.pow (GoLibm.sin (lit piConst /.
      (fmin prevDelta currDelta /. fmax prevDelta currDelta))) (lit 2))
    let windowPenalty := fmin (lit 1) (fmax (lit 0)
      (GoFloat.abs (prevDelta -. currDelta) -. greatWindow *. lit 0.6) /. (greatWindow *. lit 0.6))
    let windowPenalty := fmin (lit 1) windowPenalty
    let effectiveRatio := windowPenalty *. currRatio
    if r.firstDeltaSwitch then
      if !(prevDelta >. lit 1.25 *. currDelta || prevDelta *. lit 1.25 <. currDelta) then
        if r.islandSize < 7 then { r with islandSize := r.islandSize + 1 } else r
      else
        let effectiveRatio := penalise r cur prev last effectiveRatio
        { complexitySum := r.complexitySum +.
            GoFloat.sqrt (effectiveRatio *. r.startRatio) *. decay *.
              GoFloat.sqrt (lit 4 +. ofInt r.islandSize) /. lit 2 *.
              GoFloat.sqrt (lit 4 +. ofInt r.previousIslandSize) /. lit 2
          startRatio := effectiveRatio
          previousIslandSize := r.islandSize
          firstDeltaSwitch := !(prevDelta *. lit 1.25 <. currDelta)
          islandSize := 1 }
    else if prevDelta >. lit 1.25 *. currDelta then
      { r with firstDeltaSwitch := true, startRatio := effectiveRatio, islandSize := 1 }
    else r
  else r

/-- speed.go:87-153; the first argument is `i` -/
def rhythmLoop (greatWindow : D) (sk : Skill S D) (current : DiffObject S D) :
    Nat → Rhythm D → Result (Rhythm D)
  | 0, r => .ok r
  | i + 1, r => do
    let cur ← sk.derefPrevious i
    let prev ← sk.derefPrevious (i + 1)
    let last ← sk.derefPrevious (i + 2)
    rhythmLoop greatWindow sk current i
      (rhythmStep greatWindow sk.previous.length (i + 1) current cur prev last r)

/-- speed.go:72-158: the new `CurrentRhythm`, which is also the bonus -/
def rhythm (sk : Skill S D) (current : DiffObject S D) : Result D := do
  if current.baseObject.obj.isSpinner then return lit 0
  else
    let greatWindow := sk.diff.hit300 /. sk.diff.speed
    let r ← rhythmLoop greatWindow sk current (sk.previous.length - 2)
      { previousIslandSize := 0, complexitySum := lit 0, islandSize := 1, startRatio := lit 0
        firstDeltaSwitch := false }
    return GoFloat.sqrt (lit 4 +. r.complexitySum *. lit 0.75) /. lit 2

end Speed

variable [GoFloat S] [GoConv S D]

namespace Flashlight

/-- The variables of the loop in flashlight.go:36-56. -/
structure State (D : Type) where
  smallDistNerf : D
  cumulativeStrainTime : D
  result : D

/-- flashlight.go:36-56, over the previous objects, most recent first; `i` is the index of the
head -/
def loop (d : Difficulty D) (current : DiffObject S D) :
    Nat → List (DiffObject S D) → State D → State D
  | _, [], st => st
  | i, previous :: rest, st =>
    if previous.baseObject.obj.isSpinner then loop d current (i + 1) rest st
    else
      let scalingFactor := lit 52 /. d.circleRadius
      let jumpDistance : D := up ((current.baseObject.obj.base.getStackedStartPositionMod d.mods).dst
        (previous.baseObject.obj.base.getStackedEndPositionMod d.mods))
      let cumulativeStrainTime := st.cumulativeStrainTime +. previous.strainTime
      let smallDistNerf := if i = 0 then fmin (lit 1) (jumpDistance /. lit 75) else st.smallDistNerf
      let stackNerf := fmin (lit 1) ((previous.jumpDistance /. scalingFactor) /. lit 25)
      loop d current (i + 1) rest
        { smallDistNerf, cumulativeStrainTime
          result := st.result +. GoLibm.pow (lit 0.8) (ofInt i) *. stackNerf *. scalingFactor *.
            jumpDistance /. cumulativeStrainTime }

/-- flashlight.go:25-59 -/
def strainValue (sk : Skill S D) (current : DiffObject S D) : D :=
  if current.baseObject.obj.isSpinner then lit 0
  else
    let st := loop sk.diff current 0 sk.previous.reverse
      { smallDistNerf := lit 1, cumulativeStrainTime := lit 0, result := lit 0 }
    GoLibm.pow (st.smallDistNerf *. st.result) (lit 2)

end Flashlight

namespace Skill

/-- the delegate `StrainValueOf` -/
def strainValueOf (sk : Skill S D) (current : DiffObject S D) : Result D :=
  match sk.kind with
  | .aim withSliders => Aim.strainValue withSliders sk current
  | .speed => .ok (Speed.strainValue sk current)
  | .flashlight => .ok (Flashlight.strainValue sk current)

omit [GoFloat S] [GoConv S D] in
/-- the delegate `CalculateInitialStrain`: skill.go:70-72, speed.go:160-162 -/
def calculateInitialStrain (sk : Skill S D) (time : D) : Result D := do
  let prev ← sk.derefPrevious 0
  match sk.kind with
  | .speed => return (sk.currentStrain *. sk.currentRhythm) *. sk.strainDecay (time -. prev.startTime)
  | _ => return sk.currentStrain *. sk.strainDecay (time -. prev.startTime)

omit [GoFloat S] [GoConv S D] in
/-- skill.go:85-90 -/
def sectionLoop (startTime : D) : Nat → Skill S D → Result (Skill S D)
  | 0, _ => .error .hang
  | fuel + 1, sk =>
    if startTime >. sk.currentSectionEnd then do
      let peak ← sk.calculateInitialStrain sk.currentSectionEnd
      sectionLoop startTime fuel { sk with
        strainPeaks := sk.strainPeaks ++ [sk.currentSectionPeak]
        currentSectionPeak := peak
        currentSectionEnd := sk.currentSectionEnd +. sk.sectionLength }
    else .ok sk

/-- skill.go:92-101 -/
def addStrain (current : DiffObject S D) (sk : Skill S D) : Result (Skill S D) := do
  let sk := { sk with currentStrain := sk.currentStrain *. sk.strainDecay current.deltaTime }
  let value ← sk.strainValueOf current
  let sk := { sk with currentStrain := sk.currentStrain +. value *. sk.skillMultiplier }
  match sk.kind with
  | .speed =>
    let bonus ← Speed.rhythm sk current
    return { sk with
      currentRhythm := bonus
      currentSectionPeak := fmax (sk.currentStrain *. bonus) sk.currentSectionPeak }
  | _ => return { sk with currentSectionPeak := fmax sk.currentStrain sk.currentSectionPeak }

/-- skill.go:77-102 -/
def processInternal (fuel : Nat) (current : DiffObject S D) (sk : Skill S D) :
    Result (Skill S D) := do
  let sk := if sk.previous.length = 0 then
      { sk with currentSectionEnd := GoFloat.ceil (current.startTime /. sk.sectionLength) *. sk.sectionLength }
    else sk
  addStrain current (← sectionLoop current.startTime fuel sk)

/-- skill.go:105-113 -/
def process (fuel : Nat) (current : DiffObject S D) (sk : Skill S D) : Result (Skill S D) := do
  let sk := if sk.previous.length > sk.historyLength then
      { sk with previous := sk.previous.drop (sk.previous.length - sk.historyLength) }
    else sk
  let sk ← processInternal fuel current sk
  return { sk with previous := sk.previous ++ [current] }

end Skill
end GosuPP
