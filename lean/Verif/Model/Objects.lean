import Verif.Model.Difficulty
import Verif.Model.Timing
import Verif.Model.Curves

/-!
# `beatmap/objects`: hit objects

The Go interface `IHitObject` with its three implementations becomes a common record plus a
kind. Update methods return the new value. `PositionDelegate` is set exactly for sliders
(slider.go:44).
-/

namespace GosuPP
open Go

/-- hitobject.go:52-78 -/
structure HitObject (S D : Type) where
  startPosRaw : Vec S
  endPosRaw : Vec S
  startTime : D
  endTime : D
  stackOffset : Vec S
  stackOffsetEZ : Vec S
  stackOffsetHR : Vec S
  stackIndex : Int
  stackIndexEZ : Int
  stackIndexHR : Int
  hitObjectID : Int
  sounds : List Int
  newCombo : Bool
  comboNumber : Int
  comboSet : Int
  comboSetHax : Int
  colorOffset : Int

/-- slider.go:16-19 -/
structure TickPoint (D : Type) where
  time : D
  isReverse : Bool
  deriving DecidableEq

/-- slider.go:21-37 without the embedded `HitObject` and the back pointers -/
structure SliderData (S D : Type) where
  multiCurve : MultiCurve S
  tPoint : ControlPoint D
  pixelLength : D
  repeatCount : Int
  scorePoints : List (TickPoint D)
  spanDuration : D

/-- The dynamic type of an `IHitObject`. -/
inductive Kind (S D : Type) where
  | circle
  | spinner
  | slider (s : SliderData S D)

/-- An `IHitObject`. -/
structure Obj (S D : Type) where
  base : HitObject S D
  kind : Kind S D

variable {S D : Type}

namespace Obj
/-- stackleniency.go:13-16 and the type assertions `.(*objects.Spinner)` -/
def isSpinner (o : Obj S D) : Bool := match o.kind with | .spinner => true | _ => false
/-- stackleniency.go:18-21 and the type assertions `.(*objects.Slider)` -/
def isSlider (o : Obj S D) : Bool := match o.kind with | .slider _ => true | _ => false
def isCircle (o : Obj S D) : Bool := match o.kind with | .circle => true | _ => false
end Obj

namespace HitObject
variable [GoFloat S]

/-- hitobject.go:168-177 -/
def getStackIndex (h : HitObject S D) (m : Modifier) : Int :=
  if Modifier.active m Mod.HardRock then h.stackIndexHR
  else if Modifier.active m Mod.Easy then h.stackIndexEZ
  else h.stackIndex

/-- hitobject.go:179-188 -/
def setStackIndex (h : HitObject S D) (index : Int) (m : Modifier) : HitObject S D :=
  if Modifier.active m Mod.HardRock then { h with stackIndexHR := index }
  else if Modifier.active m Mod.Easy then { h with stackIndexEZ := index }
  else { h with stackIndex := index }

/-- hitobject.go:190-199 -/
def setStackOffset (h : HitObject S D) (offset : S) (m : Modifier) : HitObject S D :=
  let v := Vec.scl ⟨lit 1, lit 1⟩ offset
  if Modifier.active m Mod.HardRock then { h with stackOffsetHR := v }
  else if Modifier.active m Mod.Easy then { h with stackOffsetEZ := v }
  else { h with stackOffset := v }

/-- hitobject.go:217-227 -/
def modifyPosition (h : HitObject S D) (p : Vec S) (m : Modifier) : Vec S :=
  if Modifier.active m Mod.HardRock then Vec.add ⟨p.x, lit 384 -. p.y⟩ h.stackOffsetHR
  else if Modifier.active m Mod.Easy then p.add h.stackOffsetEZ
  else p.add h.stackOffset

/-- hitobject.go:124-126 -/
def getStackedStartPositionMod (h : HitObject S D) (m : Modifier) : Vec S :=
  h.modifyPosition h.startPosRaw m

/-- hitobject.go:136-138 -/
def getStackedEndPositionMod (h : HitObject S D) (m : Modifier) : Vec S :=
  h.modifyPosition h.endPosRaw m

end HitObject

variable [GoFloat S] [GoFloat D] [GoConv S D]

/-- `(x & 2^i) > 0` for a nonnegative mask on a two's complement `int` -/
def intBit (x : Int) (i : Nat) : Bool := (x / 2 ^ i) % 2 == 1

/-- The type bits of util.go:22-28, on `strconv.Atoi(data[3])`. -/
def typeCircle (t : Int) : Bool := intBit t 0
def typeSlider (t : Int) : Bool := intBit t 1
def typeNewCombo (t : Int) : Bool := intBit t 2
def typeSpinner (t : Int) : Bool := intBit t 3
def typeLongNote (t : Int) : Bool := intBit t 7

/-- baseobject.go:9-31 -/
def commonParse (data : List Str) : Result (HitObject S D) := do
  let x : S := parseFloat (← index data 0)
  let y : S := parseFloat (← index data 1)
  let time : D := parseFloat (← index data 2)
  let objType := parseInt (← index data 3)
  let startPos : Vec S := ⟨x, y⟩
  let sound := parseInt (← index data 4)
  return {
    startPosRaw := startPos, endPosRaw := startPos, startTime := time, endTime := time
    stackOffset := Vec.zero, stackOffsetEZ := Vec.zero, stackOffsetHR := Vec.zero
    stackIndex := 0, stackIndexEZ := 0, stackIndexHR := 0
    hitObjectID := -1, sounds := [sound]
    newCombo := typeNewCombo objType, comboNumber := 0, comboSet := 0, comboSetHax := 0
    colorOffset := (objType / 16) % 8 }

/-- circle.go:13-17 -/
def newCircle (data : List Str) : Result (Obj S D) := do
  return { base := ← commonParse data, kind := .circle }

/-- spinner.go:14-22 -/
def newSpinner (data : List Str) : Result (Obj S D) := do
  let base ← commonParse data
  let endTime : D := parseFloat (← index data 5)
  return { base := { base with endTime }, kind := .spinner }

/-- slider.go:52-57 -/
def parsePoints : List Str → Result (List (Vec S))
  | [] => .ok []
  | p :: rest => do
    let list2 := split ':' p
    let x : S := parseFloat (← index list2 0)
    let y : S := parseFloat (← index list2 1)
    return ⟨x, y⟩ :: (← parsePoints rest)

/-- slider.go:74-77 -/
def setSounds : List Str → Nat → List Int → Result (List Int)
  | [], _, sounds => .ok sounds
  | v :: rest, i, sounds =>
    if i < sounds.length then setSounds rest (i + 1) (sounds.set i (parseInt v))
    else .error .panic

/-- slider.go:71-78 -/
def edgeSounds (data : List Str) (sounds : List Int) : Result (List Int) :=
  if data.length > 8 then do setSounds (split '|' (← index data 8)) 0 sounds
  else .ok sounds

/-- The zero value of `timing.ControlPoint`. -/
def zeroPoint : ControlPoint D :=
  { time := lit 0, beatLengthBase := lit 0, beatLength := lit 0, sampleSet := 0
    sampleIndex := 0, sampleVolume := lit 0, signature := 0, inherited := false, kiai := false
    omitFirstBarLine := false }

/-- Addition on Go's `int64`. -/
def addI64 (a b : Int) : Int := (BitVec.ofInt 64 (a + b)).toInt

section
variable [GoLibm D]

/-- slider.go:39-81 -/
def newSlider (fuel : Nat) (data : List Str) : Result (Obj S D) := do
  let base ← commonParse data
  let pixelLength : D := parseFloat (← index data 7)
  let repeatCount := parseInt (← index data 6)
  let list := split '|' (← index data 5)
  let more ← parsePoints list.tail
  let points := base.startPosRaw :: more
  let typ ← index list 0
  let multiCurve ← MultiCurve.newT fuel typ points pixelLength
  let endPosRaw ← multiCurve.pointAt (lit 1)
  let baseSample ← index base.sounds 0
  let n := addI64 repeatCount 1
  makeCheck 8 n
  let sounds := List.replicate n.toNat baseSample
  let sounds ← edgeSounds data sounds
  return {
    base := { base with endTime := base.startTime, endPosRaw, sounds }
    kind := .slider { multiCurve, tPoint := zeroPoint, pixelLength, repeatCount
                      scorePoints := [], spanDuration := lit 0 } }

/-- util.go:5-18 -/
def createObject (fuel : Nat) (data : List Str) : Result (Option (Obj S D)) := do
  let objType := parseInt (← index data 3)
  if typeCircle objType then return some (← newCircle data)
  else if typeSpinner objType then return some (← newSpinner data)
  else if typeSlider objType then return some (← newSlider fuel data)
  else return none
end

/-- slider.go:165-167 -/
def isRetarded (h : HitObject S D) : Bool := h.startTime ==. h.endTime

/-- slider.go:83-98 -/
def sliderPositionAt (h : HitObject S D) (s : SliderData S D) (time : D) : Result (Vec S) :=
  if isRetarded h then .ok h.startPosRaw
  else
    let t1 := clampF64 time h.startTime h.endTime
    let progress := (t1 -. h.startTime) /. s.spanDuration
    let progress := GoFloat.fmod progress (lit 2)
    let progress := if progress >=. lit 1 then lit 2 -. progress else progress
    s.multiCurve.pointAt (down progress)

namespace Obj

/-- hitobject.go:100-106 -/
def getPositionAt (o : Obj S D) (time : D) : Result (Vec S) :=
  match o.kind with
  | .slider s => sliderPositionAt o.base s time
  | _ => .ok o.base.startPosRaw

/-- hitobject.go:112-114 -/
def getStackedPositionAtMod (o : Obj S D) (time : D) (m : Modifier) : Result (Vec S) := do
  return o.base.modifyPosition (← o.getPositionAt time) m

end Obj

namespace Slider

/-- slider.go:126-140: the tick loop of one span -/
def tickLoop (tickDistance cLength minDistanceFromEnd spanStartTime spanDuration : D)
    (reversed nanTimingPoint : Bool) : Nat → D → Result (List (TickPoint D))
  | 0, _ => .error .hang
  | fuel + 1, d =>
    if d <=. cLength && !nanTimingPoint then
      if d >=. cLength -. minDistanceFromEnd then .ok []
      else do
        let timeProgress := d /. cLength
        let timeProgress := if reversed then lit 1 -. timeProgress else timeProgress
        let rest ← tickLoop tickDistance cLength minDistanceFromEnd spanStartTime spanDuration
          reversed nanTimingPoint fuel (d +. tickDistance)
        return { time := spanStartTime +. timeProgress *. spanDuration, isReverse := false } :: rest
    else .ok []

/-- The values that do not change during the span loop of `SetTiming`. -/
structure SpanArgs (D : Type) where
  startTime : D
  endTime : D
  spanDuration : D
  cLength : D
  tickDistance : D
  minDistanceFromEnd : D
  nanTimingPoint : Bool
  repeatCount : Int

/-- slider.go:122-151: one span -/
def spanTicks (a : SpanArgs D) (fuel : Nat) (span : Int) : Result (List (TickPoint D)) := do
  let spanStartTime := a.startTime +. ofInt span *. a.spanDuration
  let reversed := span % 2 == 1
  let ticks ← tickLoop a.tickDistance a.cLength a.minDistanceFromEnd spanStartTime a.spanDuration
    reversed a.nanTimingPoint fuel a.tickDistance
  let last : TickPoint D :=
    if span < a.repeatCount - 1 then
      { time := spanStartTime +. a.spanDuration, isReverse := true }
    else
      { time := fmax (a.startTime +. (a.endTime -. a.startTime) /. lit 2) (a.endTime -. lit 36)
        isReverse := false }
  return ticks ++ [last]

/-- slider.go:121-152: `k` spans left -/
def spanLoop (a : SpanArgs D) (fuel : Nat) : Nat → Int → Result (List (TickPoint D))
  | 0, _ => .ok []
  | k + 1, span => do
    let ticks ← spanTicks a fuel span
    let rest ← spanLoop a fuel k (span + 1)
    return ticks ++ rest

variable [GoSort]

/-- slider.go:100-159 -/
def setTiming (fuel : Nat) (timings : Timings D) (h : HitObject S D) (s : SliderData S D) :
    Result (Obj S D) := do
  let tPoint ← timings.getPointAt h.startTime
  let nanTimingPoint := GoFloat.isNaN tPoint.beatLength
  let velocity := timings.getVelocity S tPoint
  let cLength : D := up s.multiCurve.length
  let spanDuration := cLength *. lit 1000 /. velocity
  let endTime := h.startTime +. cLength *. lit 1000 *. ofInt s.repeatCount /. velocity
  let minDistanceFromEnd := velocity *. lit 0.01
  let tickDistance := timings.getTickDistance S tPoint
  let tickDistance :=
    if s.multiCurve.length >. lit 0 && tickDistance >. s.pixelLength then s.pixelLength
    else tickDistance
  let points ← spanLoop
    { startTime := h.startTime, endTime, spanDuration, cLength, tickDistance, minDistanceFromEnd
      nanTimingPoint, repeatCount := s.repeatCount } fuel s.repeatCount.toNat 0
  let scorePoints := GoSort.slice (fun a b : TickPoint D => a.time <. b.time)
    (s.scorePoints ++ points)
  let h := { h with endTime }
  let s := { s with tPoint, spanDuration, scorePoints }
  let endPosRaw ← sliderPositionAt h s endTime
  return { base := { h with endPosRaw }, kind := .slider s }

end Slider

/-- hitobject.go:82, spinner.go:24-26, slider.go:100-159: dynamic dispatch of `SetTiming` -/
def Obj.setTiming [GoSort] (fuel : Nat) (timings : Timings D) (o : Obj S D) : Result (Obj S D) :=
  match o.kind with
  | .slider s => Slider.setTiming fuel timings o.base s
  | _ => .ok o

end GosuPP
