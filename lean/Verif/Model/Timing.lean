import Verif.Go.Sort
import Verif.Model.Utils

/-!
# `beatmap/timing/timing.go`
-/

namespace GosuPP
open Go

/-- timing.go:9-25 -/
structure ControlPoint (D : Type) where
  time : D
  beatLengthBase : D
  beatLength : D
  sampleSet : Int
  sampleIndex : Int
  sampleVolume : D
  signature : Int
  inherited : Bool
  kiai : Bool
  omitFirstBarLine : Bool
  deriving DecidableEq

variable (S : Type) {D : Type} [GoFloat S] [GoFloat D] [GoConv S D]

namespace ControlPoint

/-- timing.go:27-33 -/
def getRatio (t : ControlPoint D) : D :=
  if t.beatLength >=. lit 0 || GoFloat.isNaN t.beatLength then lit 1
  else up (down (clampF64 (fneg t.beatLength) (lit 10) (lit 1000)) /. (lit 100 : S))

/-- timing.go:43-45 -/
def getBeatLength (t : ControlPoint D) : D := t.beatLengthBase *. t.getRatio S

end ControlPoint

/-- timing.go:47-55; `defaultTimingPoint` is only returned by `GetDefault` -/
structure Timings (D : Type) where
  sliderMult : D
  tickRate : D
  points : List (ControlPoint D)
  originalPoints : List (ControlPoint D)

namespace Timings

/-- timing.go:57-72 -/
def new : Timings D :=
  { sliderMult := lit 0, tickRate := lit 0, points := [], originalPoints := [] }

/-- timing.go:58-71, 108-110 -/
def getDefault : ControlPoint D :=
  { time := lit 0, beatLengthBase := lit 1000, beatLength := lit 1000, sampleSet := 0
    sampleIndex := 1, sampleVolume := lit 1, signature := 4, inherited := false, kiai := false
    omitFirstBarLine := false }

/-- timing.go:74-89 -/
def addPoint (tim : Timings D) (time beatLength : D) (sampleSet sampleIndex : Int)
    (sampleVolume : D) (signature : Int) (inherited kiai omitFirstBarLine : Bool) : Timings D :=
  { tim with
    points := tim.points ++ [⟨time, beatLength, beatLength, sampleSet, sampleIndex, sampleVolume,
      signature, inherited, kiai, omitFirstBarLine⟩] }

/-- timing.go:96-105 the loop over the sorted points; `last` is `tim.points[i-1]` as already
updated. Returns the updated points and the points appended to `originalPoints`. -/
def finalizeLoop : Option (ControlPoint D) → List (ControlPoint D) →
    List (ControlPoint D) × List (ControlPoint D)
  | _, [] => ([], [])
  | last, p :: rest =>
    match p.inherited, last with
    | true, some l =>
      let p' := { p with beatLengthBase := l.beatLengthBase }
      let (ps, os) := finalizeLoop (some p') rest
      (p' :: ps, os)
    | _, _ =>
      let (ps, os) := finalizeLoop (some p) rest
      (p :: ps, p :: os)

variable [GoSort]

/-- timing.go:91-106 -/
def finalizePoints (tim : Timings D) : Timings D :=
  let sorted := GoSort.stable (fun a b : ControlPoint D => a.time <. b.time) tim.points
  let (ps, os) := finalizeLoop none sorted
  { tim with points := ps, originalPoints := tim.originalPoints ++ os }

omit [GoSort] in
/-- timing.go:112-120 and 122-130, on a list of points -/
def pointAt (points : List (ControlPoint D)) (time : D) : Result (ControlPoint D) :=
  let idx := search points.length (fun i =>
    match points[i]? with
    | some p => time <. p.time
    | none => true)
  index points (maxI 0 ((idx : Int) - 1))

omit [GoSort] in
/-- timing.go:112-120 -/
def getPointAt (tim : Timings D) (time : D) : Result (ControlPoint D) := pointAt tim.points time

omit [GoSort] in
/-- timing.go:122-130 -/
def getOriginalPointAt (tim : Timings D) (time : D) : Result (ControlPoint D) :=
  pointAt tim.originalPoints time

omit [GoSort] in
/-- timing.go:132-134 -/
def getScoringDistance (tim : Timings D) : D := (lit 100 *. tim.sliderMult) /. tim.tickRate

omit [GoSort] in
/-- timing.go:136-138 -/
def getSliderTimeP (tim : Timings D) (point : ControlPoint D) (pixelLength : D) : D :=
  up ((down (lit 1000 *. pixelLength) : S) /.
    down (lit 100 *. tim.sliderMult *. (lit 1000 /. point.getBeatLength S)))

omit [GoSort] in
/-- timing.go:140-150 -/
def getVelocity (tim : Timings D) (point : ControlPoint D) : D :=
  let velocity := tim.getScoringDistance *. tim.tickRate
  let beatLength := point.getBeatLength S
  if beatLength >=. lit 0 then velocity *. (lit 1000 /. beatLength) else velocity

omit [GoSort] in
/-- timing.go:152-154 -/
def getTickDistance (tim : Timings D) (point : ControlPoint D) : D :=
  tim.getScoringDistance /. point.getRatio S

omit [GoSort] in
/-- timing.go:156-158 -/
def hasPoints (tim : Timings D) : Bool := decide (0 < tim.points.length)

end Timings
end GosuPP
