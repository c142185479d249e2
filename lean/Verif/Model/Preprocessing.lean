import Verif.Model.Objects

/-!
# `performance/osu/preprocessing`
-/

namespace GosuPP
open Go

/-- lazyslider.go:21-23, what `LazySlider` adds to a slider -/
structure Lazy (S D : Type) where
  endPosition : Vec S
  travelDistance : S
  travelTime : D

/-- An `IHitObject` as seen by the difficulty calculation: `lazy` is present exactly when the
dynamic type is `*LazySlider`. -/
structure PObj (S D : Type) where
  obj : Obj S D
  lazy : Option (Lazy S D)

variable {S D : Type} [GoFloat S] [GoFloat D] [GoConv S D]

/-- The variables of the loop in lazyslider.go:44-87. -/
structure LazyState (S : Type) where
  cursor : Vec S
  endPosition : Vec S
  travelDistance : S

/-- lazyslider.go:44-87, one iteration; `last` says `i == len(ScorePoints)-1` -/
def lazyStep (o : Obj S D) (mods : Modifier) (scalingFactor : D) (point : TickPoint D) (last : Bool)
    (st : LazyState S) : Result (LazyState S) := do
  let stackedPosition ←
    if last then o.getStackedPositionAtMod o.base.endTime mods
    else o.getStackedPositionAtMod point.time mods
  let currMovement := stackedPosition.sub st.cursor
  let lazyMovement := st.endPosition.sub st.cursor
  let currMovement :=
    if last then (if lazyMovement.len <. currMovement.len then lazyMovement else currMovement)
    else currMovement
  let currMovementLength := scalingFactor *. up currMovement.len
  let requiredMovement : D := if !last && point.isReverse then lit 50 else lit 90
  let st :=
    if currMovementLength >. requiredMovement then
      let ratio := (currMovementLength -. requiredMovement) /. currMovementLength
      { st with
        cursor := st.cursor.add (currMovement.scl (down ratio))
        travelDistance := st.travelDistance +. down (currMovementLength *. ratio) }
    else st
  return if last then { st with endPosition := st.cursor } else st

/-- lazyslider.go:44-87 -/
def lazyLoop (o : Obj S D) (mods : Modifier) (scalingFactor : D) :
    List (TickPoint D) → LazyState S → Result (LazyState S)
  | [], st => .ok st
  | [p], st => lazyStep o mods scalingFactor p true st
  | p :: ps, st => do
    lazyLoop o mods scalingFactor ps (← lazyStep o mods scalingFactor p false st)

variable [GoLibm D]

/-- lazyslider.go:26-90 -/
def newLazySlider (o : Obj S D) (s : SliderData S D) (d : Difficulty D) : Result (Lazy S D) := do
  let last ← index s.scorePoints ((s.scorePoints.length : Int) - 1)
  let travelTime := last.time -. o.base.startTime
  let endPosition ← o.getStackedPositionAtMod (travelTime +. o.base.startTime) d.mods
  let scalingFactor := lit 50 /. d.circleRadius
  let st ← lazyLoop o d.mods scalingFactor s.scorePoints
    { cursor := o.base.getStackedStartPositionMod d.mods, endPosition, travelDistance := lit 0 }
  let bonus := GoLibm.pow (lit 1 +. ofInt (s.repeatCount - 1) /. lit 2.5) (lit (1 / 2.5) : D)
  return { endPosition := st.endPosition, travelTime
           travelDistance := st.travelDistance *. down bonus }

omit [GoConv S D] [GoLibm D] [GoFloat D] in
/-- object.go:118-126 -/
def getEndCursorPosition (o : PObj S D) (mods : Modifier) : Vec S :=
  match o.lazy with
  | some l => l.endPosition
  | none => o.obj.base.getStackedStartPositionMod mods

/-- object.go:17-45; the unexported back pointers are only used during construction -/
structure DiffObject (S D : Type) where
  baseObject : PObj S D
  deltaTime : D
  startTime : D
  endTime : D
  jumpDistance : D
  movementDistance : D
  travelDistance : D
  angle : D
  movementTime : D
  travelTime : D
  strainTime : D

omit [GoLibm D] in
/-- object.go:74-79 -/
def distanceScaling (circleRadius : D) : S :=
  let scalingFactor : S := lit 50 /. down circleRadius
  if circleRadius <. lit 30 then
    scalingFactor *. (lit 1 +. Math32.min (lit 30 -. down circleRadius) (lit 5) /. lit 50)
  else scalingFactor

omit [GoLibm D] in
/-- object.go:81-101 -/
def setTravel (d : Difficulty D) (last : PObj S D) (o : DiffObject S D) : DiffObject S D :=
  let scalingFactor : S := distanceScaling d.circleRadius
  let startPos := o.baseObject.obj.base.getStackedStartPositionMod d.mods
  let lastCursor := getEndCursorPosition last d.mods
  let o := { o with
    jumpDistance := up ((startPos.scl scalingFactor).dst (lastCursor.scl scalingFactor)) }
  match last.lazy with
  | some l =>
    let travelTime := fmax (l.travelTime /. d.speed) (lit 25)
    let tailJump := (last.obj.base.getStackedEndPositionMod d.mods).dst startPos *. scalingFactor
    { o with
      travelDistance := up l.travelDistance
      travelTime
      movementTime := fmax (o.strainTime -. travelTime) (lit 25)
      movementDistance := fmax (lit 0)
        (fmin (o.jumpDistance -. lit 30) (up (tailJump -. lit 120))) }
  | none => { o with movementTime := o.strainTime, movementDistance := o.jumpDistance }

/-- object.go:103-115 -/
def setAngle (d : Difficulty D) (lastLast : Option (PObj S D)) (last : PObj S D)
    (o : DiffObject S D) : DiffObject S D :=
  match lastLast with
  | none => o
  | some ll =>
    if ll.obj.isSpinner then o
    else
      let v1 := (getEndCursorPosition ll d.mods).sub (last.obj.base.getStackedStartPositionMod d.mods)
      let v2 := (o.baseObject.obj.base.getStackedStartPositionMod d.mods).sub
        (getEndCursorPosition last d.mods)
      let dot := v1.dot v2
      let det := v1.x *. v2.y -. v1.y *. v2.x
      { o with angle := up (Math32.abs (Math32.atan2 det dot) : S) }

/-- object.go:66-116 -/
def setDistances (d : Difficulty D) (lastLast : Option (PObj S D)) (last : PObj S D)
    (o : DiffObject S D) : DiffObject S D :=
  if o.baseObject.obj.isSpinner || last.obj.isSpinner then o
  else setAngle d lastLast last (setTravel d last o)

/-- object.go:47-64 -/
def newDiffObject (current : PObj S D) (lastLast : Option (PObj S D)) (last : PObj S D)
    (d : Difficulty D) : DiffObject S D :=
  let deltaTime := (current.obj.base.startTime -. last.obj.base.startTime) /. d.speed
  setDistances d lastLast last
    { baseObject := current
      deltaTime
      startTime := current.obj.base.startTime /. d.speed
      endTime := current.obj.base.endTime /. d.speed
      angle := GoFloat.nan
      strainTime := fmax deltaTime (lit 25)
      jumpDistance := lit 0, movementDistance := lit 0, travelDistance := lit 0
      movementTime := lit 0, travelTime := lit 0 }

/-- objects.go:12-18 -/
def decorate (d : Difficulty D) (o : Obj S D) : Result (PObj S D) := do
  match o.kind with
  | .slider s => return { obj := o, lazy := some (← newLazySlider o s d) }
  | _ => return { obj := o, lazy := none }

/-- objects.go:12-18 -/
def decorateAll (d : Difficulty D) : List (Obj S D) → Result (List (PObj S D))
  | [] => .ok []
  | o :: rest => do return (← decorate d o) :: (← decorateAll d rest)

/-- objects.go:22-33; `lastLast` is `objs[i-2]` if there is one, `last` is `objs[i-1]` -/
def diffObjectLoop (d : Difficulty D) :
    Option (PObj S D) → PObj S D → List (PObj S D) → List (DiffObject S D)
  | _, _, [] => []
  | lastLast, last, current :: rest =>
    newDiffObject current lastLast last d :: diffObjectLoop d (some last) current rest

/-- objects.go:9-36 -/
def createDifficultyObjects (objs : List (Obj S D)) (d : Difficulty D) :
    Result (List (DiffObject S D)) := do
  match ← decorateAll d objs with
  | [] => return []
  | first :: rest => return diffObjectLoop d none first rest

end GosuPP
