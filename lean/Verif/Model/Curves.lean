import Verif.Go.Sort
import Verif.Go.Str
import Verif.Model.Bezier

/-!
# `math/curves`: `linear.go`, `cirarc.go`, `catmull.go`, `approximation.go`, `multicurve.go`
-/

namespace GosuPP
open Go

variable {S D : Type} [GoFloat S] [GoFloat D] [GoConv S D]

/-- linear.go:7-9 -/
structure Linear (S : Type) where
  p1 : Vec S
  p2 : Vec S
  deriving DecidableEq

namespace Linear
/-- linear.go:15-17 -/
def pointAt (ln : Linear S) (t : S) : Vec S := ln.p1.lerp ln.p2 t
/-- linear.go:27-29 -/
def getLength (ln : Linear S) : S := ln.p1.dst ln.p2
end Linear

/-- cirarc.go:9-15, the fields that are read later -/
structure CirArc (S : Type) where
  centre : Vec S
  startAngle : S
  totalAngle : S
  dir : S
  r : S
  unstable : Bool

namespace CirArc

/-- the float32 variable `math32.Pi`, math32/math.go:5 -/
def pi32 : S := lit piConst

/-- cirarc.go:38-40 -/
def unwind (startAngle : S) : Nat → S → Result S
  | 0, _ => .error .hang
  | fuel + 1, e =>
    if e <. startAngle then unwind startAngle fuel (e +. lit 2 *. pi32) else .ok e

variable [GoLibm D]

/-- cirarc.go:17-53 -/
def new (fuel : Nat) (a b c : Vec S) : Result (CirArc S) := do
  let unstable := Vec.isStraightLine a b c
  let d := lit 2 *. (a.x *. (b.y -. c.y) +. b.x *. (c.y -. a.y) +. c.x *. (a.y -. b.y))
  let aSq := a.lenSq
  let bSq := b.lenSq
  let cSq := c.lenSq
  let centre := Vec.scl
    ⟨aSq *. (b.y -. c.y) +. bSq *. (c.y -. a.y) +. cSq *. (a.y -. b.y),
     aSq *. (c.x -. b.x) +. bSq *. (a.x -. c.x) +. cSq *. (b.x -. a.x)⟩ (lit 1 /. d)
  let r := a.dst centre
  let startAngle := a.angleRV centre
  let endAngle ← unwind startAngle fuel (c.angleRV centre)
  let totalAngle := endAngle -. startAngle
  let aToC := c.sub a
  let aToC : Vec S := ⟨aToC.y, fneg aToC.x⟩
  if aToC.dot (b.sub a) <. lit 0 then
    return { centre, startAngle, r, unstable, dir := fneg (lit 1)
             totalAngle := lit (2 * piConst) -. totalAngle }
  else
    return { centre, startAngle, r, unstable, dir := lit 1, totalAngle }

/-- cirarc.go:55-57 -/
def pointAt (arc : CirArc S) (t : S) : Vec S :=
  (Vec.ofRad (arc.startAngle +. arc.dir *. t *. arc.totalAngle) arc.r).add arc.centre

end CirArc

/-- Go's `make([]T, n)` with elements of `size` bytes: panics for a negative or absurd length. -/
def makeCheck (size n : Int) : Result Unit :=
  if n < 0 ∨ size * n > 281474976710656 then .error .panic else .ok ()

section
variable [GoLibm D]

/-- approximation.go:18-20: the lines `i, …, segments-1`, `k` of them left -/
def arcLoop (arc : CirArc S) (segments : Int) : Nat → Int → List (Linear S)
  | 0, _ => []
  | k + 1, i =>
    ⟨arc.pointAt (ofInt i /. ofInt segments), arc.pointAt (ofInt (i + 1) /. ofInt segments)⟩
      :: arcLoop arc segments k (i + 1)

/-- approximation.go:7-23 -/
def approximateCircularArc (fuel : Nat) (pt1 pt2 pt3 : Vec S) (detail : S) :
    Result (List (Linear S)) := do
  let arc ← CirArc.new fuel pt1 pt2 pt3
  if arc.unstable then return [⟨pt1, pt2⟩, ⟨pt2, pt3⟩]
  else
    let segments := trunc (arc.r *. arc.totalAngle *. detail)
    makeCheck 16 segments
    return arcLoop arc segments segments.toNat 0
end

/-- catmull.go:36-42, one coordinate -/
def catmullCoord (a b c d t : S) : S :=
  let t2 := t *. t
  let t3 := t *. t2
  lit 0.5 *. (lit 2 *. b +. (fneg a +. c) *. t +.
    (lit 2 *. a -. lit 5 *. b +. lit 4 *. c -. d) *. t2 +.
    (fneg a +. lit 3 *. b -. lit 3 *. c +. d) *. t3)

/-- catmull.go:32-42 -/
def catmullPoint (p1 p2 p3 p4 : Vec S) (t : S) : Vec S :=
  ⟨catmullCoord p1.x p2.x p3.x p4.x t, catmullCoord p1.y p2.y p3.y p4.y t⟩

/-- approximation.go:30-32 -/
def catmullLoop (p1 p2 p3 p4 : Vec S) (detail : Int) : Nat → Int → List (Linear S)
  | 0, _ => []
  | k + 1, i =>
    ⟨catmullPoint p1 p2 p3 p4 (ofInt i /. ofInt detail),
     catmullPoint p1 p2 p3 p4 (ofInt (i + 1) /. ofInt detail)⟩
      :: catmullLoop p1 p2 p3 p4 detail k (i + 1)

/-- approximation.go:25-35 with `detail = 50`. `NewCatmull` also computes `ApproxLength`
(catmull.go:21-27), which nobody reads; that loop is left out. -/
def approximateCatmullRom (p1 p2 p3 p4 : Vec S) : List (Linear S) :=
  catmullLoop p1 p2 p3 p4 50 50 0

/-- approximation.go:40-44: consecutive points joined by lines -/
def joinPoints : List (Vec S) → List (Linear S)
  | a :: b :: rest => ⟨a, b⟩ :: joinPoints (b :: rest)
  | _ => []

/-- approximation.go:37-47 -/
def approximateBezier (fuel : Nat) (points : List (Vec S)) : Result (List (Linear S)) := do
  let extracted ← Approximator.createBezier fuel points
  return joinPoints extracted

/-- multicurve.go:183-193 -/
def processLinear : List (Vec S) → List (Linear S)
  | a :: b :: rest => if a.eq b then processLinear (b :: rest) else ⟨a, b⟩ :: processLinear (b :: rest)
  | _ => []

/-- multicurve.go:198-216, from index `i`; `k` bounds the number of iterations left -/
def processBezierLoop (fuel : Nat) (points : List (Vec S)) :
    Nat → Nat → Nat → Result (List (Linear S))
  | 0, _, _ => .ok []
  | k + 1, i, lastIndex =>
    match points[i]? with
    | none => .ok []
    | some p =>
      let multi := decide (i + 2 < points.length) &&
        (match points[i + 1]? with | some q => p.eq q | none => false)
      if multi || i + 1 == points.length then do
        let subPoints := (points.drop lastIndex).take (i + 1 - lastIndex)
        let ls ← match subPoints with
          | [a, b] => pure [⟨a, b⟩]
          | _ => approximateBezier fuel subPoints
        let i := if multi then i + 1 else i
        let rest ← processBezierLoop fuel points k (i + 1) i
        return ls ++ rest
      else processBezierLoop fuel points k (i + 1) lastIndex

/-- multicurve.go:195-219 -/
def processBezier (fuel : Nat) (points : List (Vec S)) : Result (List (Linear S)) :=
  processBezierLoop fuel points points.length 0 0

/-- multicurve.go:222-246; `p1` is the previous point (or the first one again) -/
def processCatmullLoop : Vec S → List (Vec S) → List (Linear S)
  | p1, p2 :: p3 :: rest =>
    let p4 := match rest with
      | p :: _ => p
      | [] => p3.add (p3.sub p2)
    approximateCatmullRom p1 p2 p3 p4 ++ processCatmullLoop p2 (p3 :: rest)
  | _, _ => []

/-- multicurve.go:221-249 -/
def processCatmull (points : List (Vec S)) : List (Linear S) :=
  match points with
  | [] => []
  | p :: _ => processCatmullLoop p points

section
variable [GoLibm D]

/-- multicurve.go:171-181 -/
def processPerfect (fuel : Nat) (points : List (Vec S)) : Result (List (Linear S)) :=
  if points.length > 3 then processBezier fuel points
  else match points with
    | [a, b, c] =>
      if Vec.isStraightLine a b c then .ok (processLinear points)
      else approximateCircularArc fuel a b c (lit 0.125)
    | _ => .ok (processLinear points)

/-- multicurve.go:19-30 -/
def processType (fuel : Nat) (typ : Str) (points : List (Vec S)) : Result (List (Linear S)) :=
  if typ = ['P'] then processPerfect fuel points
  else if typ = ['L'] then .ok (processLinear points)
  else if typ = ['B'] then processBezier fuel points
  else if typ = ['C'] then .ok (processCatmull points)
  else .ok []
end

/-- multicurve.go:11-16 -/
structure MultiCurve (S : Type) where
  sections : List S
  lines : List (Linear S)
  length : S
  firstPoint : Vec S

namespace MultiCurve

/-- multicurve.go:32-36 and 75-79 -/
def totalLength (lines : List (Linear S)) : S :=
  lines.foldl (fun acc l => acc +. l.getLength) (lit 0)

/-- multicurve.go:44-47 and 85-88: `sections[i+1], …` from the running sum `prev` -/
def sectionsFrom : S → List (Linear S) → List S
  | _, [] => []
  | prev, l :: ls => let next := prev +. l.getLength; next :: sectionsFrom next ls

/-- multicurve.go:40-47 and 81-88 -/
def mkSections (lines : List (Linear S)) : List S := lit 0 :: sectionsFrom (lit 0) lines

/-- multicurve.go:58-72 on the reversed list of lines -/
def trimRev : List (Linear S) → D → List (Linear S)
  | [], _ => []
  | line :: rest, diff =>
    if up line.getLength >. diff +. lit 0.0001 then
      (if line.p1.eq line.p2 then line
       else ⟨line.p1, line.pointAt ((line.getLength -. down diff) /. line.getLength)⟩) :: rest
    else trimRev rest (diff -. up line.getLength)

variable [GoLibm D]

/-- multicurve.go:18-50 and 52-91 (`NewMultiCurve` is inlined; the sections it computes are
overwritten) -/
def newT (fuel : Nat) (typ : Str) (points : List (Vec S)) (desiredLength : D) :
    Result (MultiCurve S) := do
  let lines ← processType fuel typ points
  let firstPoint ← index points 0
  let length := totalLength lines
  let lines :=
    if length >. lit 0 then (trimRev lines.reverse (up length -. desiredLength)).reverse else lines
  return { lines, firstPoint, length := totalLength lines, sections := mkSections lines }

omit [GoLibm D] in
/-- multicurve.go:98-105 (also 131-138): the index of the line that contains the position -/
def lineIndex (mc : MultiCurve S) (desiredWidth : S) : Int :=
  let withoutFirst := mc.sections.tail
  let idx := search withoutFirst.length (fun i =>
    match withoutFirst[i]? with
    | some s => s >=. desiredWidth
    | none => true)
  minI idx ((mc.lines.length : Int) - 1)

omit [GoLibm D] in
/-- multicurve.go:93-112 -/
def pointAt (mc : MultiCurve S) (t : S) : Result (Vec S) :=
  if mc.lines.length == 0 || mc.length ==. lit 0 then .ok mc.firstPoint
  else do
    let desiredWidth := mc.length *. clampF32 t (lit 0) (lit 1)
    let idx := mc.lineIndex desiredWidth
    let hi ← index mc.sections (idx + 1)
    let lo ← index mc.sections idx
    let line ← index mc.lines idx
    if hi -. lo ==. lit 0 then return line.p1
    else return line.pointAt ((desiredWidth -. lo) /. (hi -. lo))

end MultiCurve
end GosuPP
