import Verif.Model.Curves

/-!
# Directions on curves, lengths of arcs and Catmull curves, and the vector functions that only callers use

`linear.go`, `cirarc.go`, `catmull.go`, `multicurve.go`, `vector2f.go`
-/

namespace GosuPP
open Go

variable {S D : Type} [GoFloat S] [GoFloat D] [GoConv S D]

namespace Vec
/-- vector2f.go:38-40 -/
def addS (v : Vec S) (x y : S) : Vec S := ⟨v.x +. x, v.y +. y⟩
/-- vector2f.go:46-48 -/
def subS (v : Vec S) (x y : S) : Vec S := ⟨v.x -. x, v.y -. y⟩
/-- vector2f.go:50-52 -/
def mult (v v1 : Vec S) : Vec S := ⟨v.x *. v1.x, v.y *. v1.y⟩
/-- vector2f.go:54-56 -/
def mid (v v1 : Vec S) : Vec S := ⟨(v.x +. v1.x) /. lit 2, (v.y +. v1.y) /. lit 2⟩
/-- vector2f.go:69-74 -/
def dstSq (v v1 : Vec S) : S :=
  let x := v1.x -. v.x
  let y := v1.y -. v.y
  x *. x +. y *. y
/-- vector2f.go:84-94 with `epsilon` of line 8 -/
def nor (v : Vec S) : Vec S :=
  let length := v.lenSq
  if length <. lit 0.00001 then v
  else
    let length := Math32.sqrt length
    ⟨v.x /. length, v.y /. length⟩
/-- vector2f.go:129-131 -/
def abs (v : Vec S) : Vec S := ⟨Math32.abs v.x, Math32.abs v.y⟩

variable [GoLibm D]
/-- vector2f.go:80-82 -/
def angleR (v : Vec S) : S := Math32.atan2 v.y v.x
/-- vector2f.go:76-78 -/
def angle (v : Vec S) : S := v.angleR *. lit 180 /. CirArc.pi32
/-- vector2f.go:107-115 -/
def rotate (v : Vec S) (rad : S) : Vec S :=
  let cos := Math32.cos rad
  let sin := Math32.sin rad
  ⟨v.x *. cos -. v.y *. sin, v.x *. sin +. v.y *. cos⟩
/-- vector2f.go:141-147 -/
def angleBetween (centre p1 p2 : Vec S) : S :=
  let a := centre.dst p1
  let b := centre.dst p2
  let c := p1.dst p2
  Math32.acos ((a *. a +. b *. b -. c *. c) /. (lit 2 *. a *. b))
end Vec

variable [GoLibm D]

namespace Linear
/-- linear.go:19-21 -/
def getStartAngle (ln : Linear S) : S := ln.p1.angleRV ln.p2
/-- linear.go:23-25 -/
def getEndAngle (ln : Linear S) : S := ln.p2.angleRV ln.p1
end Linear

namespace CirArc
omit [GoFloat D] [GoConv S D] [GoLibm D] in
/-- cirarc.go:59-61 -/
def getLength (arc : CirArc S) : S := arc.r *. arc.totalAngle
/-- cirarc.go:63-65; `pt1` is the first point the arc was made of -/
def getStartAngle (arc : CirArc S) (pt1 : Vec S) : S := pt1.angleRV (arc.pointAt (lit 1 /. arc.getLength))
/-- cirarc.go:67-69; `pt3` is the last point the arc was made of -/
def getEndAngle (arc : CirArc S) (pt3 : Vec S) : S :=
  pt3.angleRV (arc.pointAt ((arc.getLength -. lit 1) /. arc.getLength))
end CirArc

/-- catmull.go:8-11 -/
structure Catmull (S : Type) where
  p1 : Vec S
  p2 : Vec S
  p3 : Vec S
  p4 : Vec S
  approxLength : S

namespace Catmull
omit [GoFloat D] [GoConv S D] [GoLibm D] in
/-- catmull.go:32-34 -/
def pointAt (cm : Catmull S) (t : S) : Vec S := catmullPoint cm.p1 cm.p2 cm.p3 cm.p4 t

omit [GoLibm D] in
/-- catmull.go:25-27: sections `i, i+1, …`, `k` of them -/
def lengthLoop (cm : Catmull S) (pointLength : S) : Nat → Int → S → S
  | 0, _, length => length
  | k + 1, i, length => lengthLoop cm pointLength k (i + 1)
      (length +. (cm.pointAt (ofInt i /. pointLength)).dst (cm.pointAt (ofInt (i - 1) /. pointLength)))

omit [GoLibm D] in
/-- catmull.go:13-30 -/
def new (points : List (Vec S)) : Result (Catmull S) :=
  match points with
  | [p1, p2, p3, p4] =>
    let cm : Catmull S := { p1, p2, p3, p4, approxLength := lit 0 }
    let pointLength := Math32.ceil (p2.dst p3)
    .ok { cm with approxLength := lengthLoop cm pointLength (trunc pointLength).toNat 1 (lit 0) }
  | _ => .error .panic

/-- catmull.go:48-50 -/
def getStartAngle (cm : Catmull S) : S := cm.p1.angleRV (cm.pointAt (lit 1 /. cm.approxLength))
/-- catmull.go:52-54 -/
def getEndAngle (cm : Catmull S) : S :=
  cm.p4.angleRV (cm.pointAt ((cm.approxLength -. lit 1) /. cm.approxLength))
end Catmull

namespace MultiCurve
/-- multicurve.go:118-124 -/
def getStartAngle (mc : MultiCurve S) : S :=
  match mc.lines with
  | l :: _ => l.getStartAngle
  | [] => lit 0

/-- multicurve.go:151-157 -/
def getEndAngle (mc : MultiCurve S) : S :=
  match mc.lines.getLast? with
  | some l => l.getEndAngle
  | none => lit 0

omit [GoLibm D] in
/-- multicurve.go:126-141 -/
def getLineAt (mc : MultiCurve S) (t : S) : Result (Linear S) :=
  if mc.lines.length == 0 then .ok ⟨Vec.zero, Vec.zero⟩
  else
    let desiredWidth := mc.length *. clampF32 t (lit 0) (lit 1)
    index mc.lines (mc.lineIndex desiredWidth)

/-- multicurve.go:143-149 -/
def getStartAngleAt (mc : MultiCurve S) (t : S) : Result S :=
  if mc.lines.length == 0 then .ok (lit 0)
  else do
    let l ← mc.getLineAt t
    return l.getStartAngle

/-- multicurve.go:159-165 -/
def getEndAngleAt (mc : MultiCurve S) (t : S) : Result S :=
  if mc.lines.length == 0 then .ok (lit 0)
  else do
    let l ← mc.getLineAt t
    return l.getEndAngle
end MultiCurve
end GosuPP
