import Verif.Model.Curves

/-!
# `math/curves/bezier.go`: the type `Bezier`

Sliders do not use it, they are made of `BezierApproximator` lines.
-/

namespace GosuPP
open Go

variable {S D : Type} [GoFloat S] [GoFloat D] [GoConv S D]

/-- bezier.go:9-13 -/
structure BezierCurve (S : Type) where
  points : List (Vec S)
  controlLength : S
  approxLength : S

namespace BezierCurve

/-- bezier.go:28-30 -/
def controlLoop : S → List (Vec S) → S
  | acc, a :: b :: rest => controlLoop (acc +. b.dst a) (b :: rest)
  | acc, _ => acc

/-- bezier.go:25-35 -/
def newNA (points : List (Vec S)) : BezierCurve S :=
  let controlLength := controlLoop (lit 0) points
  { points, controlLength, approxLength := controlLength }

variable [GoLibm D]

/-- bezier.go:100-102 -/
def bernstein (i n : Int) (t : S) : S :=
  ofInt (binomialCoefficient n i) *. Math32.pow t (ofInt i) *. Math32.pow (lit 1 -. t) (ofInt (n - i))

/-- bezier.go:58-62, from index `i` -/
def pointLoop (n : Int) (t : S) : Int → List (Vec S) → Vec S → Vec S
  | _, [], p => p
  | i, q :: qs, p =>
    let b := bernstein i n t
    pointLoop n t (i + 1) qs ⟨p.x +. q.x *. b, p.y +. q.y *. b⟩

/-- bezier.go:56-65 -/
def pointAt (bz : BezierCurve S) (t : S) : Vec S :=
  pointLoop ((bz.points.length : Int) - 1) t 0 bz.points Vec.zero

/-- bezier.go:44-50: sections `i, i+1, …`, `k` of them -/
def lengthLoop (bz : BezierCurve S) (sections : S) : Nat → Int → Vec S → S → S
  | 0, _, _, length => length
  | k + 1, i, previous, length =>
    let current := bz.pointAt (ofInt i /. sections)
    lengthLoop bz sections k (i + 1) current (length +. current.dst previous)

/-- bezier.go:38-53 -/
def calculateLength (bz : BezierCurve S) : Result (BezierCurve S) := do
  let sections := Math32.ceil bz.controlLength
  let previous ← index bz.points 0
  return { bz with approxLength := lengthLoop bz sections (trunc sections).toNat 1 previous (lit 0) }

/-- bezier.go:16-21 -/
def new (points : List (Vec S)) : Result (BezierCurve S) := calculateLength (newNA points)

/-- bezier.go:71-73 -/
def getStartAngle (bz : BezierCurve S) : Result S := do
  let p ← index bz.points 0
  return p.angleRV (bz.pointAt (lit 1 /. bz.controlLength))

/-- bezier.go:75-77 -/
def getEndAngle (bz : BezierCurve S) : Result S := do
  let p ← index bz.points ((bz.points.length : Int) - 1)
  return p.angleRV (bz.pointAt (lit 1 -. lit 1 /. bz.controlLength))

end BezierCurve
end GosuPP
