import Mathlib.Data.Rat.Floor

/-!
# Go run time faults and Go floating point, as law-free interfaces

The code in `/repo` uses `float32` for positions and `float64` for everything
else. The model is polymorphic in these two types. `GoFloat` collects the
operations of the Go language and the exactly specified functions of package `math`.
No laws are assumed: a theorem stated for an arbitrary instance holds for whatever
the machine computes.
-/

namespace Go

/-- What can go wrong in a Go call: a run-time panic, or not returning at all. -/
inductive Fault where
  | panic
  | hang
  deriving DecidableEq, Repr

/-- The result of a Go call that may panic or (when it runs out of fuel) hang. -/
abbrev Result (α : Type _) := Except Fault α

/-- Go's index expression `a[i]` with `i : int`: panics when out of range. -/
def index {α : Type _} (a : List α) (i : Int) : Result α :=
  if i < 0 then .error .panic
  else match a[i.toNat]? with
    | some x => .ok x
    | none => .error .panic

/-- Operations of a Go floating point type, without laws. -/
class GoFloat (F : Type) where
  add : F → F → F
  sub : F → F → F
  mul : F → F → F
  div : F → F → F
  neg : F → F
  lt : F → F → Bool
  le : F → F → Bool
  eq : F → F → Bool
  /-- conversion of an (exact, untyped) Go constant or of a decimal literal read from a file -/
  lit : ℚ → F
  /-- conversion from an integer type, `float64(n)` -/
  ofInt : Int → F
  /-- conversion to a 64-bit integer type, `int(x)` / `int64(x)` -/
  trunc : F → Int
  nan : F
  /-- `math.Inf`; the argument says whether the infinity is negative -/
  inf : Bool → F
  isNaN : F → Bool
  isPosInf : F → Bool
  isNegInf : F → Bool
  signbit : F → Bool
  floor : F → F
  ceil : F → F
  abs : F → F
  sqrt : F → F
  fmod : F → F → F

/-- Functions of package `math` (on `float64`) whose last bits are not specified. -/
class GoLibm (D : Type) where
  pow : D → D → D
  sin : D → D
  cos : D → D
  acos : D → D
  atan2 : D → D → D
  log10 : D → D
  cbrt : D → D

/-- The conversions `float64(x)` of a `float32` and `float32(x)` of a `float64`. -/
class GoConv (S : Type) (D : outParam Type) where
  up : S → D
  down : D → S

export GoFloat (lit ofInt trunc)
export GoConv (up down)

scoped infixl:65 " +. " => GoFloat.add
scoped infixl:65 " -. " => GoFloat.sub
scoped infixl:70 " *. " => GoFloat.mul
scoped infixl:70 " /. " => GoFloat.div
scoped infix:50 " <. " => GoFloat.lt
scoped infix:50 " <=. " => GoFloat.le
scoped infix:50 " ==. " => GoFloat.eq
/-- Go `x > y` -/
scoped notation:50 x:51 " >. " y:51 => GoFloat.lt y x
/-- Go `x >= y` -/
scoped notation:50 x:51 " >=. " y:51 => GoFloat.le y x
/-- Go unary minus -/
abbrev fneg {F : Type} [GoFloat F] (x : F) : F := GoFloat.neg x

section
variable {F : Type} [GoFloat F]

/-- Go `math.Max` (package `math`, `dim.go`): infinities, then NaN, then signed zeros. -/
def fmax (x y : F) : F :=
  if GoFloat.isPosInf x || GoFloat.isPosInf y then GoFloat.inf false
  else if GoFloat.isNaN x || GoFloat.isNaN y then GoFloat.nan
  else if x ==. lit 0 && x ==. y then (if GoFloat.signbit x then y else x)
  else if x >. y then x else y

/-- Go `math.Min` (package `math`, `dim.go`). -/
def fmin (x y : F) : F :=
  if GoFloat.isNegInf x || GoFloat.isNegInf y then GoFloat.inf true
  else if GoFloat.isNaN x || GoFloat.isNaN y then GoFloat.nan
  else if x ==. lit 0 && x ==. y then (if GoFloat.signbit x then x else y)
  else if x <. y then x else y

/-- The untyped constant `math.Pi` of Go, which has more digits than a `float64`. -/
def piConst : ℚ := 3.14159265358979323846264338327950288419716939937510582097494459

end

end Go
