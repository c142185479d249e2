import Verif.Go.IEEE

/-!
# The native instance

Used only to run the model (`Verif/Exec/Main.lean`) and compare it with the values that
the tests of `/repo` expect. No theorem mentions it.
-/

namespace Go.Native

/-- Exact value of a native float as a software float. -/
def toF64 (x : Float) : F64 :=
  if x.isNaN then .nan
  else if x.isInf then .inf (x < 0)
  else if x == 0 then .fin 0 (1 / x < 0)
  else
    let (m, e) := x.frExp
    let n : Int := (m.scaleB 53).toInt64.toInt
    .fin ((n : ℚ) * pow2 (e - 53)) false

def ofF64 : F64 → Float
  | .nan => 0 / 0
  | .inf s => if s then -1 / 0 else 1 / 0
  | .fin v nz =>
    if v = 0 then (if nz then -0.0 else 0.0)
    else
      let e := ulpExp fmt64 |v|
      let m : Int := ⌊|v| / pow2 e⌋
      let r := (Float.ofInt m).scaleB e
      if v < 0 then -r else r

def truncF (x : Float) : Int :=
  if x.isNaN || x >= 9223372036854775808.0 || x < -9223372036854775808.0 then -9223372036854775808
  else x.toInt64.toInt

def isNegF (x : Float) : Bool := x < 0 || (x == 0 && 1 / x < 0)

instance : GoFloat Float where
  add := (· + ·)
  sub := (· - ·)
  mul := (· * ·)
  div := (· / ·)
  neg := (- ·)
  lt a b := a < b
  le a b := a <= b
  eq a b := a == b
  lit q := ofF64 (Fl.ofRat fmt64 q false)
  ofInt n := ofF64 (Fl.ofRat fmt64 n false)
  trunc := truncF
  nan := 0 / 0
  inf s := if s then -1 / 0 else 1 / 0
  isNaN := Float.isNaN
  isPosInf x := x == 1 / 0
  isNegInf x := x == -1 / 0
  signbit := isNegF
  floor := Float.floor
  ceil := Float.ceil
  abs := Float.abs
  sqrt := Float.sqrt
  fmod a b := ofF64 (Fl.fmod (toF64 a) (toF64 b))

instance : GoFloat Float32 where
  add := (· + ·)
  sub := (· - ·)
  mul := (· * ·)
  div := (· / ·)
  neg := (- ·)
  lt a b := a < b
  le a b := a <= b
  eq a b := a == b
  lit q := (ofF64 (match Fl.ofRat fmt32 q false with
    | .nan => .nan | .inf s => .inf s | .fin v z => .fin v z)).toFloat32
  ofInt n := (ofF64 (match Fl.ofRat fmt32 n false with
    | .nan => .nan | .inf s => .inf s | .fin v z => .fin v z)).toFloat32
  trunc x := truncF x.toFloat
  nan := 0 / 0
  inf s := if s then -1 / 0 else 1 / 0
  isNaN := Float32.isNaN
  isPosInf x := x == 1 / 0
  isNegInf x := x == -1 / 0
  signbit x := isNegF x.toFloat
  floor := Float32.floor
  ceil := Float32.ceil
  abs := Float32.abs
  sqrt := Float32.sqrt
  fmod a b := (ofF64 (Fl.fmod (toF64 a.toFloat) (toF64 b.toFloat))).toFloat32

instance : GoConv Float32 Float where
  up := Float32.toFloat
  down := Float.toFloat32

instance : GoLibm Float where
  pow := Float.pow
  sin := Float.sin
  cos := Float.cos
  acos := Float.acos
  atan2 := Float.atan2
  log10 := Float.log10
  cbrt := Float.cbrt

end Go.Native
