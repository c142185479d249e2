import Verif.Go.Float

/-!
# `math/mutils/utils.go` and `math/math32/math.go`
-/

namespace GosuPP
open Go

namespace Math32
variable {S D : Type} [GoFloat D] [GoConv S D]

/-- math32/math.go:7-9 -/
def abs (v : S) : S := down (GoFloat.abs (up v : D))
/-- math32/math.go:27-29 -/
def ceil (v : S) : S := down (GoFloat.ceil (up v : D))
/-- math32/math.go:55-57 -/
def sqrt (v : S) : S := down (GoFloat.sqrt (up v : D))
/-- math32/math.go:59-61 -/
def max (a b : S) : S := down (fmax (up a : D) (up b))
/-- math32/math.go:63-65 -/
def min (a b : S) : S := down (fmin (up a : D) (up b))
variable [GoLibm D]
/-- math32/math.go:11-13 -/
def acos (v : S) : S := down (GoLibm.acos (up v : D))
/-- math32/math.go:23-25 -/
def atan2 (y x : S) : S := down (GoLibm.atan2 (up y : D) (up x))
/-- math32/math.go:31-33 -/
def cos (v : S) : S := down (GoLibm.cos (up v : D))
/-- math32/math.go:51-53 -/
def sin (v : S) : S := down (GoLibm.sin (up v : D))
/-- math32/math.go:75-77 -/
def pow (a b : S) : S := down (GoLibm.pow (up a : D) (up b))
end Math32

section
variable {S D : Type} [GoFloat D] [GoConv S D]

/-- utils.go:8-10 -/
def clampF32 (x min max : S) : S := Math32.min max (Math32.max min x)

/-- utils.go:12-14 -/
def clampF64 (x min max : D) : D := fmin max (fmax min x)

/-- utils.go:60-62 -/
def lerpF64 (min max t : D) : D := min +. (max -. min) *. t
end

/-- utils.go:16-22 (and 36-42 for `int64`) -/
def minI (a b : Int) : Int := if a < b then a else b

/-- utils.go:24-30 (and 44-50 for `int64`) -/
def maxI (a b : Int) : Int := if a > b then a else b

/-- utils.go:32-34 (and 52-54 for `int64`) -/
def clampI (x min max : Int) : Int := minI max (maxI min x)

end GosuPP
