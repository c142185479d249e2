import Verif.Model.Utils

/-!
# `math/vector/vector2f.go`
-/

namespace GosuPP
open Go

/-- vector2f.go:10-12 -/
@[ext] structure Vec (S : Type) where
  x : S
  y : S
  deriving DecidableEq

namespace Vec
variable {S D : Type} [GoFloat S] [GoFloat D] [GoConv S D]

/-- the Go zero value `vector.Vector2f{}` -/
def zero : Vec S := ⟨lit 0, lit 0⟩
/-- vector2f.go:34-36 -/
def add (v v1 : Vec S) : Vec S := ⟨v.x +. v1.x, v.y +. v1.y⟩
/-- vector2f.go:42-44 -/
def sub (v v1 : Vec S) : Vec S := ⟨v.x -. v1.x, v.y -. v1.y⟩
/-- vector2f.go:58-60 -/
def dot (v v1 : Vec S) : S := v.x *. v1.x +. v.y *. v1.y
/-- vector2f.go:62-67 -/
def dst (v v1 : Vec S) : S :=
  let x := v1.x -. v.x
  let y := v1.y -. v.y
  Math32.sqrt (x *. x +. y *. y)
/-- vector2f.go:100-105 -/
def lerp (v v1 : Vec S) (t : S) : Vec S :=
  ⟨(v1.x -. v.x) *. t +. v.x, (v1.y -. v.y) *. t +. v.y⟩
/-- vector2f.go:117-119 -/
def len (v : Vec S) : S := Math32.sqrt (v.x *. v.x +. v.y *. v.y)
/-- vector2f.go:121-123 -/
def lenSq (v : Vec S) : S := v.x *. v.x +. v.y *. v.y
/-- vector2f.go:125-127 -/
def scl (v : Vec S) (mag : S) : Vec S := ⟨v.x *. mag, v.y *. mag⟩
/-- Go's `==` on `Vector2f` -/
def eq (v w : Vec S) : Bool := v.x ==. w.x && v.y ==. w.y
/-- vector2f.go:137-139 -/
def isStraightLine (a b c : Vec S) : Bool :=
  Math32.abs ((b.y -. a.y) *. (c.x -. a.x) -. (b.x -. a.x) *. (c.y -. a.y)) <. lit 0.001

variable [GoLibm D]
/-- vector2f.go:18-20 -/
def ofRad (rad length : S) : Vec S := ⟨Math32.cos rad *. length, Math32.sin rad *. length⟩
/-- vector2f.go:96-98 -/
def angleRV (v v1 : Vec S) : S := Math32.atan2 (v.y -. v1.y) (v.x -. v1.x)

end Vec
end GosuPP
