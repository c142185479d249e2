import Verif.Go.Float

/-!
# IEEE-754 binary floating point, executable

Values are exact rationals, infinities and a single NaN. Every operation is the exact
one followed by rounding to nearest, ties to even, which is what the Go
specification and amd64 prescribe for `float32` and `float64`.
-/

namespace Go

/-- A binary format: precision `p`, exponent of the least subnormal `emin`,
overflow threshold `2 ^ emax`. -/
structure Fmt where
  p : Nat
  emin : Int
  emax : Int
  deriving DecidableEq

/-- binary64, Go's `float64` -/
abbrev fmt64 : Fmt := ⟨53, -1074, 1024⟩
/-- binary32, Go's `float32` -/
abbrev fmt32 : Fmt := ⟨24, -149, 128⟩

/-- `2 ^ e`, written so that the kernel evaluates it quickly. -/
def pow2 : Int → ℚ
  | .ofNat n => ((2 ^ n : Nat) : ℚ)
  | .negSucc n => 1 / ((2 ^ (n + 1) : Nat) : ℚ)

/-- `⌊log2 q⌋` for positive `q`. -/
def ilog2 (q : ℚ) : Int :=
  let k : Int := (Nat.log2 q.num.toNat : Int) - (Nat.log2 q.den : Int)
  if pow2 k ≤ q then k else k - 1

/-- Nearest integer, ties to even. -/
def roundEven (q : ℚ) : Int :=
  let f := ⌊q⌋
  let r := q - f
  if r < 1 / 2 then f
  else if 1 / 2 < r then f + 1
  else if f % 2 = 0 then f else f + 1

/-- The exponent of the last place used for a number of the size of `q > 0`. -/
def ulpExp (f : Fmt) (q : ℚ) : Int := max (ilog2 q + 1 - f.p) f.emin

/-- Rounding of a positive rational with unbounded upper exponent. -/
def rndPos (f : Fmt) (q : ℚ) : ℚ :=
  let e := ulpExp f q
  roundEven (q / pow2 e) * pow2 e

/-- Rounding of a rational with unbounded upper exponent. -/
def rnd (f : Fmt) (q : ℚ) : ℚ :=
  if q = 0 then 0 else if q < 0 then -rndPos f (-q) else rndPos f q

/-- Floating point values of a format. `nz` is the sign of a zero. -/
inductive Fl (f : Fmt) where
  | nan
  | inf (neg : Bool)
  | fin (v : ℚ) (nz : Bool)
  deriving DecidableEq

abbrev F64 := Fl fmt64
abbrev F32 := Fl fmt32

namespace Fl
variable {f g : Fmt}

/-- Rounding with overflow to infinity; `z` is the sign given to an exact zero. -/
def ofRat (f : Fmt) (q : ℚ) (z : Bool) : Fl f :=
  let r := rnd f q
  if pow2 f.emax ≤ |r| then .inf (decide (q < 0))
  else .fin r (decide (r = 0) && (if q = 0 then z else decide (q < 0)))

def signbit : Fl f → Bool
  | nan => false
  | inf s => s
  | fin v nz => if v = 0 then nz else decide (v < 0)

def neg : Fl f → Fl f
  | nan => nan
  | inf s => inf (!s)
  | fin v nz => fin (-v) (decide (v = 0) && !nz)

def add : Fl f → Fl f → Fl f
  | nan, _ => nan
  | _, nan => nan
  | inf s, inf t => if s = t then inf s else nan
  | inf s, fin _ _ => inf s
  | fin _ _, inf t => inf t
  | fin v a, fin w b => ofRat f (v + w) (signbit (fin v a : Fl f) && signbit (fin w b : Fl f))

def sub (x y : Fl f) : Fl f := add x (neg y)

def mul : Fl f → Fl f → Fl f
  | nan, _ => nan
  | _, nan => nan
  | inf s, inf t => inf (s ^^ t)
  | inf s, fin w b => if w = 0 then nan else inf (s ^^ signbit (fin w b : Fl f))
  | fin v a, inf t => if v = 0 then nan else inf (t ^^ signbit (fin v a : Fl f))
  | fin v a, fin w b => ofRat f (v * w) (signbit (fin v a : Fl f) ^^ signbit (fin w b : Fl f))

def div : Fl f → Fl f → Fl f
  | nan, _ => nan
  | _, nan => nan
  | inf _, inf _ => nan
  | inf s, fin w b => inf (s ^^ signbit (fin w b : Fl f))
  | fin v a, inf t => fin 0 (t ^^ signbit (fin v a : Fl f))
  | fin v a, fin w b =>
    if w = 0 then
      (if v = 0 then nan else inf (signbit (fin v a : Fl f) ^^ signbit (fin w b : Fl f)))
    else ofRat f (v / w) (signbit (fin v a : Fl f) ^^ signbit (fin w b : Fl f))

def lt : Fl f → Fl f → Bool
  | nan, _ => false
  | _, nan => false
  | inf s, inf t => s && !t
  | inf s, fin _ _ => s
  | fin _ _, inf t => !t
  | fin v _, fin w _ => decide (v < w)

def le : Fl f → Fl f → Bool
  | nan, _ => false
  | _, nan => false
  | inf s, inf t => s || !t
  | inf s, fin _ _ => s
  | fin _ _, inf t => !t
  | fin v _, fin w _ => decide (v ≤ w)

def eq : Fl f → Fl f → Bool
  | nan, _ => false
  | _, nan => false
  | inf s, inf t => s == t
  | inf _, fin _ _ => false
  | fin _ _, inf _ => false
  | fin v _, fin w _ => decide (v = w)

/-- `int64(x)` on amd64 (`CVTTSD2SQ`): out of range gives `-2^63`. -/
def trunc : Fl f → Int
  | nan => -9223372036854775808
  | inf _ => -9223372036854775808
  | fin v _ =>
    let t : Int := if v < 0 then ⌈v⌉ else ⌊v⌋
    if -9223372036854775808 ≤ t ∧ t < 9223372036854775808 then t else -9223372036854775808

def isNaN : Fl f → Bool
  | nan => true
  | _ => false

def isPosInf : Fl f → Bool
  | inf false => true
  | _ => false

def isNegInf : Fl f → Bool
  | inf true => true
  | _ => false

def floor : Fl f → Fl f
  | nan => nan
  | inf s => inf s
  | fin v nz => if v = 0 then fin v nz else fin (⌊v⌋ : ℚ) false

/-- Go defines `Ceil(x)` as `-Floor(-x)`. -/
def ceil (x : Fl f) : Fl f := neg (floor (neg x))

def abs : Fl f → Fl f
  | nan => nan
  | inf _ => inf false
  | fin v _ => fin |v| false

/-- Correctly rounded square root of a positive rational. -/
def sqrtPos (f : Fmt) (v : ℚ) : ℚ :=
  let k := ilog2 v / 2
  let e := max (k + 1 - f.p) f.emin
  let s : Nat := Nat.sqrt (⌊v / (pow2 e * pow2 e)⌋).toNat
  let h : ℚ := ((s : ℚ) + 1 / 2) * pow2 e
  if v < h * h then s * pow2 e
  else if h * h < v then (s + 1) * pow2 e
  else if s % 2 = 0 then s * pow2 e else (s + 1) * pow2 e

def sqrt : Fl f → Fl f
  | nan => nan
  | inf s => if s then nan else inf false
  | fin v nz =>
    if v = 0 then fin v nz
    else if v < 0 then nan
    else fin (sqrtPos f v) false

/-- `math.Mod`: exact remainder with the sign of the first argument. -/
def fmod : Fl f → Fl f → Fl f
  | nan, _ => nan
  | _, nan => nan
  | inf _, _ => nan
  | fin v a, inf _ => fin v a
  | fin v a, fin w _ =>
    if w = 0 then nan
    else
      let r := |v| - |w| * (⌊|v| / |w|⌋ : ℚ)
      let s := signbit (fin v a : Fl f)
      fin (if s then -r else r) (decide (r = 0) && s)

/-- Conversion between formats. -/
def cvt (g : Fmt) : Fl f → Fl g
  | nan => nan
  | inf s => inf s
  | fin v nz => ofRat g v nz

instance : GoFloat (Fl f) where
  add := add
  sub := sub
  mul := mul
  div := div
  neg := neg
  lt := lt
  le := le
  eq := eq
  lit q := ofRat f q false
  ofInt n := ofRat f (n : ℚ) false
  trunc := trunc
  nan := nan
  inf := inf
  isNaN := isNaN
  isPosInf := isPosInf
  isNegInf := isNegInf
  signbit := signbit
  floor := floor
  ceil := ceil
  abs := abs
  sqrt := sqrt
  fmod := fmod

instance : GoConv F32 F64 where
  up := cvt fmt64
  down := cvt fmt32

end Fl

end Go
