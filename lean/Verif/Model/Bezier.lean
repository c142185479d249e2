import Verif.Model.Vector

/-!
# `math/curves/bezierapproximator.go` and `math/curves/bezier.go`

The approximator recycles buffers and, in `Approximate`, passes the same slice as scratch
space and as output. The model therefore has an explicit memory: a list of buffers, where a
slice is an address. Address 0 is `subdivisionBuffer1`, address 1 is `subdivisionBuffer2`, address 2
is the slice of control points that the caller passed.
-/

namespace GosuPP
open Go

variable {S : Type} [GoFloat S]

/-- The buffers that the approximator works on. -/
abbrev Mem (S : Type) := List (List (Vec S))

namespace Mem

/-- `buf[i]` -/
def read (m : Mem S) (a i : Nat) : Result (Vec S) :=
  match m[a]? with
  | none => .error .panic
  | some b => match b[i]? with
    | none => .error .panic
    | some v => .ok v

/-- `buf[i] = v` -/
def write (m : Mem S) (a i : Nat) (v : Vec S) : Result (Mem S) :=
  match m[a]? with
  | none => .error .panic
  | some b => if i < b.length then .ok (m.set a (b.set i v)) else .error .panic

end Mem

/-- bezierapproximator.go:51-59, as a recursion over the list of control points: `i` ranges
over the inner points -/
def isFlatEnough : List (Vec S) → Bool
  | a :: b :: c :: rest =>
    if (Vec.add (Vec.sub a (Vec.scl b (lit 2))) c).lenSq >. lit 0.25 then false
    else isFlatEnough (b :: c :: rest)
  | _ => true

namespace Approximator

/-- bezierapproximator.go:64-66 and 146-148: `for i := i; i < n; i++ { dst[i] = src[i] }`,
with `k = n - i` iterations left -/
def copyLoop (dst src : Nat) : Nat → Nat → Mem S → Result (Mem S)
  | 0, _, m => .ok m
  | k + 1, i, m => do
    let v ← m.read src i
    let m ← m.write dst i v
    copyLoop dst src k (i + 1) m

/-- bezierapproximator.go:72-75: the inner loop, `k` iterations left -/
def midLoop : Nat → Nat → Mem S → Result (Mem S)
  | 0, _, m => .ok m
  | k + 1, j, m => do
    let a ← m.read 0 j
    let b ← m.read 0 (j + 1)
    let m ← m.write 0 j ((a.add b).scl (lit 0.5))
    midLoop k (j + 1) m

/-- bezierapproximator.go:68-76: the outer loop, `k = count - i` iterations left -/
def subdivideLoop (count l r : Nat) : Nat → Nat → Mem S → Result (Mem S)
  | 0, _, m => .ok m
  | k + 1, i, m => do
    let v ← m.read 0 0
    let m ← m.write l i v
    let w ← m.read 0 (count - i - 1)
    let m ← m.write r (count - i - 1) w
    let m ← midLoop (count - i - 1) 0 m
    subdivideLoop count l r k (i + 1) m

/-- bezierapproximator.go:61-77 -/
def subdivide (count cp l r : Nat) (m : Mem S) : Result (Mem S) := do
  let m ← copyLoop 0 cp count 0 m
  subdivideLoop count l r count 0 m

/-- bezierapproximator.go:85-87: `l[count+i] = r[i+1]`, `k` iterations left -/
def joinLoop (count l r : Nat) : Nat → Nat → Mem S → Result (Mem S)
  | 0, _, m => .ok m
  | k + 1, i, m => do
    let v ← m.read r (i + 1)
    let m ← m.write l (count + i) v
    joinLoop count l r k (i + 1) m

/-- bezierapproximator.go:91-95: `k` iterations left -/
def emitLoop (l : Nat) : Nat → Nat → Mem S → List (Vec S) → Result (List (Vec S))
  | 0, _, _, out => .ok out
  | k + 1, i, m, out => do
    let a ← m.read l (2 * i - 1)
    let b ← m.read l (2 * i)
    let c ← m.read l (2 * i + 1)
    emitLoop l k (i + 1) m (out ++ [((a.add (b.scl (lit 2))).add c).scl (lit 0.25)])

/-- bezierapproximator.go:79-96: `l` is buffer 1, `r` is buffer 0, which is also the scratch
space of `subdivide` -/
def approximate (count cp : Nat) (m : Mem S) (out : List (Vec S)) :
    Result (Mem S × List (Vec S)) := do
  let m ← subdivide count cp 1 0 m
  let m ← joinLoop count 1 0 (count - 1) 0 m
  let first ← m.read cp 0
  let out ← emitLoop 1 (count - 2) 1 m (out ++ [first])
  return (m, out)

/-- State of the loop of `CreateBezier`: memory, `toFlatten`, `freeBuffers` (tops first),
output. -/
structure State (S : Type) where
  mem : Mem S
  toFlatten : List Nat
  free : List Nat
  out : List (Vec S)

/-- bezierapproximator.go:123-151: one iteration, for `parent` already popped -/
def step (count parent : Nat) (st : State S) : Result (State S) :=
  match st.mem[parent]? with
  | none => .error .panic
  | some cps =>
    if isFlatEnough cps then do
      let (mem, out) ← approximate count parent st.mem st.out
      return { st with mem, out, free := parent :: st.free }
    else do
      let (right, free, mem) := match st.free with
        | b :: free => (b, free, st.mem)
        | [] => (st.mem.length, [], st.mem ++ [List.replicate count Vec.zero])
      let mem ← subdivide count parent 1 right mem
      let mem ← copyLoop parent 1 count 0 mem
      return { mem, free, out := st.out, toFlatten := parent :: right :: st.toFlatten }

/-- bezierapproximator.go:122-152 -/
def loop (count : Nat) : Nat → State S → Result (State S)
  | 0, _ => .error .hang
  | fuel + 1, st =>
    match st.toFlatten with
    | [] => .ok st
    | parent :: rest => do
      let st ← step count parent { st with toFlatten := rest }
      loop count fuel st

/-- bezierapproximator.go:47-49 and 98-156, with the memory at the end. The caller's control points
are buffer 2, the copy `nCP` is buffer 3. `NewBezierApproximator` allocates a slice of
length `2*len-1`, which panics for an empty list of control points. -/
def createBezierState (fuel : Nat) (cps : List (Vec S)) : Result (State S) :=
  if cps.length = 0 then .error .panic
  else do
    let count := cps.length
    let mem ← copyLoop 3 2 count 0
      [List.replicate count Vec.zero, List.replicate (2 * count - 1) Vec.zero, cps,
       List.replicate count Vec.zero]
    let st ← loop count fuel { mem, toFlatten := [3], free := [], out := [] }
    let last ← st.mem.read 2 (count - 1)
    return { st with out := st.out ++ [last] }

/-- bezierapproximator.go:98-156, the returned slice -/
def createBezier (fuel : Nat) (cps : List (Vec S)) : Result (List (Vec S)) := do
  return (← createBezierState fuel cps).out

end Approximator

/-- bezier.go:92-94: `k - i + 1` iterations left -/
def binomialLoop (n : Int) : Nat → Int → Int → Int
  | 0, _, c => c
  | k + 1, i, c => binomialLoop n k (i + 1) (c * ((n + 1 - i).tdiv i))

/-- bezier.go:80-97; Go's integer division truncates. Overflow of `c` is not modelled. -/
def binomialCoefficient (n k : Int) : Int :=
  if k < 0 ∨ k > n then 0
  else if k = 0 ∨ k = n then 1
  else
    let k := if k < n - k then k else n - k
    binomialLoop n k.toNat 1 1

end GosuPP
