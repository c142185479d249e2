import Mathlib.Data.List.Perm.Basic
import Mathlib.Data.List.Sort

/-!
# Sorting and binary search

Go's `sort.Slice` is not stable and Go does not specify how it orders ties (nor what it does
if the comparison is not a strict weak order, as happens with NaN), so the model takes the
sorts as an interface with the guarantees of the documentation.
`Go.insertionSort` shows that the interface is inhabited.
-/

namespace Go

/-- The comparison behaves as a strict weak order on the elements of `l`. -/
structure StrictWeak {α : Type} (lt : α → α → Bool) (l : List α) : Prop where
  irrefl : ∀ a ∈ l, lt a a = false
  trans : ∀ a ∈ l, ∀ b ∈ l, ∀ c ∈ l, lt a b = true → lt b c = true → lt a c = true
  negTrans : ∀ a ∈ l, ∀ b ∈ l, ∀ c ∈ l, lt a b = false → lt b c = false → lt a c = false

/-- Documented behaviour of `sort.Slice` and `sort.SliceStable`. -/
class GoSort where
  slice : {α : Type} → (α → α → Bool) → List α → List α
  slice_perm : ∀ {α : Type} (lt : α → α → Bool) (l : List α), (slice lt l).Perm l
  slice_sorted : ∀ {α : Type} (lt : α → α → Bool) (l : List α), StrictWeak lt l →
    (slice lt l).Pairwise (fun a b => lt b a = false)
  stable : {α : Type} → (α → α → Bool) → List α → List α
  stable_perm : ∀ {α : Type} (lt : α → α → Bool) (l : List α), (stable lt l).Perm l
  stable_sorted : ∀ {α : Type} (lt : α → α → Bool) (l : List α), StrictWeak lt l →
    (stable lt l).Pairwise (fun a b => lt b a = false)
  /-- equal elements keep their original order -/
  stable_stable : ∀ {α : Type} (lt : α → α → Bool) (l : List α), StrictWeak lt l →
    ∀ a ∈ l, (stable lt l).filter (fun b => !lt a b && !lt b a) =
      l.filter (fun b => !lt a b && !lt b a)

/-- Insert `x` before the first element that is not less than it. -/
def insertBy {α : Type} (lt : α → α → Bool) (x : α) : List α → List α
  | [] => [x]
  | y :: ys => if lt y x then y :: insertBy lt x ys else x :: y :: ys

/-- Stable insertion sort. -/
def insertionSort {α : Type} (lt : α → α → Bool) : List α → List α
  | [] => []
  | x :: xs => insertBy lt x (insertionSort lt xs)

/-- `sort.Search(n, p)`: binary search for the least `i` in `[lo, hi)` with `p i`
(`for i < j { h := (i+j)/2; if !f(h) { i = h+1 } else { j = h } }`). -/
def searchLoop (p : Nat → Bool) (i j : Nat) : Nat :=
  if h : i < j then
    let m := (i + j) / 2
    if p m then searchLoop p i m else searchLoop p (m + 1) j
  else i
termination_by j - i
decreasing_by all_goals omega

def search (n : Nat) (p : Nat → Bool) : Nat := searchLoop p 0 n

end Go
