import Verif.Model.Objects
import Mathlib.Algebra.Order.Floor.Ring

/-!
# Strain sections

Time is divided into sections of 400 ms, the k-th of which ends at (and includes) time 400 k.
-/

namespace GosuPP.Spec

/-- The section in which time `t` lies. -/
def section400 {K : Type} [Field K] [LinearOrder K] [FloorRing K] (t : K) : ℤ := ⌈t / 400⌉

/-- The number of sections from that of the first time to the last one reached, given the sections
of all times; one if there are no times. -/
def sectionCount : List ℤ → ℕ
  | [] => 1
  | k :: ks => (ks.foldl max k - k).toNat + 1

end GosuPP.Spec
