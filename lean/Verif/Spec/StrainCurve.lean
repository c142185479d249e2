import Verif.Spec.Sections
import Mathlib.Analysis.SpecialFunctions.Pow.Real
import Mathlib.Algebra.BigOperators.Intervals

/-!
# Strain over time

The hits of a map are numbered from 1; `τ n` is the time of hit `n` in milliseconds. A hit adds to the strain, which
decays exponentially. The strain counts times a factor of the last hit. The peak of a section of 400 ms is the greatest
strain in it, also counting what is left at its start.
-/

namespace GosuPP.Spec

/-- The strain at hit `n`, where hit `j` adds `v j` and a second leaves the share `b`. -/
noncomputable def strainAt (b : ℝ) (τ v : ℕ → ℝ) (n : ℕ) : ℝ := ∑ j ∈ Finset.Icc 1 n, v j * b ^ ((τ n - τ j) / 1000)

/-- Hit `n` is the last of `k` hits before section `s`. -/
structure LastBefore (τ : ℕ → ℝ) (k n : ℕ) (s : ℤ) : Prop where
  pos : 1 ≤ n
  le : n ≤ k
  before : section400 (τ n) < s
  last : ∀ j, n < j → j ≤ k → s ≤ section400 (τ j)

/-- What the strain is in section `s`: at its hits, and at its start. -/
def SectionStrains (b : ℝ) (τ v β : ℕ → ℝ) (k : ℕ) (s : ℤ) : Set ℝ :=
  {x | ∃ n, 1 ≤ n ∧ n ≤ k ∧ section400 (τ n) = s ∧ x = strainAt b τ v n * β n} ∪
  {x | ∃ n, LastBefore τ k n s ∧ x = strainAt b τ v n * β n * b ^ ((400 * ((s : ℝ) - 1) - τ n) / 1000)}

/-- The peaks of the sections from that of the first of `k` hits to that of the last. -/
structure PeakList (b : ℝ) (τ v β : ℕ → ℝ) (k : ℕ) (l : List (Option ℝ)) : Prop where
  length : (l.length : ℤ) = section400 (τ k) - section400 (τ 1) + 1
  peak : ∀ (i : ℕ) x, l[i]? = some x → ∃ y, x = some y ∧ IsGreatest (SectionStrains b τ v β k (section400 (τ 1) + i)) y

end GosuPP.Spec
