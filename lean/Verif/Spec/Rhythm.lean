import Verif.Spec.Notes

/-!
# The speed strain of arbitrary maps

Speeding up by more than a quarter starts an *island*: the notes up to the next change of tempo. The rhythm of the
map before note `n` is as complex as the islands among the last notes: at most 32 notes and five seconds.
-/

namespace GosuPP.Spec
open Go

section
variable (r w : ℝ) (x : ℕ → Note)

/-- At note `k` the map gets faster. -/
def Faster (k : ℕ) : Prop := 1.25 * gap r x k < gap r x (k - 1)

/-- At note `k` the map gets slower. -/
def Slower (k : ℕ) : Prop := 1.25 * gap r x (k - 1) < gap r x k

/-- At note `k` the tempo changes. -/
def Switch (k : ℕ) : Prop := Faster r x k ∨ Slower r x k

/-- Changes at note `k` are remembered at note `n`. -/
structure Remembered (n k : ℕ) : Prop where
  third : 3 ≤ k
  before : k < n
  count : n ≤ k + 30
  recent : clock r x n - clock r x k < 5000

/-- An island remembered at note `n`: it starts with `i.1` and ends before `i.2`. -/
structure Island (n : ℕ) (i : ℕ × ℕ) : Prop where
  remembered : Remembered r x n i.1
  starts : Faster r x i.1
  lt : i.1 < i.2
  before : i.2 < n
  ends : Switch r x i.2
  steady : ∀ k, i.1 < k → k < i.2 → ¬ Switch r x k

/-- All islands remembered at note `n`, in order. -/
structure Islands (n : ℕ) (l : List (ℕ × ℕ)) : Prop where
  all : ∀ i, i ∈ l ↔ Island r x n i
  sorted : l.Pairwise fun i j => i.2 ≤ j.1

/-- The number of notes of an island, at most seven count. -/
def islandSize (i : ℕ × ℕ) : ℕ := min 7 (i.2 - i.1)

/-- How much the tempo changes at note `k`: most if one gap is an odd multiple of half the other, and less if the gaps
differ by less than 1.2 hit windows `w`. -/
noncomputable def tempoChange (k : ℕ) : ℝ :=
  min 1 (max 0 (|gap r x (k - 1) - gap r x k| - 0.6 * (w / r)) / (0.6 * (w / r))) *
    (1 + 6 * min 0.5 (Real.sin (goPi / (min (gap r x (k - 1)) (gap r x k) / max (gap r x (k - 1)) (gap r x k))) ^ 2))

/-- How much the change at the end of an island counts after an island of size `s`: it is less if it is on or after
a slider, after an island of the same size or one that is even or odd as well, or if the map gets faster twice. -/
noncomputable def endChange (s : ℕ) (i : ℕ × ℕ) : ℝ :=
  open Classical in
  tempoChange r w x i.2 * (if (x i.2).slide.isSome then 0.125 else 1) * (if (x (i.2 - 1)).slide.isSome then 0.25 else 1) *
    (if s = islandSize i then 0.25 else 1) * (if s % 2 = islandSize i % 2 then 0.5 else 1) *
    (if gap r x (i.2 - 1) + 10 < gap r x (i.2 - 2) ∧ gap r x i.2 + 10 < gap r x (i.2 - 1) then 0.125 else 1)

/-- How much is still remembered of note `k` at note `n`. -/
noncomputable def memory (n k : ℕ) : ℝ :=
  min (1 - ((n : ℝ) - k) / (min (n - 1) 32 : ℕ)) ((5000 - (clock r x n - clock r x k)) / 5000)

/-- The complexity of islands that come after an island of size `s` that ended before note `e` with change `ρ`. -/
noncomputable def complexityAfter (n : ℕ) : ℕ → ℕ → ℝ → List (ℕ × ℕ) → ℝ
  | _, _, _, [] => 0
  | s, e, ρ, i :: l =>
    Real.sqrt (endChange r w x s i * (if i.1 = e then ρ else tempoChange r w x i.1)) * memory r x n i.2 *
      (Real.sqrt (4 + islandSize i) / 2) * (Real.sqrt (4 + s) / 2) +
    complexityAfter n (islandSize i) i.2 (endChange r w x s i) l

/-- The factor by which the strain at note `n` counts, given the islands remembered. -/
noncomputable def rhythmFactor (n : ℕ) (l : List (ℕ × ℕ)) : ℝ :=
  if (x n).spinner then 0 else Real.sqrt (4 + 0.75 * complexityAfter r w x n 0 0 0 l) / 2

/-- The gap before note `n` as far as it can be tapped: within the hit window it can be stretched towards the one before. -/
noncomputable def tapGap (n : ℕ) : ℝ :=
  open Classical in
  if 2 ≤ n ∧ gap r x n < 2 * w / r ∧ gap r x n < gap r x (n - 1) then
    gap r x (n - 1) + (gap r x n - gap r x (n - 1)) * (gap r x n / (2 * w / r))
  else gap r x n

/-- What note `n` adds to the speed strain. -/
noncomputable def speedHit (c : ℝ) (n : ℕ) : ℝ :=
  if (x n).spinner then 0 else speedValue (tapGap r w x n) (slid x n + jump c x n) (2 * w / r)

end
end GosuPP.Spec
