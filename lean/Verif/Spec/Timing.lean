import Verif.Model.Timing
import Verif.Go.SortInst

/-!
# Specification of timing points

The stable time order is given by insertion sort; a lookup picks the last point that is not
after the query time.
-/

namespace GosuPP.Spec
open Go GosuPP
variable {D : Type} [GoFloat D]

/-- A fresh `Timings` after `AddPoint` was called once for every entry of `ps`; the field
`beatLengthBase` of the entries plays no role. -/
def addAll (ps : List (ControlPoint D)) : Timings D :=
  ps.foldl (fun t p => t.addPoint p.time p.beatLength p.sampleSet p.sampleIndex p.sampleVolume
    p.signature p.inherited p.kiai p.omitFirstBarLine) Timings.new

/-- `q` is `p` except for the base beat length. -/
def SameButBase (p q : ControlPoint D) : Prop :=
  q = { p with beatLengthBase := q.beatLengthBase }

/-- The points in stable time order. -/
def byTime (l : List (ControlPoint D)) : List (ControlPoint D) :=
  insertionSort (fun a b => a.time <. b.time) l

/-- The last point not after `t`, or the first point. -/
def pick (l : List (ControlPoint D)) (t : D) : Option (ControlPoint D) :=
  match (l.filter (fun p => p.time <=. t)).getLast? with
  | some p => some p
  | none => l.head?

/-- The points that `GetOriginalPointAt` is meant to search: the first point and the uninherited
ones. -/
def originals : List (ControlPoint D) → List (ControlPoint D)
  | [] => []
  | p :: rest => p :: rest.filter (fun q => !q.inherited)

/-- Point `i` of `L` is point `i` of the time order `S` with the beat length of the nearest point
at or before it that is first or not inherited. -/
def BaseOf (S L : List (ControlPoint D)) : Prop :=
  L.length = S.length ∧ ∀ i p, S[i]? = some p →
    ∃ j a, j ≤ i ∧ S[j]? = some a ∧ (j = 0 ∨ a.inherited = false) ∧
      (∀ k q, j < k → k ≤ i → S[k]? = some q → q.inherited = true) ∧
      L[i]? = some { p with beatLengthBase := a.beatLength }

end GosuPP.Spec
