import Verif.Spec.Parser
import Verif.Go.IEEE

/-! Files that differ in the order of the lines of the timing points, used by property C122. -/

namespace GosuPP.Spec
open Go

/-- The lines of the timing points. -/
def pointLines (lines : List Str) : List Str := sectionLines "TimingPoints".toList lines

/-- The time that a line of a timing point gives: the whole number before the first comma, in milliseconds. -/
def pointTime (l : Str) : Option F64 := (fields l).map fun _ => ofInt (parseInt ((split ',' l)[0]?.getD []))

/-- The line is a timing point at the time `t`. -/
def pointAtTime (t : F64) (l : Str) : Bool :=
  match pointTime l with
  | some u => u ==. t
  | none => false

/-- Two files with the same lines of timing points, in any order, except that lines with the same time are in the same order. All else is the
same. -/
structure PointsReordered (a b : List Str) : Prop where
  others : ∀ sec ∈ knownSections, sec ≠ "TimingPoints".toList → sectionLines sec a = sectionLines sec b
  format : (a.filter isFormatLine).getLast? = (b.filter isFormatLine).getLast?
  same : (pointLines a).Perm (pointLines b)
  order : ∀ t : F64, (pointLines a).filter (pointAtTime t) = (pointLines b).filter (pointAtTime t)

end GosuPP.Spec
