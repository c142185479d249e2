import Verif.Spec.Parser
import Verif.Go.IEEE

/-! Files that differ in the order of the lines of the objects, used by property C120. -/

namespace GosuPP.Spec
open Go

/-- The time that a line of an object gives. -/
def timeOn (l : Str) : Option F64 := ((fields l).bind (·[2]?)).map parseFloat

/-- The line gives the time `t`. -/
def givesTime (t : F64) (l : Str) : Bool :=
  match timeOn l with
  | some u => u ==. t
  | none => false

/-- The lines of the objects. -/
def objectLines (lines : List Str) : List Str := sectionLines "HitObjects".toList lines

/-- Two files with the same lines of objects, in any order, except that lines with the same time are in the same order. All else is the same.
Times are numbers. -/
structure Reordered (a b : List Str) : Prop where
  others : ∀ sec ∈ knownSections, sec ≠ "HitObjects".toList → sectionLines sec a = sectionLines sec b
  format : (a.filter isFormatLine).getLast? = (b.filter isFormatLine).getLast?
  same : (objectLines a).Perm (objectLines b)
  order : ∀ t : F64, (objectLines a).filter (givesTime t) = (objectLines b).filter (givesTime t)
  numbers : ∀ l ∈ objectLines a, timeOn l ≠ some .nan

end GosuPP.Spec
