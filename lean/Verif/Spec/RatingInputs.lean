import Verif.Spec.Parser

/-! Files with the same settings, timing points and objects, used by property C121. -/

namespace GosuPP.Spec
open Go

/-- Two files with the same difficulty settings, timing points and objects, the same stack leniency and the same format line. -/
structure SamePlay (a b : List Str) : Prop where
  difficulty : sectionLines "Difficulty".toList a = sectionLines "Difficulty".toList b
  timing : sectionLines "TimingPoints".toList a = sectionLines "TimingPoints".toList b
  objects : sectionLines "HitObjects".toList a = sectionLines "HitObjects".toList b
  leniency : (values "General" "StackLeniency" a).getLast? = (values "General" "StackLeniency" b).getLast?
  format : (a.filter isFormatLine).getLast? = (b.filter isFormatLine).getLast?

end GosuPP.Spec
