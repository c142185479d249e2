import Verif.Model.Difficulty

/-!
# `performance/osu/pp.go`: `ppBase`
-/

namespace GosuPP
open Go

/-- pp.go:13-16 -/
def ppBase {D : Type} [GoFloat D] [GoLibm D] (stars : D) : D :=
  GoLibm.pow (lit 5 *. fmax (lit 1) (stars /. lit 0.0675) -. lit 4) (lit 3) /. lit 100000

end GosuPP
