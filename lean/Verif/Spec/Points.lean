import Verif.Model.PP
import Verif.Go.Exact
import Verif.Spec.Order

/-!
# Performance points that can be shown to a player
-/

namespace GosuPP.Spec
open Go

/-- A defined number that is not negative. -/
def Amount (x : Option ℝ) : Prop := ∃ v : ℝ, x = some v ∧ 0 ≤ v

/-- All performance points are numbers and not negative. -/
structure Points (r : PPv2Results (Option ℝ)) : Prop where
  aim : Amount r.aim
  speed : Amount r.speed
  acc : Amount r.acc
  flashlight : Amount r.flashlight
  total : Amount r.total

/-- All points are numbers, not negative, and none of the second is lower than the first. -/
structure NoFewer (r s : PPv2Results (Option ℝ)) : Prop where
  before : Points r
  after : Points s
  aim : NoMore r.aim s.aim
  speed : NoMore r.speed s.speed
  acc : NoMore r.acc s.acc
  flashlight : NoMore r.flashlight s.flashlight
  total : NoMore r.total s.total

/-- Hits and misses of a play: none negative, at least one object judged, and at least as many objects judged as there are spinners. -/
structure Judged (spinners n300 n100 n50 nmiss : ℤ) : Prop where
  greats : 0 ≤ n300
  goods : 0 ≤ n100
  mehs : 0 ≤ n50
  misses : 0 ≤ nmiss
  judged : 0 < n300 + n100 + n50 + nmiss
  spins : spinners ≤ n300 + n100 + n50 + nmiss

/-- The counts handed over for a play of a map: a negative number of 300s stands for all objects that are not in the other counts. -/
def Played (objects spinners n300 n100 n50 nmiss : ℤ) : Prop :=
  (n300 < 0 ∧ Judged spinners (objects - n100 - n50 - nmiss) n100 n50 nmiss) ∨ Judged spinners n300 n100 n50 nmiss

end GosuPP.Spec
