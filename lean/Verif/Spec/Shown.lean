import Verif.Spec.Derived
import Verif.Spec.Stacking
import Verif.Go.Real

/-! Specification of where objects are shown. -/

namespace GosuPP.Spec
open Go GosuPP

/-- Which of the three stackings counts under given mods: HardRock before Easy. -/
def variantOf (m : Modifier) : Variant := if has m Mod.HardRock then .hr else if has m Mod.Easy then .ez else .nm

/-- Where the place `p` of an object of stack index `k` is shown to a player with the mods `m` at circle size `cs`:
mirrored at the middle of the playfield under HardRock, then moved to the upper left by a tenth of the circle radius
for each object of the stack below. -/
noncomputable def shown (m : Modifier) (cs : ℝ) (k : ℤ) (p : Vec ℝ) : Vec ℝ :=
  let r := radiusOf (statOf (variantOf m).mods 1.3 cs)
  ⟨p.x - k * (r / 10), (if has m Mod.HardRock then 384 - p.y else p.y) - k * (r / 10)⟩

end GosuPP.Spec
