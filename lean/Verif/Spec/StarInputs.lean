import Verif.Model.Difficulty
import Verif.Spec.Mods

/-!
# What star ratings depend on
-/

namespace GosuPP.Spec
open Go

/-- Two difficulties that a star rating should not tell apart. -/
structure SameForStars {D : Type} (d d' : Difficulty D) : Prop where
  circleRadius : d.circleRadius = d'.circleRadius
  hit300 : d.hit300 = d'.hit300
  speed : d.speed = d'.speed
  hardRock : Modifier.active d.mods Mod.HardRock = Modifier.active d'.mods Mod.HardRock
  easy : Modifier.active d.mods Mod.Easy = Modifier.active d'.mods Mod.Easy
  relax : Modifier.active d.mods Mod.Relax = Modifier.active d'.mods Mod.Relax
  flashlight : Modifier.active d.mods Mod.Flashlight = Modifier.active d'.mods Mod.Flashlight

/-- `m` and `m'` contain the same ones of the given mods. -/
def AgreeOn (mods : List Modifier) (m m' : Modifier) : Prop := ∀ x ∈ mods, has m x ↔ has m' x

instance (mods : List Modifier) (m m' : Modifier) : Decidable (AgreeOn mods m m') :=
  List.decidableBAll _ _

end GosuPP.Spec
