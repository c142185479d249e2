import Verif.Model.Objects

/-!
# `beatmap/objects/hitobject.go`: positions without mods

These methods are for drawing; no calculation calls them.
-/

namespace GosuPP
open Go
variable {S D : Type} [GoFloat S] [GoFloat D] [GoConv S D]

/-- hitobject.go:120-122 -/
def HitObject.getStackedStartPosition (h : HitObject S D) : Vec S := h.startPosRaw.add h.stackOffset

/-- hitobject.go:132-134 -/
def HitObject.getStackedEndPosition (h : HitObject S D) : Vec S := h.endPosRaw.add h.stackOffset

/-- hitobject.go:108-110 -/
def Obj.getStackedPositionAt (o : Obj S D) (time : D) : Result (Vec S) := do
  return (← o.getPositionAt time).add o.base.stackOffset

end GosuPP
