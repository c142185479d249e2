import Verif.Model.Preprocessing

/-!
# What a user expects of the difficulty objects
-/

namespace GosuPP.Spec
open Go

/-- `x` is at least `a`, or not a number. -/
def AtLeast {F : Type} [GoFloat F] (a x : F) : Prop := GoFloat.isNaN x = true ∨ (a <=. x) = true

variable {S D : Type} [GoFloat S] [GoFloat D] [GoConv S D]

/-- What holds of the difficulty object `o` made from the hit object `cur` that follows `prev`, when
the clock runs at `speed`. -/
structure Describes (speed : D) (prev cur : Obj S D) (o : DiffObject S D) : Prop where
  /-- it describes `cur` -/
  base : o.baseObject.obj = cur
  /-- its times are those of `cur` on the faster clock -/
  startTime : o.startTime = cur.base.startTime /. speed
  endTime : o.endTime = cur.base.endTime /. speed
  deltaTime : o.deltaTime = (cur.base.startTime -. prev.base.startTime) /. speed
  /-- intervals below 25 ms count as 25 ms -/
  strainTime : AtLeast (lit 25) o.strainTime
  jump : AtLeast (lit 0) o.jumpDistance
  travel : AtLeast (lit 0) o.travelDistance
  movement : AtLeast (lit 0) o.movementDistance
  /-- next to a spinner there is no movement -/
  spinner : prev.isSpinner = true ∨ cur.isSpinner = true →
    o.jumpDistance = lit 0 ∧ o.travelDistance = lit 0 ∧ o.movementDistance = lit 0 ∧
    o.travelTime = lit 0 ∧ o.movementTime = lit 0 ∧ o.angle = GoFloat.nan
  /-- after a slider the time is split into the time on the slider and the time after it, each at
  least 25 ms -/
  slider : prev.isSlider = true → cur.isSpinner = false →
    AtLeast (lit 25) o.travelTime ∧ AtLeast (lit 25) o.movementTime
  /-- after a circle all of the time is for the movement -/
  circle : prev.isSlider = false → prev.isSpinner = false → cur.isSpinner = false →
    o.movementTime = o.strainTime ∧ o.movementDistance = o.jumpDistance ∧
    o.travelDistance = lit 0 ∧ o.travelTime = lit 0
  /-- an angle needs three objects none of which is a spinner -/
  angle : AtLeast (lit 0) o.angle

end GosuPP.Spec
