import Verif.Spec.PPBounds
import Verif.Spec.Peaks

/-!
# Maps with ordinary numbers
-/

namespace GosuPP.Spec
open Go

/-- What is assumed of `math.Sin`, `math.Cbrt` and `math.Log10` besides `PowLaws`. -/
structure TrigLaws [GoLibm F64] : Prop where
  /-- sines are between -1 and 1 -/
  sin : ∀ x : F64, Fl.Fin x → Within (-1) 1 (GoLibm.sin x)
  /-- cube roots of numbers between 0 and `2 ^ k` stay there -/
  cbrt : ∀ (x : F64) (k : ℕ), k ≤ 1000 → Within 0 (2 ^ k) x → Within 0 (2 ^ k) (GoLibm.cbrt x)
  /-- logarithms of numbers between 1 and 10 -/
  log : ∀ x : F64, Within 1 10 x → Within 0 1 (GoLibm.log10 x)

/-- Both coordinates are less than about a million in magnitude. -/
def Placed (v : Vec F32) : Prop :=
  (((lit (-1048575) : F32) <=. v.x) = true ∧ (v.x <=. (lit 1048575 : F32)) = true) ∧
  (((lit (-1048575) : F32) <=. v.y) = true ∧ (v.y <=. (lit 1048575 : F32)) = true)

/-- The times at which the difficulty calculation looks up the position of a slider: those of its score
points, its end and the end as computed from its duration. -/
def usedTimes (o : Obj F32 F64) (s : SliderData F32 F64) : List F64 :=
  o.base.endTime :: s.scorePoints.map (·.time) ++
    (s.scorePoints.getLast?.map fun l => (l.time -. o.base.startTime) +. o.base.startTime).toList

/-- A slider with at most a million score points and repeats, which stays near the playfield. -/
structure OrdinarySlider (d : Difficulty F64) (o : Obj F32 F64) (s : SliderData F32 F64) : Prop where
  points : s.scorePoints.length ≤ 2 ^ 20
  repeats : 1 ≤ s.repeatCount ∧ s.repeatCount ≤ 2 ^ 20
  times : ∀ p ∈ s.scorePoints, Within (-2 ^ 40) (2 ^ 40) p.time
  placed : ∀ t ∈ usedTimes o s, ∀ v, o.getStackedPositionAtMod t d.mods = .ok v → Placed v

/-- An object near the playfield that starts within 34 years of the start of the song. -/
structure OrdinaryObject (d : Difficulty F64) (o : Obj F32 F64) : Prop where
  start : Within (-2 ^ 40) (2 ^ 40) o.base.startTime
  startPos : Placed (o.base.getStackedStartPositionMod d.mods)
  endPos : Placed (o.base.getStackedEndPositionMod d.mods)
  slider : ∀ s, o.kind = .slider s → OrdinarySlider d o s

/-- A map with at most half a billion objects, in the order of their times, with ordinary circle
radius, speed and hit window. -/
structure OrdinaryMap (d : Difficulty F64) (objs : List (Obj F32 F64)) : Prop where
  radius : Within 1 1024 d.circleRadius
  speed : Within (1 / 1024) 1024 d.speed
  hit300 : Within 1 4096 d.hit300
  count : objs.length ≤ 2 ^ 29
  objects : ∀ o ∈ objs, OrdinaryObject d o
  sorted : objs.IsChain fun a b => (a.base.startTime <=. b.base.startTime) = true

end GosuPP.Spec
