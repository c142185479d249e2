import Verif.Model.DifficultyCalc

/-!
# Maps that are moved in the plane and in time

Two objects are related when every position that the accessors of hit objects report for the one is the
image, under `g`, of the position they report for the other, and the times are related by `R`.
-/

namespace GosuPP.Spec
open Go

variable {S D : Type}

/-- Two objects of the same type; score points of sliders have related times. -/
def SameKind (R : D → D → Prop) : Kind S D → Kind S D → Prop
  | .circle, .circle => True
  | .spinner, .spinner => True
  | .slider s, .slider s' => s'.repeatCount = s.repeatCount ∧
      List.Forall₂ (fun p p' : TickPoint D => R p.time p'.time ∧ p'.isReverse = p.isReverse)
        s.scorePoints s'.scorePoints
  | _, _ => False

/-- `o'` is `o`, moved by `g` in the plane and along `R` in time, as seen with the mods `m`. -/
structure Moved [GoFloat S] [GoFloat D] [GoConv S D] (R : D → D → Prop) (g : Vec S → Vec S) (m : Modifier)
    (o o' : Obj S D) : Prop where
  kind : SameKind R o.kind o'.kind
  startTime : R o.base.startTime o'.base.startTime
  endTime : R o.base.endTime o'.base.endTime
  start : o'.base.getStackedStartPositionMod m = g (o.base.getStackedStartPositionMod m)
  stop : o'.base.getStackedEndPositionMod m = g (o.base.getStackedEndPositionMod m)
  /-- at related times the objects are at related positions -/
  along : ∀ t t', R t t' → o'.getStackedPositionAtMod t' m = (o.getStackedPositionAtMod t m).map g

/-- What the difficulty calculations compute from positions does not see `g`. -/
structure Rigid [GoFloat S] [GoFloat D] [GoConv S D] [GoLibm D] (g : Vec S → Vec S) : Prop where
  dst : ∀ u v, (g u).dst (g v) = u.dst v
  dstScl : ∀ u v k, ((g u).scl k).dst ((g v).scl k) = (u.scl k).dst (v.scl k)
  len : ∀ u v, ((g u).sub (g v)).len = (u.sub v).len
  step : ∀ u v k, (g u).add (((g v).sub (g u)).scl k) = g (u.add ((v.sub u).scl k))
  angle : ∀ a b c e : Vec S,
    let v1 := a.sub b
    let v2 := c.sub e
    let w1 := (g a).sub (g b)
    let w2 := (g c).sub (g e)
    (Math32.abs (Math32.atan2 (w1.x *. w2.y -. w1.y *. w2.x) (w1.dot w2)) : S) =
      Math32.abs (Math32.atan2 (v1.x *. v2.y -. v1.y *. v2.x) (v1.dot v2))

/-- What the difficulty calculations compute from times and from the two difficulties does not see whether the
times and the difficulty are those on the left or on the right of `R`. `RS` relates start times divided by the speed
and `RE` ends of sections. -/
structure Steady [GoFloat D] (d d' : Difficulty D) (R RS RE : D → D → Prop) : Prop where
  mods : d'.mods = d.mods
  radius : d'.circleRadius = d.circleRadius
  window : d'.hit300 /. d'.speed = d.hit300 /. d.speed
  elapsed : ∀ a a' b b', R a a' → R b b' → (a' -. b') /. d'.speed = (a -. b) /. d.speed
  back : ∀ a a' b b', R a a' → R b b' → R ((a -. b) +. b) ((a' -. b') +. b')
  scaled : ∀ a a', R a a' → RS (a /. d.speed) (a' /. d'.speed)
  age : ∀ a a' b b', RS a a' → RS b b' → a' -. b' = a -. b
  first : ∀ a a', RS a a' → RE (GoFloat.ceil (a /. lit 400) *. lit 400) (GoFloat.ceil (a' /. lit 400) *. lit 400)
  past : ∀ a a' e e', RS a a' → RE e e' → (a' >. e') = (a >. e)
  since : ∀ a a' e e', RS a a' → RE e e' → e' -. a' = e -. a
  next : ∀ a a' e e', RS a a' → RE e e' → a >. e → RE (e +. lit 400) (e' +. lit 400)

/-- The object with `p` applied to its positions and to the lines of its path, and `q` to its stack offsets. -/
def place (p q : Vec S → Vec S) (o : Obj S D) : Obj S D where
  base := { o.base with
    startPosRaw := p o.base.startPosRaw, endPosRaw := p o.base.endPosRaw
    stackOffset := q o.base.stackOffset, stackOffsetEZ := q o.base.stackOffsetEZ
    stackOffsetHR := q o.base.stackOffsetHR }
  kind := match o.kind with
    | .slider s => .slider { s with multiCurve := { s.multiCurve with
        lines := s.multiCurve.lines.map fun l => ⟨p l.p1, p l.p2⟩, firstPoint := p s.multiCurve.firstPoint } }
    | k => k

/-- The object with `τ` applied to its times. -/
def retime (τ : D → D) (o : Obj S D) : Obj S D where
  base := { o.base with startTime := τ o.base.startTime, endTime := τ o.base.endTime }
  kind := match o.kind with
    | .slider s => .slider { s with scorePoints := s.scorePoints.map fun p => { p with time := τ p.time } }
    | k => k

/-- The object with `τ` applied to its times and to the duration of its spans. -/
def stretch (τ : D → D) (o : Obj S D) : Obj S D where
  base := { o.base with startTime := τ o.base.startTime, endTime := τ o.base.endTime }
  kind := match o.kind with
    | .slider s => .slider { s with
        spanDuration := τ s.spanDuration, scorePoints := s.scorePoints.map fun p => { p with time := τ p.time } }
    | k => k

end GosuPP.Spec
