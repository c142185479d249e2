import Verif.Model.Preprocessing
import Verif.Go.Real
import Mathlib.Analysis.Complex.Norm

/-!
# The cursor of a lazy player on a slider

The plane is `ℂ`.
-/

namespace GosuPP.Spec
open Go

/-- A position in the plane. -/
noncomputable def planePos (v : Vec ℝ) : ℂ := ⟨v.x, v.y⟩

/-- `c'` is the point of the disc around `p` with radius `R` to which the way from `c` is shortest. -/
structure Nearest (p : ℂ) (R : ℝ) (c c' : ℂ) : Prop where
  inside : dist c' p ≤ R
  least : ∀ q : ℂ, dist q p ≤ R → dist c c' ≤ dist c q

/-- Where the ball is at a time. -/
def BallAt (o : Obj ℝ ℝ) (mods : Modifier) (t : ℝ) (p : ℂ) : Prop :=
  ∃ v, o.getStackedPositionAtMod t mods = .ok v ∧ planePos v = p

/-- The way of a cursor from `c` to `c'`, of the given length, that passes the score points one after the other and
keeps the ball within the circle at repeats and within 1.8 circle radii at ticks, moving as little as possible each
time. At the last point the player may aim at the place of the last score point (at time `t`) or at the place of the
slider end, whichever is nearer. -/
inductive LazyWay (o : Obj ℝ ℝ) (mods : Modifier) (radius t : ℝ) : List (TickPoint ℝ) → ℂ → ℂ → ℝ → Prop
  | last {point c p e target c'} : BallAt o mods t p → BallAt o mods o.base.endTime e →
      target = (if dist p c < dist e c then p else e) → Nearest target (1.8 * radius) c c' →
      LazyWay o mods radius t [point] c c' (dist c c')
  | step {point q rest c p c' c'' way} : BallAt o mods point.time p →
      Nearest p (if point.isReverse then radius else 1.8 * radius) c c' → LazyWay o mods radius t (q :: rest) c' c'' way →
      LazyWay o mods radius t (point :: q :: rest) c c'' (dist c c' + way)

/-- The length of the way from `c` through the places of the ball at the score points, the last of which counts as the
slider end. -/
inductive BallWay (o : Obj ℝ ℝ) (mods : Modifier) : List (TickPoint ℝ) → ℂ → ℝ → Prop
  | last {point c e} : BallAt o mods o.base.endTime e → BallWay o mods [point] c (dist c e)
  | step {point q rest c p way} : BallAt o mods point.time p → BallWay o mods (q :: rest) p way →
      BallWay o mods (point :: q :: rest) c (dist c p + way)

end GosuPP.Spec
