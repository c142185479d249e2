import Verif.Spec.Objects

/-!
# Specification of the three stacking variants
-/

namespace GosuPP.Spec
open Go GosuPP
variable {S D : Type} [GoFloat S] [GoFloat D]

/-- Stacking is computed three times: without mods, for Easy and for HardRock. -/
inductive Variant where
  | nm
  | ez
  | hr
  deriving DecidableEq

/-- The mods of a variant. -/
def Variant.mods : Variant → Modifier
  | .nm => Mod.None
  | .ez => Mod.Easy
  | .hr => Mod.HardRock

/-- The stack data of one variant: index and offset. -/
def stackOf (o : Obj S D) : Variant → Int × Vec S
  | .nm => (o.base.stackIndex, o.base.stackOffset)
  | .ez => (o.base.stackIndexEZ, o.base.stackOffsetEZ)
  | .hr => (o.base.stackIndexHR, o.base.stackOffsetHR)

/-- The object with the stack data of all variants but one erased. -/
def only (v : Variant) (o : Obj S D) : Obj S D :=
  match v with
  | .nm => { o with base := { o.base with
      stackOffsetEZ := Vec.zero, stackOffsetHR := Vec.zero, stackIndexEZ := 0, stackIndexHR := 0 } }
  | .ez => { o with base := { o.base with
      stackOffset := Vec.zero, stackOffsetHR := Vec.zero, stackIndex := 0, stackIndexHR := 0 } }
  | .hr => { o with base := { o.base with
      stackOffset := Vec.zero, stackOffsetEZ := Vec.zero, stackIndex := 0, stackIndexEZ := 0 } }

/-- Stacking a map under one variant only. The difficulty is rebuilt from the four base stats. -/
def runVariant (version : Int) (d : Difficulty D) [GoConv S D] (sl : D) (v : Variant) :
    List (Obj S D) → List (Obj S D) :=
  Stacking.process version ((Difficulty.new d.getHP d.getCS d.getOD d.getAR).setMods v.mods) sl

/-- Two places closer than 3 osu! pixels. -/
def close [GoConv S D] (p q : Vec S) : Bool := p.dst (D := D) q <. lit 3

/-- No end of the one object is close to an end of the other. -/
def Apart [GoConv S D] (a b : Obj S D) : Prop :=
  ∀ p ∈ [a.base.startPosRaw, a.base.endPosRaw], ∀ q ∈ [b.base.startPosRaw, b.base.endPosRaw],
    close (D := D) p q = false ∧ close (D := D) q p = false

/-- `j` and `k` are neighbours in the group `g`. -/
def Next (g : List Nat) (j k : Nat) : Prop := j ∈ g ∧ k ∈ g ∧ j < k ∧ ∀ l ∈ g, ¬(j < l ∧ l < k)

/-- The circles at the indices `g` form a stack of the map: they are close to each other, no other
object is close to them, and each one starts within the threshold after the previous one ended. (In
format 6 and later the time is also compared with the ends of objects in between, and spinners are
ignored; before, it is compared with the starts of objects in between.) -/
structure StackGroup [GoConv S D] (version : Int) (thr : D) (objs : List (Obj S D)) (g : List Nat) : Prop where
  sorted : g.Pairwise (· < ·)
  circle : ∀ j ∈ g, ∃ o, objs[j]? = some o ∧ o.isCircle = true ∧ o.base.endPosRaw = o.base.startPosRaw
  close : ∀ j ∈ g, ∀ k ∈ g, j ≠ k → ∀ a b, objs[j]? = some a → objs[k]? = some b →
    Spec.close (D := D) a.base.startPosRaw b.base.startPosRaw = true
  apart : ∀ j ∈ g, ∀ k, k ∉ g → ∀ a b, objs[j]? = some a → objs[k]? = some b →
    (6 ≤ version → b.isSpinner = false) → Apart a b
  timesNew : 6 ≤ version → ∀ j k, Next g j k → ∀ i, j ≤ i → i < k → ∀ x y, objs[i]? = some x →
    objs[k]? = some y → x.isSpinner = false → (y.base.startTime -. x.base.endTime >. thr) = false
  timesOld : version < 6 → ∀ j k, Next g j k → ∀ i, j < i → i ≤ k → ∀ x y, objs[j]? = some x →
    objs[i]? = some y → (y.base.startTime -. thr >. x.base.endTime) = false

/-- The stack threshold in ms: the preempt time of the variant's mods times the stack leniency, rounded
down. -/
def threshold (d : Difficulty D) (sl : D) (v : Variant) : D :=
  GoFloat.floor (((Difficulty.new d.getHP d.getCS d.getOD d.getAR).setMods v.mods).preempt *. sl)

/-- No two objects of the map are close (spinners do not count in format 6 and later). -/
def Isolated [GoConv S D] (version : Int) (objs : List (Obj S D)) : Prop :=
  ∀ (i j : Nat) (a b : Obj S D), i ≠ j → objs[i]? = some a → objs[j]? = some b →
    (6 ≤ version → a.isSpinner = false ∧ b.isSpinner = false) → Apart a b

end GosuPP.Spec
