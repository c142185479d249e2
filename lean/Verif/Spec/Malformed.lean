import Verif.Spec.Objects

/-!
# Specification of records that cannot be read
-/

namespace GosuPP.Spec
open Go GosuPP

/-- A background or break record without its third field. -/
def BadEvent (f : List Str) : Prop :=
  (f[0]? = some "Background".toList ∨ f[0]? = some "0".toList ∨ f[0]? = some "Break".toList ∨
    f[0]? = some "2".toList) ∧ f.length < 3

/-- The field with the path of a slider record: the letter of the type and points, divided by `|`. -/
def path (f : List Str) : List Str := split '|' ((f[5]?).getD [])

/-- A hit object record with too few fields for its kind, or a slider with a point without colon. -/
def BadObject (f : List Str) : Prop :=
  f.length < 4 ∨
  match lineKind f with
  | .circle => f.length < 5
  | .spinner => f.length < 6
  | .slider => f.length < 8 ∨ ∃ p ∈ (path f).tail, ':' ∉ p
  | .hold => f.length < 6
  | .other => False

/-- The repeat count of a slider record. -/
def repeats (f : List Str) : Int := parseInt ((f[6]?).getD [])

/-- A slider record with a repeat count below -1 or not below `2 ^ 45`, or with more than one sound
per slider end. -/
def BadEdges (f : List Str) : Prop :=
  lineKind f = .slider ∧
    (repeats f < -1 ∨ 2 ^ 45 ≤ repeats f ∨ (8 < f.length ∧ repeats f + 1 < (split '|' ((f[8]?).getD [])).length))

/-- A slider record of a circular arc through three points. -/
def ArcRecord (f : List Str) : Prop :=
  lineKind f = .slider ∧ (path f)[0]? = some ['P'] ∧ (path f).length = 3

/-- A slider record whose path is a circular arc or a Bézier curve. -/
def CurveRecord (f : List Str) : Prop :=
  lineKind f = .slider ∧ ((path f)[0]? = some ['P'] ∨ (path f)[0]? = some ['B'])

/-- The lines have a record that cannot be read: among the events or among the hit objects. -/
def Malformed (lines : List Str) : Prop :=
  (∃ f ∈ records "Events" lines, BadEvent f) ∨
  (∃ f ∈ records "HitObjects" lines, BadObject f ∨ BadEdges f)

end GosuPP.Spec
