import Verif.Model.Parser
import Verif.Spec.Parser
import Mathlib.Data.Int.Bitwise

/-!
# Specification of the object list: what a file says about an object, kinds, combos
-/

namespace GosuPP.Spec
open Go GosuPP
variable {S D : Type} [GoFloat S] [GoFloat D]

/-- The object with its stack data erased. -/
def unstack (o : Obj S D) : Obj S D :=
  { o with base := { o.base with
      stackOffset := Vec.zero, stackOffsetEZ := Vec.zero, stackOffsetHR := Vec.zero
      stackIndex := 0, stackIndexEZ := 0, stackIndexHR := 0 } }

/-- The object with its id and combo data erased. -/
def uncombo (o : Obj S D) : Obj S D :=
  { o with base := { o.base with
      hitObjectID := -1, newCombo := false, comboNumber := 0, comboSet := 0, comboSetHax := 0 } }

/-- The object with the data erased that a slider gets from the timing points: its end, its
score points, its span duration and its timing point. -/
def untime (o : Obj S D) : Obj S D :=
  match o.kind with
  | .slider s =>
    { base := { o.base with endTime := o.base.startTime, endPosRaw := o.base.startPosRaw }
      kind := .slider { s with tPoint := zeroPoint, scorePoints := [], spanDuration := lit 0 } }
  | _ => o

/-- What remains of an object when everything is erased that is computed after its line has been
read: kind, start time and position, sounds, colour offset, path, length and repeat count of a
slider, end time of a spinner. -/
def given (o : Obj S D) : Obj S D := untime (uncombo (unstack o))

/-- What a hit object line is about. -/
inductive LineKind where
  | circle
  | spinner
  | slider
  | hold
  | other
  deriving DecidableEq

/-- The kind by the bits of the fourth field, in order of priority. -/
def lineKind (arr : List Str) : LineKind :=
  let ty := parseInt ((arr[3]?).getD [])
  if ty.testBit 0 then .circle
  else if ty.testBit 3 then .spinner
  else if ty.testBit 1 then .slider
  else if ty.testBit 7 then .hold
  else .other

/-- The time of a hit object line: the start of a circle or slider, the end of a spinner or hold
note, 0 otherwise. -/
def lineTime (arr : List Str) : Int :=
  match lineKind arr with
  | .circle | .slider => parseInt ((arr[2]?).getD [])
  | .spinner => parseInt ((arr[5]?).getD [])
  | .hold => parseInt (((arr[5]?).getD []).takeWhile (· != ':'))
  | .other => 0

omit [GoFloat S] [GoFloat D] in
/-- Object `i` starts a combo: it is not a spinner, and either its line says so or the object
before it is a spinner. -/
def starts (objs : List (Obj S D)) (i : Nat) : Bool :=
  match objs[i]? with
  | none => false
  | some o => !o.isSpinner && (o.base.newCombo ||
      (match i with
       | 0 => false
       | j + 1 => match objs[j]? with
         | some p => p.isSpinner
         | none => false))

end GosuPP.Spec
