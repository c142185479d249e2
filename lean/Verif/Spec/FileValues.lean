import Verif.Spec.Parser
import Mathlib.Data.Int.Bitwise

/-!
# Specification of the single values in a file: keys, events, timing points
-/

namespace GosuPP.Spec
open Go GosuPP

/-- What the last of several values means, or a default if there is none. -/
def lastOr {β : Type} (vs : List Str) (g : Str → β) (dflt : β) : β :=
  match vs.getLast? with
  | some v => g v
  | none => dflt

/-- The background on a record of the Events section: third field, without quotes. -/
def background : List Str → Option Str
  | k :: _ :: f :: _ => if k = "Background".toList ∨ k = "0".toList then some (f.filter (· != '"')) else none
  | _ => none

/-- The break on a record of the Events section. -/
def break_ {D : Type} [GoFloat D] : List Str → Option (Pause D)
  | k :: a :: b :: _ => if k = "Break".toList ∨ k = "2".toList then some ⟨parseFloat a, parseFloat b⟩ else none
  | _ => none

/-- An integer field, or a default if the record is shorter. -/
def intField (fs : List Str) (n : Nat) (dflt : Int) : Int :=
  match fs[n]? with
  | some f => parseInt f
  | none => dflt

/-- A timing point by the fields of its record. The base beat length of an inherited point is not on the record; see C16. -/
structure IsPoint {D : Type} [GoFloat D] (fs : List Str) (p : ControlPoint D) : Prop where
  time : p.time = ofInt (intField fs 0 0)
  beatLength : ∃ f, fs[1]? = some f ∧ p.beatLength = parseFloat f
  signature : p.signature = if intField fs 2 0 = 0 then 4 else intField fs 2 0
  sampleSet : p.sampleSet = intField fs 3 0
  sampleIndex : p.sampleIndex = intField fs 4 1
  sampleVolume : p.sampleVolume = (if fs.length ≤ 5 then lit 1 else ofInt (intField fs 5 0) /. lit 100)
  inherited : p.inherited = true ↔ intField fs 6 1 = 0
  kiai : p.kiai = (intField fs 7 0).testBit 0
  omitFirstBarLine : p.omitFirstBarLine = (intField fs 7 0).testBit 3

/-- The fields of the timing point records, as they stand in the file: they are not trimmed. -/
def pointFields (lines : List Str) : List (List Str) :=
  (sectioned [] lines).filterMap (fun p => (recordFor "TimingPoints" p).map (fun _ => split ',' p.2))

end GosuPP.Spec
