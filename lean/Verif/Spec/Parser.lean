import Verif.Model.Parser

/-!
# Specification of the file format

A file is a list of lines. Headers divide the lines into sections; sections hold `key:value`
lines or comma separated records; lines that start with `//` are comments.
-/

namespace GosuPP.Spec
open Go GosuPP

/-- The name given by a header line `[name]`. -/
def header (line : Str) : Option Str :=
  let l := trimSpace line
  if l.head? = some '[' then
    let s := trimRightBy (· == ']') (l.dropWhile (· == '['))
    if s = [] then none else some s
  else none

/-- The lines that are not headers, each with the section it is in. -/
def sectioned : Str → List Str → List (Str × Str)
  | _, [] => []
  | cur, l :: ls =>
    match header l with
    | some s => sectioned s ls
    | none => (cur, l) :: sectioned cur ls

/-- A line starting with `//`. -/
def isComment (line : Str) : Bool :=
  match line with
  | '/' :: '/' :: _ => true
  | _ => false

/-- The two sides of the first colon. -/
def keyValue (line : Str) : Option (Str × Str) :=
  if isComment line then none
  else match line.dropWhile (· != ':') with
    | [] => none
    | _ :: v => some (trimSpace (line.takeWhile (· != ':')), trimSpace v)

/-- The comma separated fields of a record. -/
def fields (line : Str) : Option (List Str) :=
  if isComment line || !line.contains ',' then none else some ((split ',' line).map trimSpace)

/-- The value a line of section `sec` gives to `key`. -/
def valueFor (sec key : String) (p : Str × Str) : Option Str :=
  if p.1 = sec.toList then
    match keyValue p.2 with
    | some (k, v) => if k = key.toList then some v else none
    | none => none
  else none

/-- All values given to `key` in section `sec`, in file order. -/
def values (sec key : String) (lines : List Str) : List Str :=
  (sectioned [] lines).filterMap (valueFor sec key)

/-- The record on a line of section `sec`. -/
def recordFor (sec : String) (p : Str × Str) : Option (List Str) :=
  if p.1 = sec.toList then fields p.2 else none

/-- The records of section `sec`, in file order. -/
def records (sec : String) (lines : List Str) : List (List Str) :=
  (sectioned [] lines).filterMap (recordFor sec)

/-- The beat lengths given in the TimingPoints section. Fields of timing points are read
without trimming. -/
def beatLengths {D : Type} [GoFloat D] (lines : List Str) : List D :=
  (sectioned [] lines).filterMap (fun p =>
    match recordFor "TimingPoints" p with
    | some _ => ((split ',' p.2)[1]?).map parseFloat
    | none => none)

/-- The sections that the parser reads. -/
def knownSections : List Str :=
  ["General", "Metadata", "Difficulty", "Events", "TimingPoints", "HitObjects"].map String.toList

/-- The section in force after the given lines. -/
def sectionAfter (lines : List Str) : Str := ((lines.filterMap header).getLast?).getD []

/-- A line that announces the format version; it counts wherever it stands. -/
def isFormatLine (line : Str) : Bool := "osu file format v".toList.isPrefixOf line

/-- The lines of section `sec`, in file order, wherever the section is and however often it is resumed. -/
def sectionLines (sec : Str) (lines : List Str) : List Str :=
  ((sectioned [] lines).filter (·.1 == sec)).map (·.2)

/-- Two files with the same lines in every section that the parser reads, and the same last format line. -/
def SameSections (a b : List Str) : Prop :=
  (∀ sec ∈ knownSections, sectionLines sec a = sectionLines sec b) ∧
  (a.filter isFormatLine).getLast? = (b.filter isFormatLine).getLast?

end GosuPP.Spec
