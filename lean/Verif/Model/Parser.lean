import Verif.Model.Stacking

/-!
# `beatmap/parser.go`, `beatmap/beatmap.go`, `beatmap/pause.go`
-/

namespace GosuPP
open Go

/-- pause.go:7-10 -/
structure Pause (D : Type) where
  startTime : D
  endTime : D

/-- beatmap.go:12-57 -/
structure BeatMap (S D : Type) where
  fileVersion : Int
  artist : Str
  artistUnicode : Str
  title : Str
  titleUnicode : Str
  version : Str
  creator : Str
  source : Str
  tags : Str
  mode : Int
  sliderMultiplier : D
  stackLeniency : D
  difficulty : Difficulty D
  audio : Str
  bg : Str
  setID : Int
  mapID : Int
  previewTime : Int
  length : Int
  circles : Int
  sliders : Int
  spinners : Int
  minBPM : D
  maxBPM : D
  timings : Timings D
  hitObjects : List (Obj S D)
  pauses : List (Pause D)
  arSpecified : Bool

variable {S D : Type} [GoFloat S] [GoFloat D] [GoConv S D]

/-- pause.go:12-17 -/
def newPause (data : List Str) : Result (Pause D) := do
  let startTime : D := parseFloat (← index data 1)
  let endTime : D := parseFloat (← index data 2)
  return { startTime, endTime }

namespace BeatMap

omit [GoFloat S] [GoConv S D] in
/-- beatmap.go:59-68 -/
def new : BeatMap S D :=
  { fileVersion := 0, artist := [], artistUnicode := [], title := [], titleUnicode := []
    version := [], creator := [], source := [], tags := [], mode := 0
    sliderMultiplier := lit 0, stackLeniency := lit 0.7
    difficulty := Difficulty.new (lit 5) (lit 5) (lit 5) (lit 5)
    audio := [], bg := [], setID := 0, mapID := 0, previewTime := 0, length := 0, circles := 0
    sliders := 0, spinners := 0, minBPM := GoFloat.inf false, maxBPM := lit 0
    timings := Timings.new, hitObjects := [], pauses := [], arSpecified := false }

omit [GoFloat S] [GoConv S D] in
/-- beatmap.go:75-79 -/
def updateBPM (b : BeatMap S D) (bpm : D) : BeatMap S D :=
  if !GoFloat.isNaN bpm && bpm >=. lit 0 then
    let rBPM := lit 60000 /. bpm
    { b with minBPM := fmin b.minBPM rBPM, maxBPM := fmax b.maxBPM rBPM }
  else b

omit [GoFloat S] [GoConv S D] in
/-- beatmap.go:70-121 -/
def parsePoint (b : BeatMap S D) (point : Str) : Result (BeatMap S D) := do
  let line := split ',' point
  let pointTime := parseInt (← index line 0)
  let bpm : D := parseFloat (← index line 1)
  let b := b.updateBPM bpm
  let signature := match line[2]? with
    | some s => if parseInt s = 0 then 4 else parseInt s
    | none => 4
  let sampleSet := match line[3]? with | some s => parseInt s | none => 0
  let sampleIndex := match line[4]? with | some s => parseInt s | none => 1
  let sampleVolume : D := match line[5]? with
    | some s => ofInt (parseInt s) /. lit 100
    | none => lit 1
  let inherited := match line[6]? with | some s => decide (parseInt s = 0) | none => false
  let kiai := match line[7]? with | some s => intBit (parseInt s) 0 | none => false
  let omitFirstBarLine := match line[7]? with | some s => intBit (parseInt s) 3 | none => false
  let timings := b.timings.addPoint (ofInt pointTime) bpm sampleSet sampleIndex
    sampleVolume signature inherited kiai omitFirstBarLine
  return { b with timings }

end BeatMap

/-- parser.go:119-131 with `n = 2`, delimiter `:`; `none` is Go's `nil` -/
def tokenize2 (line : Str) : Option (List Str) :=
  if hasPrefix line "//".toList || !line.contains ':' then none
  else some ((split2 ':' line).map trimSpace)

/-- parser.go:115-131 with delimiter `,` -/
def tokenize (line : Str) : Option (List Str) :=
  if hasPrefix line "//".toList || !line.contains ',' then none
  else some ((split ',' line).map trimSpace)

/-- parser.go:133-140 -/
def getSection (line : Str) : Str :=
  let line := trimSpace line
  if hasPrefix line ['['] then trimRightBy (· == ']') (line.dropWhile (· == '[')) else []

omit [GoFloat S] [GoConv S D] in
/-- parser.go:18-44; `key` is `line[0]`, `val` is `line[1]` -/
def parseGeneral (key val : Str) (b : BeatMap S D) : BeatMap S D :=
  if key = "Mode".toList then { b with mode := parseInt val }
  else if key = "StackLeniency".toList then
    let v : D := parseFloat val
    { b with stackLeniency := if GoFloat.isNaN v then lit 0 else v }
  else if key = "AudioFilename".toList then { b with audio := b.audio ++ val }
  else if key = "PreviewTime".toList then { b with previewTime := parseInt val }
  else b

omit [GoFloat S] [GoFloat D] [GoConv S D] in
/-- parser.go:46-69 -/
def parseMetadata (key val : Str) (b : BeatMap S D) : BeatMap S D :=
  if key = "Title".toList then { b with title := val }
  else if key = "TitleUnicode".toList then { b with titleUnicode := val }
  else if key = "Artist".toList then { b with artist := val }
  else if key = "ArtistUnicode".toList then { b with artistUnicode := val }
  else if key = "Creator".toList then { b with creator := val }
  else if key = "FileVersion".toList then { b with version := val }
  else if key = "Source".toList then { b with source := val }
  else if key = "Tags".toList then { b with tags := val }
  else if key = "BeatmapID".toList then { b with mapID := parseInt val }
  else if key = "BeatmapSetID".toList then { b with setID := parseInt val }
  else b

omit [GoFloat S] [GoConv S D] in
/-- parser.go:71-96 -/
def parseDifficulty (key val : Str) (b : BeatMap S D) : BeatMap S D :=
  let parsed : D := parseFloat val
  let clamped := clampF64 parsed (lit 0) (lit 10)
  if key = "SliderMultiplier".toList then
    { b with sliderMultiplier := parsed, timings := { b.timings with sliderMult := parsed } }
  else if key = "ApproachRate".toList then
    { b with difficulty := b.difficulty.setAR clamped, arSpecified := true }
  else if key = "CircleSize".toList then { b with difficulty := b.difficulty.setCS clamped }
  else if key = "SliderTickRate".toList then
    { b with timings := { b.timings with tickRate := parsed } }
  else if key = "HPDrainRate".toList then { b with difficulty := b.difficulty.setHP clamped }
  else if key = "OverallDifficulty".toList then
    let d := b.difficulty.setOD clamped
    if !b.arSpecified then { b with difficulty := d.setAR d.getOD } else { b with difficulty := d }
  else b

omit [GoFloat S] [GoConv S D] in
/-- parser.go:98-105 -/
def parseEvents (line : List Str) (b : BeatMap S D) : Result (BeatMap S D) := do
  let key ← index line 0
  if key = "Background".toList ∨ key = ['0'] then
    let bg ← index line 2
    return { b with bg := bg.filter (· != '"') }
  else if key = "Break".toList ∨ key = ['2'] then
    return { b with pauses := b.pauses ++ [← newPause line] }
  else return b

section
variable [GoLibm D]

/-- parser.go:107-113 -/
def parseHitObjects (fuel : Nat) (line : List Str) (b : BeatMap S D) : Result (BeatMap S D) := do
  match ← createObject fuel line with
  | some o => return { b with hitObjects := b.hitObjects ++ [o] }
  | none => return b

omit [GoFloat S] [GoFloat D] [GoConv S D] [GoLibm D] in
/-- parser.go:194-209: the counters, and the string that holds the time -/
def countObject (arr : List Str) (b : BeatMap S D) : Result (BeatMap S D × Str) := do
  let objType := parseInt (← index arr 3)
  if typeCircle objType then return ({ b with circles := b.circles + 1 }, ← index arr 2)
  else if typeSpinner objType then return ({ b with spinners := b.spinners + 1 }, ← index arr 5)
  else if typeSlider objType then return ({ b with sliders := b.sliders + 1 }, ← index arr 2)
  else if typeLongNote objType then
    let t ← index (split ':' (← index arr 5)) 0
    return ({ b with sliders := b.sliders + 1 }, t)
  else return (b, [])

/-- parser.go:193-214 -/
def parseHitObjectLine (fuel : Nat) (arr : List Str) (b : BeatMap S D) : Result (BeatMap S D) := do
  let (b, time) ← countObject arr b
  let b := { b with length := maxI b.length (parseInt time) }
  parseHitObjects fuel arr b

/-- The local variables of `ParseFromReader` (parser.go:147, 151, 153). -/
structure ParseState (S D : Type) where
  beatMap : BeatMap S D
  currentSection : Str
  counter : Nat

omit [GoFloat S] [GoConv S D] [GoLibm D] in
/-- parser.go:147-153 -/
def ParseState.init : ParseState S D :=
  { beatMap := BeatMap.new, currentSection := [], counter := 0 }

/-- parser.go:158-161 -/
def formatPrefix : Str := "osu file format v".toList

omit [GoFloat S] [GoConv S D] [GoFloat D] [GoLibm D] in
/-- parser.go:158-161 -/
def parseFormat (line : Str) (b : BeatMap S D) : BeatMap S D :=
  if hasPrefix line formatPrefix then
    { b with fileVersion := parseInt (line.drop formatPrefix.length) }
  else b

/-- parser.go:169-216 -/
def parseInSection (fuel : Nat) (sec line : Str) (st : ParseState S D) :
    Result (ParseState S D) := do
  let b := st.beatMap
  if sec = "General".toList then
    match tokenize2 line with
    | some (k :: v :: _) => return { st with beatMap := parseGeneral k v b }
    | _ => return st
  else if sec = "Metadata".toList then
    match tokenize2 line with
    | some (k :: v :: _) => return { st with beatMap := parseMetadata k v b }
    | _ => return st
  else if sec = "Difficulty".toList then
    match tokenize2 line with
    | some (k :: v :: _) => return { st with beatMap := parseDifficulty k v b }
    | _ => return st
  else if sec = "Events".toList then
    match tokenize line with
    | some arr =>
      if arr.length > 1 then return { st with beatMap := ← parseEvents arr b } else return st
    | none => return st
  else if sec = "TimingPoints".toList then
    match tokenize line with
    | some arr =>
      if arr.length > 1 then
        return { st with beatMap := ← b.parsePoint line, counter := st.counter + 1 }
      else return st
    | none => return st
  else if sec = "HitObjects".toList then
    match tokenize line with
    | some arr => return { st with beatMap := ← parseHitObjectLine fuel arr b }
    | none => return st
  else return st

/-- parser.go:155-217: one line -/
def parseLine (fuel : Nat) (st : ParseState S D) (line : Str) : Result (ParseState S D) :=
  let st := { st with beatMap := parseFormat line st.beatMap }
  let sec := getSection line
  if sec ≠ [] then .ok { st with currentSection := sec }
  else parseInSection fuel st.currentSection line st

/-- parser.go:155-217 -/
def parseLines (fuel : Nat) : List Str → ParseState S D → Result (ParseState S D)
  | [], st => .ok st
  | l :: ls, st => do parseLines fuel ls (← parseLine fuel st l)
end

/-- parser.go:229-233 -/
structure ComboState where
  num : Int := 0
  comboNumber : Int := 1
  comboSet : Int := 0
  comboSetHax : Int := 0
  forceNewCombo : Bool := false

omit [GoFloat S] [GoFloat D] [GoConv S D] in
/-- parser.go:235-254 -/
def comboLoop : ComboState → List (Obj S D) → List (Obj S D)
  | _, [] => []
  | c, o :: rest =>
    let (c, o) :=
      if o.isSpinner then ({ c with forceNewCombo := true }, o)
      else if o.base.newCombo || c.forceNewCombo then
        ({ c with
            comboNumber := 1, comboSet := c.comboSet + 1
            comboSetHax := c.comboSetHax + (o.base.colorOffset + 1), forceNewCombo := false },
         { o with base := { o.base with newCombo := true } })
      else (c, o)
    let o := { o with base := { o.base with
      hitObjectID := c.num, comboNumber := c.comboNumber, comboSet := c.comboSet
      comboSetHax := c.comboSetHax } }
    o :: comboLoop { c with comboNumber := c.comboNumber + 1, num := c.num + 1 } rest

variable [GoSort]

/-- parser.go:256-258 -/
def setTimings (fuel : Nat) (timings : Timings D) : List (Obj S D) → Result (List (Obj S D))
  | [] => .ok []
  | o :: rest => do
    let o ← o.setTiming fuel timings
    return o :: (← setTimings fuel timings rest)

/-- parser.go:219-262; `none` is the error `corrupted file` -/
def finishParse (fuel : Nat) (st : ParseState S D) : Result (Option (BeatMap S D)) := do
  let b := st.beatMap
  let b := { b with timings := b.timings.finalizePoints }
  if b.title ++ b.artist ++ b.creator = [] ∨ st.counter = 0 then return none
  else
    let objs := GoSort.stable (fun x y : Obj S D => x.base.startTime <. y.base.startTime) b.hitObjects
    let objs := comboLoop {} objs
    let objs ← setTimings fuel b.timings objs
    return some { b with
      hitObjects := Stacking.calculate b.fileVersion b.difficulty b.stackLeniency objs }

variable [GoLibm D]

/-- parser.go:16 -/
def bufferSize : Nat := 10 * 1024 * 1024

/-- parser.go:146-263 on the lines delivered by the scanner -/
def parseFromLines (fuel : Nat) (lines : List Str) : Result (Option (BeatMap S D)) := do
  finishParse fuel (← parseLines fuel lines ParseState.init)

/-- parser.go:142-144 and 146-263 on the decoded text -/
def parseText (fuel : Nat) (text : Str) : Result (Option (BeatMap S D)) :=
  parseFromLines fuel (scanLines bufferSize text)

end GosuPP
