import Verif.Spec.Objects

/-!
# Specification of written files: how numbers, timing points, objects and whole maps are put down as text

Nothing here mentions the parser. `File.text` is the file that an editor writes for a map.
-/

namespace GosuPP.Spec
open Go GosuPP

/-- The decimal digits of a natural number. -/
def digits (n : Nat) : Str :=
  if n < 10 then [Char.ofNat (48 + n)] else digits (n / 10) ++ [Char.ofNat (48 + n % 10)]

/-- An integer as text. -/
def showInt (n : Int) : Str := (if n < 0 then ['-'] else []) ++ digits n.natAbs

/-- A decimal number: sign, whole part, digits behind the point. -/
structure Dec where
  neg : Bool
  whole : Nat
  frac : List (Fin 10)

/-- A decimal number as text. -/
def Dec.show (d : Dec) : Str :=
  (if d.neg then ['-'] else []) ++ digits d.whole ++
    (if d.frac = [] then [] else '.' :: d.frac.map (fun x => Char.ofNat (48 + x.val)))

/-- The value of digits behind the point. -/
def fracValue : List (Fin 10) → ℚ
  | [] => 0
  | x :: xs => (x.val + fracValue xs) / 10

/-- The float nearest to a decimal number, with its sign. -/
def Dec.value {F : Type} [GoFloat F] (d : Dec) : F :=
  if d.neg then fneg (lit (d.whole + fracValue d.frac)) else lit (d.whole + fracValue d.frac)

/-- An integer as a decimal number. -/
def Dec.int (n : Int) : Dec := ⟨decide (n < 0), n.natAbs, []⟩

/-- Pieces with a separator between them. -/
def join (c : Char) : List Str → Str
  | [] => []
  | [a] => a
  | a :: b :: r => a ++ c :: join c (b :: r)

/-- A timing point as it is written. -/
structure TimingLine where
  time : Int
  beatLength : Dec
  signature : Int
  sampleSet : Int
  sampleIndex : Int
  volume : Int
  inherited : Bool
  kiai : Bool
  omitBar : Bool

def TimingLine.fields (p : TimingLine) : List Str :=
  [showInt p.time, p.beatLength.show, showInt p.signature, showInt p.sampleSet, showInt p.sampleIndex, showInt p.volume,
    if p.inherited then ['0'] else ['1'], showInt ((if p.kiai then 1 else 0) + (if p.omitBar then 8 else 0))]

/-- What an object line begins with. -/
structure Head where
  x : Dec
  y : Dec
  time : Int
  newCombo : Bool
  skip : Fin 8
  sound : Int

/-- An object as it is written. -/
inductive ObjectLine where
  | circle (h : Head)
  | spinner (h : Head) (until_ : Int)
  | slider (h : Head) (curve : Char) (points : List (Dec × Dec)) (repeats : Int) (length : Dec)

def ObjectLine.head : ObjectLine → Head
  | circle h => h
  | spinner h _ => h
  | slider h _ _ _ _ => h

def ObjectLine.kind : ObjectLine → LineKind
  | circle _ => .circle
  | spinner _ _ => .spinner
  | slider _ _ _ _ _ => .slider

/-- The last time on the line. -/
def ObjectLine.last : ObjectLine → Int
  | spinner _ e => e
  | o => o.head.time

/-- The type field. -/
def typeField (kind : Int) (h : Head) : Int := kind + (if h.newCombo then 4 else 0) + 16 * h.skip.val

def Head.fields (h : Head) (kind : Int) : List Str :=
  [h.x.show, h.y.show, showInt h.time, showInt (typeField kind h), showInt h.sound]

def ObjectLine.fields : ObjectLine → List Str
  | circle h => h.fields 1
  | spinner h e => h.fields 8 ++ [showInt e]
  | slider h c ps r l =>
    h.fields 2 ++ [join '|' ([c] :: ps.map (fun p => p.1.show ++ ':' :: p.2.show)), showInt r, l.show]

/-- A map as it is written. -/
structure File where
  version : Int
  audio : Str
  previewTime : Int
  mode : Int
  stackLeniency : Dec
  title : Str
  titleUnicode : Str
  artist : Str
  artistUnicode : Str
  creator : Str
  source : Str
  tags : Str
  mapID : Int
  setID : Int
  hp : Dec
  cs : Dec
  od : Dec
  ar : Dec
  sliderMultiplier : Dec
  tickRate : Dec
  background : Str
  breaks : List (Dec × Dec)
  points : List TimingLine
  objects : List ObjectLine

namespace File

def general (f : File) : List (String × Str) :=
  [("AudioFilename", f.audio), ("AudioLeadIn", ['0']), ("PreviewTime", showInt f.previewTime),
    ("StackLeniency", f.stackLeniency.show), ("Mode", showInt f.mode)]

def metadata (f : File) : List (String × Str) :=
  [("Title", f.title), ("TitleUnicode", f.titleUnicode), ("Artist", f.artist), ("ArtistUnicode", f.artistUnicode),
    ("Creator", f.creator), ("Version", "Normal".toList), ("Source", f.source), ("Tags", f.tags),
    ("BeatmapID", showInt f.mapID), ("BeatmapSetID", showInt f.setID)]

def difficulty (f : File) : List (String × Str) :=
  [("HPDrainRate", f.hp.show), ("CircleSize", f.cs.show), ("OverallDifficulty", f.od.show), ("ApproachRate", f.ar.show),
    ("SliderMultiplier", f.sliderMultiplier.show), ("SliderTickRate", f.tickRate.show)]

def events (f : File) : List (List Str) :=
  [['0'], ['0'], '"' :: f.background ++ ['"'], ['0'], ['0']] :: f.breaks.map (fun b => [['2'], b.1.show, b.2.show])

/-- A line `key: value`. -/
def pair (p : String × Str) : Str := p.1.toList ++ ':' :: ' ' :: p.2

/-- The sections and their lines. -/
def sections (f : File) : List (String × List Str) :=
  [("General", f.general.map pair), ("Metadata", f.metadata.map pair), ("Difficulty", f.difficulty.map pair),
    ("Events", f.events.map (join ',')), ("TimingPoints", f.points.map (fun p => join ',' p.fields)),
    ("HitObjects", f.objects.map (fun o => join ',' o.fields))]

/-- The lines of the file: the format line, then the sections, each below its header. -/
def lines (f : File) : List Str :=
  ("osu file format v".toList ++ showInt f.version) ::
    f.sections.flatMap (fun s => ('[' :: s.1.toList ++ [']']) :: s.2)

def text (f : File) : Str := f.lines.flatMap (fun l => l ++ ['\n'])

/-- What can be written in a line. -/
def Word (s : Str) : Prop := '\n' ∉ s ∧ '\r' ∉ s ∧ trimSpace s = s

def Int64 (n : Int) : Prop := -9223372036854775808 ≤ n ∧ n ≤ 9223372036854775807

def GoodPoint (p : TimingLine) : Prop :=
  Int64 p.time ∧ Int64 p.signature ∧ Int64 p.sampleSet ∧ Int64 p.sampleIndex ∧ Int64 p.volume

def GoodObject (o : ObjectLine) : Prop :=
  Int64 o.head.time ∧ Int64 o.head.sound ∧
  match o with
  | .circle _ => True
  | .spinner _ e => Int64 e
  | .slider _ c _ r _ => c ∈ ['L', 'P', 'B', 'C'] ∧ Int64 r

/-- Texts fit on lines, integers fit in 64 bits, no line is as long as the reader's buffer. -/
structure Good (f : File) : Prop where
  audio : Word f.audio
  title : Word f.title
  titleUnicode : Word f.titleUnicode
  artist : Word f.artist
  artistUnicode : Word f.artistUnicode
  creator : Word f.creator
  source : Word f.source
  tags : Word f.tags
  background : '\n' ∉ f.background ∧ '\r' ∉ f.background ∧ ',' ∉ f.background ∧ '"' ∉ f.background
  version : Int64 f.version
  previewTime : Int64 f.previewTime
  mode : Int64 f.mode
  mapID : Int64 f.mapID
  setID : Int64 f.setID
  points : ∀ p ∈ f.points, GoodPoint p
  objects : ∀ o ∈ f.objects, GoodObject o
  short : ∀ l ∈ f.lines, byteLen l < bufferSize

end File

variable {S D : Type} [GoFloat S] [GoFloat D]

/-- The timing point that a line describes. -/
def TimingLine.point (p : TimingLine) : ControlPoint D :=
  { time := ofInt p.time, beatLengthBase := p.beatLength.value, beatLength := p.beatLength.value
    sampleSet := p.sampleSet, sampleIndex := p.sampleIndex, sampleVolume := ofInt p.volume /. lit 100
    signature := if p.signature = 0 then 4 else p.signature
    inherited := p.inherited, kiai := p.kiai, omitFirstBarLine := p.omitBar }

/-- `o` is the object that a line describes. -/
structure LineDescribes [GoConv S D] [GoLibm D] (fuel : Nat) (l : ObjectLine) (o : Obj S D) : Prop where
  start : o.base.startPosRaw = ⟨l.head.x.value, l.head.y.value⟩
  time : o.base.startTime = (Dec.int l.head.time).value
  newCombo : o.base.newCombo = l.head.newCombo
  skip : o.base.colorOffset = l.head.skip.val
  rest : match l with
    | .circle h => o.kind = .circle ∧ o.base.endPosRaw = o.base.startPosRaw ∧ o.base.endTime = o.base.startTime ∧
        o.base.sounds = [h.sound]
    | .spinner h e => o.kind = .spinner ∧ o.base.endPosRaw = o.base.startPosRaw ∧ o.base.endTime = (Dec.int e).value ∧
        o.base.sounds = [h.sound]
    | .slider h c ps r len => ∃ s, o.kind = .slider s ∧ s.repeatCount = r ∧ s.pixelLength = len.value ∧
        MultiCurve.newT fuel [c] (⟨h.x.value, h.y.value⟩ :: ps.map (fun p => ⟨p.1.value, p.2.value⟩)) (len.value : D) =
          .ok s.multiCurve ∧
        s.multiCurve.pointAt (lit 1) = .ok o.base.endPosRaw ∧
        o.base.sounds = List.replicate (r + 1).toNat h.sound

end GosuPP.Spec
