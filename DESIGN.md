# Formal model of gosu-pp: design

The model is a Lean 4 transcription of the Go sources in `/repo`, function by
function, under `lean/Verif/`. Theorems about it are in `lean/Verif/Props/`;
`properties.jsonl` states the properties in English, `MANIFEST.json` lists the theorems of each.

## Layout

| directory | content |
|---|---|
| `Verif/Go/` | the fragment of Go that the code relies on: faults, floats, sorting, strings, number parsing, the line scanner |
| `Verif/Model/` | the code of `/repo`, one file per Go file or group of Go files; every definition cites file and lines |
| `Verif/Spec/` | small independent specifications that do not mention the model's helpers |
| `Verif/Lemmas/` | helper lemmas |
| `Verif/Props/` | one theorem group per property (`Cnn_…`), with examples that meet the hypotheses |
| `Verif/Exec/` | an executable instance over native floats used to run the model on the `.osu` files of `/repo/test` |
| `seeded/LOG.jsonl` | wrong programs the theorems were tried on, see below |
| `tools/` | `gen.py` writes `MANIFEST.json` and `lean/Verif.lean`, `table.py` lists the theorems |

## What is modelled

| Go file | model | remarks |
|---|---|---|
| `beatmap/difficulty/mods.go` | `Model/Mods.lean` | `Modifier` is `BitVec 64`; strings are character lists with their UTF-8 widths where bytes are sliced |
| `beatmap/difficulty/difficulty.go` | `Model/Difficulty.lean` | setters return the new value |
| `beatmap/timing/timing.go` | `Model/Timing.lean` | |
| `beatmap/objects/*.go`, `beatmap/audio` | `Model/Objects.lean`, `Placement.lean` | the objects are one type with a kind; hit sounds are read for their panics only |
| `beatmap/stackleniency.go` | `Model/Stacking.lean` | |
| `beatmap/parser.go`, `beatmap.go`, `pause.go` | `Model/Parser.lean` | from lines to a map |
| `files/utf.go`, `bufio.Scanner` | `Go/Scanner.lean`, `Model/Reader.lean` | the scanner loop of Go's `bufio` on a reader with arbitrary portions and errors |
| `files/utf.go`, `golang.org/x/text` v0.3.7 `BOMOverride`, UTF-8 and UTF-16 decoders | `Go/Unicode.lean` | as functions of the whole file; written from knowledge of the library, whose source is not in the sandbox; that `transform.NewReader` hands on the result in some portions is assumed |
| `math/curves/*.go`, `math/vector`, `math/math32` | `Model/Curves.lean`, `Bezier.lean`, `BezierCurve.lean`, `CurveAngles.lean`, `Vector.lean` | the Bézier scratch buffers are passed explicitly, so aliasing is visible |
| `math/mutils/utils.go` | `Model/Utils.lean` | |
| `performance/osu/preprocessing/*.go` | `Model/Preprocessing.lean` | |
| `performance/osu/skills/*.go` | `Model/Skills.lean` | the embedded struct and its function values are one structure with a kind |
| `performance/osu/difficulty.go` | `Model/DifficultyCalc.lean` | |
| `performance/osu/pp.go` | `Model/PP.lean`, `PPBase.lean` | |

Simplifications, each also noted at the definition:

* Go `int` is `Int`. Where it matters (`ParseInt`, `make` with absurd lengths, slice bounds) the 64 bit
  limits are modelled; counters of objects and hits are not wrapped.
* `int(x)` of a NaN, an infinity or a value out of range is unspecified in Go. The model returns what amd64
  returns (`-2^63`).
* `Fault.hang` stands for not returning. A loop in which the real program also grows a slice (strain
  sections, slider ticks) would be stopped by memory exhaustion rather than run forever.
* `BinomialCoefficient` has no overflow. Where a path is made from Catmull pieces, the loop that computes the unread length of
  each piece is left out (it is modelled in `CurveAngles.lean`).
* Lines that contain invalid UTF-8 are outside of the model (they can only occur in files with a byte order
  mark, see `Model/Reader.lean`).

Not modelled: how the decoder of `golang.org/x/text` behind `NewUnicodeReader` cuts its input and output into portions, the file system, memory limits,
`test/`. The code has no concurrency.

## Floating point

Go code uses `float32` (positions) and `float64` (times, strains). The model is
polymorphic in the two number types: a class `GoFloat` without laws supplies the
operations that the code uses, `GoLibm` the `math` functions that are not
correctly rounded (`pow`, `sin`, `cos`, ...), `GoConv` the two conversions.
A theorem is then of one of three kinds, named in its comment:

* **any arithmetic**: proved for every instance, in particular for the bits that a real
  machine computes, whatever they are;
* **IEEE**: proved for the instance `F64`/`F32` of `Verif/Go/IEEE.lean`
  (binary64/binary32, round to nearest even, signed zeros, infinities, one NaN), with an
  arbitrary `GoLibm`, or one that meets the stated hypotheses;
* **exact**: proved for the instance `ℝ`. Such a theorem says nothing about rounding, and the English
  statement says "in exact arithmetic".

A second exact instance, `Option ℝ` (`Go/Exact.lean`), has a NaN: division by zero, roots of negative numbers and
every operation on a NaN give NaN, and comparisons with it are false. There are no infinities. C86 to C88 use it,
so that no hypothesis on divisors is needed.

In `ℝ` there is no NaN and division by zero gives 0. The hypotheses of exact theorems keep divisors
away from zero; the exact theorems about whole calculations (C49, C62) concern only times and the number of
sections, which do not depend on angles (NaN for the first two objects) or on square roots.

Hypotheses on library functions, all of them explicit in the theorems:

* `LogBounds`: `0 ≤ log10 x ≤ 1` for `1 ≤ x ≤ 10` (C50, C51);
* `LibmSigns`: signs of `pow`, `sin`, and bounds by 1 on the ranges that occur (C51, C67);
* `PowSign`: `pow(x, 0.4)` is not negative (C48);
* `PowLaws`: powers of numbers in [0,1] stay there, powers of numbers up to `2^k` with exponents up to `m` stay below
  `2^(k*m)`, powers of numbers above 1 stay above 1, `0 ≤ log10 x ≤ 16` on [1, 2^53] (C69, C70);
* `TrigLaws`: finite sines are between -1 and 1, cube roots of numbers in [0, `2^k`] stay there, `0 ≤ log10 x ≤ 1` on [1, 10] (C70).
* `ArcLaws`: cosines and sines of numbers of at most 16 in magnitude are within `2^-30` of the real ones, arctangents of finite numbers are at most pi in magnitude (C114 only; `Sample.libm4` satisfies all laws at once).

## Control

* A Go panic is `Except.error Fault.panic`. A loop whose termination is not evident takes
  `fuel` and returns `Fault.hang` when it runs out; "diverges" is "`hang` for every fuel"
  and "terminates" is "not `hang` for some fuel".
* Pointers to objects become values in a list that is threaded through; aliasing is
  modelled where the code depends on it (the Bézier scratch buffers).
* `sort.Slice` and `sort.SliceStable` are a class `GoSort` with their documented contract only:
  a permutation, sorted when the comparison is a strict weak order, stable for `SliceStable`.
* Strings are lists of characters after UTF decoding.

## Where the code does not do what users expect

The properties describe the code that exists. Found while modelling, each proved:

* C03: `ParseMods` panics on odd lengths. C24: malformed records panic instead of giving an error.
* C26: the `Version` key is never read. C27: read errors and too long lines end a file silently.
* C76: two `AudioFilename` lines are run together. C77: timing point times that are not plain integers (`1000.5`, or with a
  space before them) are read as 0.
* C33, C34: paths that end in a doubled point are not extended; arcs under 8 px collapse to a point.
* C36: Bézier flattening does not terminate for some `float32` control points (it does for ordinary ones).
* C38, C73: `BinomialCoefficient` divides before it multiplies and is wrong inside of Pascal's triangle, so `Bezier` curves of
  five or of more than six points are wrong. C75: `AngleBetween32` can be NaN for points on one ray.
* C40: a missing `SliderMultiplier` makes the parser loop forever on any slider.
* C42: setting the timing of a slider twice doubles its score points.
* C44: the first result of `CalculateStep` has no ratings. C47: sliders without score points panic.
* C56: SpunOut gives negative PP for partial plays with fewer hits than spinners. C57: a miss instead of a 50
  can raise speed PP. C71: Hidden costs aim and speed PP above AR 12; TouchDevice raises aim PP for aim ratings
  below 1. C62: very late or very early objects hang or panic the calculation.

## Proof methods

| id | proof |
|---|---|
| C01–C05 | bit lemmas, induction over the name table / chunk list |
| C06 | induction over the setter history; any arithmetic |
| C07–C09, C11 | monotonicity of rounding and evaluation at end points |
| C10–C12 | field arithmetic |
| C13–C14, C20–C26 | induction over lines, frame lemmas per section, stable sort uniqueness |
| C15–C19 | binary search invariant, induction over points |
| C27 | simulation of the scanner loop by splitting the delivered bytes |
| C60, C61, C76, C77 | projection of the parser state to sections; induction over lines |
| C78 | a printer for numbers, records and files (`Spec/Written.lean`); reading a printed number, record, section and file, each by induction |
| C79 | invariant of all stacking loops: the list is the original with indices `v`, and `0 ≤ v j`, `v j + j < n`; the old inner loop also keeps room for its remaining iterations |
| C80 | composition: C78 (parses, objects), C79 (stack offsets), interval bounds of positions, stats and rates, then C62 (returns) and C70 (finite) |
| C81 | induction on the steps left in the tick loop with the accumulated rounding error as invariant; for the non-terminating cases an invariant that the loop variable stays below a barrier |
| C82 | forward error analysis: monotonicity of rounding gives the index and a fraction in [0, 1]; relative errors of each operation of `Lerp`; induction over the trimmed lines with bounds of what is left to trim; powers of two for square roots |
| C83 | C82 for the positions on the path; the progress of a slider is a number because its span duration is 0 or a product of bounded factors; then the IEEE bounds of C70/C80 for ratings and performance points |
| C84 | error of square roots against the real norm; triangle inequality for the trimmed line; induction over the fold of lengths and over the trimming loop with an invariant of what is left; then four rounded operations |
| C85 | composition: C78 (what the lines say), C24 (no panic), C84 (path length), C81 (tick loops end), interval bounds of velocity, tick distance and score point times, then C83; the heights of stacks stay a hypothesis |
| C86, C87, C88 | two-run simulation in any arithmetic: objects related by a map of the plane and a relation of times, and two difficulties, give equal results when distances, angles, windows and scaled time differences do not see the two (`Lemmas/Motion.lean`); then isometries of ℂ in exact arithmetic with NaN, commutativity of IEEE sums and products for the exchange of coordinates, exact sums of whole numbers for the shift of times |
| C89 | the interval invariant of C70 with a bound that does not grow when an object adds nothing (`process_by`, `run_idle`), and strain values of objects without movement in the interval from 0 to 0 |
| C90 | exact arithmetic with NaN (`Option ℝ`): the difficulty objects of a steady map all have the same values, so the strain obeys `s ↦ s·q + v`; an invariant over `process` (the section loop only decays) carries the sum and bounds the peaks |
| C91 | exact arithmetic with NaN: two runs side by side with a relation between the skills (`Ahead`: same times, strain and peaks not lower); the speed value, the rhythm bonus, the decay and the sorted weighted sum of peaks are monotone; aim and flashlight do not read the window |
| C92 | the same relation, between difficulty objects of two maps with the same times and wider gaps; the number of sections (and so the fuel) depends on times alone |
| C93 | the run of the aim skill by induction with the index of the object (`run_after_at`); the angle at each circle from `atan2` and the inner product; the previous objects all have the same angle and velocity |
| C94 | the same induction; the look-back loop of the flashlight skill by induction, with the cumulated time cancelled against the distance from the current object |
| C95 | exact arithmetic: each factor of the code is rewritten to the share of the specification, in the order the code multiplies them |
| C96 | exact arithmetic in the complex plane: the step of the code is the nearest point of a disc, which is unique; induction over the score points; the place of the ball is a walk along the path, which is Lipschitz |
| C97 | exact arithmetic with NaN; a map is a sequence of notes in the complex plane (`Spec/Notes`), every difficulty object shows a note; the strain machinery for arbitrary hits (`Spec/StrainCurve`): invariant over hits and sections, the peak of a section is the greatest element of the set of its strains |
| C98 | as C97; the state of the rhythm loop is described by the islands counted so far and the start of the open one (`Spec/Rhythm`), induction over the notes looked back at; islands exist and are unique by their order |
| C99 | as C97; the loop over the previous notes is a sum over them (`Spec/Memory`), induction over the loop |
| C100 | as C97; the sorted list is determined by being a descending permutation, so every sort gives `hardestFirst` (`Spec/Rating`); peaks are not negative, so no root is NaN |
| C101 | from C100: each hit adds no more without sliders (the bonus for sharp angles is monotone because the penalty for repetition is at most a half), greatest elements, monotone value of peaks |
| C102 | from C100: the hardest section alone gives the lower bound, the geometric series the upper one |
| C103 | from C100: a rating is zero iff all peaks are, a peak is at least each hit of its section, a hit is zero iff velocity and change of velocity are |
| C104 | notes of two maps in lockstep (`Spec/Enlarged`): every factor of a hit is monotone in the distances at equal angles, then strain curves, peaks, weighted sums and stars are |
| C105 | `IsNumber` is kept by every step of the file reader, the curves (all types, invariant over the Bezier memory), `SetTiming`, stacking and the cursor; the rest is C97 and C100 |
| C106 | subdivision ends (second differences fall by 4 each time), the arc has at most 2^48 bytes of segments, ticks are at least a tenth of the slider multiplier apart; then one step bound for all sliders, and C105 |
| C107 | C36 in float32 with bounds: the pieces of a subdivision keep all coordinates at or above one, or, for whole coordinates and at most six points, all are multiples of 2^-47 down to the last level of subdivision, so two points that differ are at least 2^-47 apart, and their lines together are at most 6157 px per control point; then C84, C81 and C83 as for C85; the heights of stacks stay a hypothesis |
| C108 | What a note adds to aim and flashlight strain does not fall with speed (each bonus on its own; a slider's time and the time left after it shrink together), decay over a shorter time is weaker, and each section's peak is a strain of some note or a decayed one; other mods through C68. Speed strain, and the ratings as weighted sums over sections, are not covered |
| C109 | The performance formula on numbers with an undefined value agrees with the one on reals once the four ratings, effective AR and effective OD are numbers (`Lemmas/ExactPP`); ratings from C100, C101 and C105, nonnegativity from C56, OD through the closed form of C95 (`Lemmas/PPStricter`) and C91, CS through C104. With sliders, CS can change the slider factor, so only maps without sliders are compared. |
| C110 | Closed forms in `Spec/Derived`; the model's clamped interpolation is the piecewise linear function, and effective AR and OD are characterised through the function they invert. |
| C111 | `Spec/Shown` says where a place is shown; stack offsets from the stacking theorems (C29 for spinners). |
| C112 | Table of names in `Spec/Names`; the loops over the tables are filters, and the 64 bits are compared by a lemma on single bits. |
| C113 | Closed form of each function, with the ratio of C17; the statement relates them without repeating the formulas. |
| C114 | Error analysis of the circle through three whole points (`Lemmas/ArcIEEE`): numerators and determinant are nearly exact, the error of the centre is at most 1/140 of the radius; the end angle is unwound at most twice; neighbouring points of the arc are between 1 and 32 px apart (`Lemmas/ArcLines`); then as for C107, whose part after the paths is stated for any sliders whose paths are made |
| C115 | Both decoders on whole inputs: each character passes unchanged (case analysis over the lengths of its sequence), so whole texts do by induction; induction along the decoders shows that their output is always a text (`Lemmas/Unicode`); then C27 |
| C116 | The lines of a part by induction over the control points; the polynomial of the code has the values and derivatives that the specification asks for (`Spec/Catmull.lean`: cubic, end points, speeds by `HasDerivAt`), which determine it; the distance to a chord is s(1-s)h²/2 times the second derivative at a mean time, exactly, for cubics. |
| C117 | The fifty times of a part and their rounded squares and cubes are multiples of 2^-41 (a table of 51 entries, decided by the kernel); rounding keeps such multiples, so for whole control points all points of the path are multiples of 2^-42 of at most 2^14 in magnitude, and points that differ are far enough apart for C84; then as for C107 and C114 |
| C118 | The construction of a path uses the points only through midpoints, weighted means, interpolation and differences, which commute with the map, and through lengths and equality, which it preserves (`Fits`); induction over subdivision, pieces, lines and trimming. Centre and angles of an arc are computed for the translated points by field arithmetic |
| C119 | Simulation of the run on the exchanged file by the run on the original one: lines before the objects are the same and need no fuel (`lines_fuel`), each object line gives the exchanged object (`create_flipped`, from C118), sorting, combos, ticks (`setTiming_flip`) and the three passes of stacking (`calculate_flip`) commute with the exchange; the ratings are those of C86 |
| C120 | The parts of the state that belong to other sections are the same (C60); whether a line of an object can be read does not depend on the lines before it; counters and length are sums and maxima over a permutation; the objects are a `filterMap` of the lines, and two stable sorts of permutations whose elements at each time are in the same order are equal (`sorted_unique`) |
| C121 | Each part of the state depends on the lines of its own section only (C60), the stack leniency on its last value (C76); the end of the parser uses the timing points and the objects only. `C121_read` asks for the same Events lines because a malformed record there can panic |
| C122 | A line of a timing point is read without regard to the lines before it and never panics; the points are a `filterMap` of the lines and stable sorting makes them equal as in C120. `math.Min` and `math.Max` are shown to commute on results of operations, NaN, infinities and signed zeros included, so the bounds of the tempo are the same as well |
| C28–C31 | loop invariants on the stack index array, simulation between variants |
| C32–C34, C64, C65, C72 | any arithmetic for totality and for the parts of a path, exact for lengths, arcs and positions |
| C35–C37, C63 | refinement of the buffer-passing code to a recursion; second-difference contraction; a `float32` fixed point |
| C38, C73 | Bernstein weights against the recursion of de Casteljau, in ℂ |
| C74, C75 | trigonometry; the line found by the binary search |
| C39–C42 | loop invariants of `SetTiming` |
| C43–C47, C68 | prefix induction and congruence, any arithmetic |
| C48, C49, C62 | IEEE error bounds for the section ends; exact counting |
| C50, C51, C67 | monotonicity and signs of rounded operations |
| C52–C58, C66, C71 | algebra, real `rpow` monotonicity; IEEE for accuracy and miss counts |
| C59 | omega |
| C69, C70 | interval arithmetic over rounded operations; loop invariants of the skills |

## Tests of the model and of the theorems

* The executable instance was run on the maps of `/repo/test`. It reproduces the values expected by
  `test/osu_sr_test.go` within that test's tolerance of 1e-4: Lost Umbrella aim 4.633597, speed 2.812916,
  total 8.234703; Save Me PP 481.497396 (no mod), 1733.494975 (DoubleTime), 639.580419 (HardRock).
* The rational model of IEEE arithmetic was compared with hardware floats on 20000 random operations
  without a difference.
* Wrong programs: definitions of the model were edited the way a realistic bug would, in a copy outside of
  `/verif`, everything was rebuilt and the property theorems that no longer hold were recorded in
  `seeded/LOG.jsonl`.

## Trusted base

* Lean's kernel. Axioms used: at most `propext`, `Classical.choice`, `Quot.sound`.
* That the model is a faithful reading of `/repo`, of the used parts of `strconv`, `strings`, `bufio` and
  `sort` (the code was not run).
* For IEEE theorems: that Go evaluates each operation separately in binary64/binary32
  (true on amd64; the Go specification allows fused multiply-add on other platforms).
* Theorems for any arithmetic are not affected by the last point as long as equal expressions are compiled
  equally.
