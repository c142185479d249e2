{"id": "C01", "title": "Mod string round trip", "statement": "For every modifier value, ParseMods(m.String()) does not panic and returns m restricted to the 32 named mods, with the mods implied by Nightcore (DoubleTime), Perfect (SuddenDeath) and Daycore (HalfTime) switched on. In particular it returns m itself for every m made of named mods that is closed under those implications.", "quantifier": "all int64 modifier values", "why_tests_cant": "2^64 values; the closure rules interact with the bit-to-name table", "anchors": ["beatmap/difficulty/mods.go:String", "beatmap/difficulty/mods.go:ParseMods", "beatmap/difficulty/mods.go:Active"]}
{"id": "C02", "title": "ParseMods specification", "statement": "On a string of two-character ASCII chunks, ParseMods returns exactly the union of the bits of the chunks that are mod names (unknown chunks are ignored), closed under the NC/PF/DC implications; so the order and multiplicity of the chunks do not matter.", "quantifier": "all lists of two-character ASCII chunks, of any length", "why_tests_cant": "unbounded strings", "anchors": ["beatmap/difficulty/mods.go:ParseMods"]}
{"id": "C03", "title": "ParseMods panics on odd-length input", "statement": "ParseMods panics (index out of range) on every ASCII string of odd length, and on no ASCII string of even length. Users expect it never to panic; that is false.", "quantifier": "all ASCII strings", "why_tests_cant": "unbounded strings", "anchors": ["beatmap/difficulty/mods.go:ParseMods"]}
{"id": "C04", "title": "Compatible is downward closed", "statement": "If a set of mods is Compatible then so is every subset of it, and Compatible is false for every set that contains one of the listed conflicting pairs (or Target).", "quantifier": "all pairs of int64 modifier values", "why_tests_cant": "2^128 pairs", "anchors": ["beatmap/difficulty/mods.go:Compatible", "beatmap/difficulty/mods.go:Active"]}
{"id": "C05", "title": "Score multiplier", "statement": "GetScoreMultiplier is 0 for every mod set containing Relax or Autopilot, is positive for every other mod set, and does not depend on any mod other than NF, EZ, HT, HD, HR, DT, FL, RX, AP, SO and V2. In exact arithmetic it is the product of one factor for each of these mods in the set: 0.5 for NF (1 with V2) and EZ, 0.3 for HT, 1.06 for HD, 1.06 for HR (1.1 with V2), 1.12 for DT (1.2 with V2), 1.12 for FL, 0 for RX and AP, 0.9 for SO.", "quantifier": "all int64 modifier values", "why_tests_cant": "2^64 values", "anchors": ["beatmap/difficulty/mods.go:GetScoreMultiplier"]}
{"id": "C06", "title": "Difficulty is independent of call history", "statement": "After any sequence of SetHP/SetCS/SetOD/SetAR/SetMods/SetCustomSpeed calls on a NewDifficulty value, every derived field (Preempt, CircleRadius, hit windows, HPMod, SpinnerRatio, Speed, ARReal, ODReal) equals what one obtains by constructing a fresh Difficulty from the last value given to each setter. The getters return exactly the last value set, whatever mods are active.", "quantifier": "all finite sequences of setter calls with arbitrary float arguments", "why_tests_cant": "unbounded histories", "anchors": ["beatmap/difficulty/difficulty.go:calculate", "beatmap/difficulty/difficulty.go:SetMods", "beatmap/difficulty/difficulty.go:SetAR", "beatmap/difficulty/difficulty.go:NewDifficulty"]}
{"id": "C07", "title": "Derived difficulty values stay in range", "statement": "For base stats in [0,10], any mods and IEEE arithmetic: Preempt is in [450,1800], CircleRadius is positive and within its documented range, Hit300/Hit100/Hit50 are in [20,80], [60,140], [100,200], SpinnerRatio in [3,7.5], HPMod in [0,10]; none is NaN or infinite.", "quantifier": "all float64 hp, cs, od, ar in [0,10], all mods", "why_tests_cant": "2^256 inputs; rounding", "anchors": ["beatmap/difficulty/difficulty.go:calculate", "beatmap/difficulty/difficulty.go:DifficultyRate"]}
{"id": "C08", "title": "Difficulty is monotone in its base stats", "statement": "In IEEE arithmetic with any mods, raising AR never raises Preempt, raising CS never raises CircleRadius, raising OD never raises Hit300, Hit100 or Hit50 and never lowers SpinnerRatio.", "quantifier": "all pairs of float64 stats, all mods", "why_tests_cant": "rounding could break monotonicity at any pair of adjacent floats", "anchors": ["beatmap/difficulty/difficulty.go:DifficultyRate", "beatmap/difficulty/difficulty.go:calculate"]}
{"id": "C09", "title": "Hit windows are ordered", "statement": "For OD in [0,10] and any mods, Hit300 < Hit100 < Hit50 in IEEE arithmetic.", "quantifier": "all float64 od in [0,10], all mods", "why_tests_cant": "continuum of inputs", "anchors": ["beatmap/difficulty/difficulty.go:calculate"]}
{"id": "C10", "title": "Effective AR/OD invert the rate formulas", "statement": "In exact arithmetic DiffFromRate undoes DifficultyRate for every stat value; hence without HR/EZ/DT/HT and at custom speed 1, ARReal = GetAR() and ODReal = GetOD().", "quantifier": "all real stat values", "why_tests_cant": "continuum of inputs", "anchors": ["beatmap/difficulty/difficulty.go:DifficultyRate", "beatmap/difficulty/difficulty.go:DiffFromRate"]}
{"id": "C11", "title": "Effective AR/OD are bounded for every speed", "statement": "For base stats in [0,10], any mods and any positive custom speed, ARReal <= 13 and ODReal <= 40/3 in exact arithmetic, so the accuracy exponent (14.5-max(ODReal,8))/2 and the Hidden bonus used by PP are always positive.", "quantifier": "all stats in [0,10], all mods, all positive speeds", "why_tests_cant": "continuum of inputs", "anchors": ["beatmap/difficulty/difficulty.go:calculate", "performance/osu/pp.go:computeSpeedValue"]}
{"id": "C12", "title": "Rate mods", "statement": "DoubleTime takes precedence over HalfTime; in exact arithmetic Speed is 1.5x, 0.75x or 1x the custom speed; mods that change speed never change Preempt, CircleRadius, the hit windows, SpinnerRatio or HPMod, and neither does the custom speed.", "quantifier": "all mods, all positive custom speeds", "why_tests_cant": "all mod combinations and speeds", "anchors": ["beatmap/difficulty/difficulty.go:GetModifiedTime", "beatmap/difficulty/difficulty.go:calculate"]}
{"id": "C13", "title": "Clamped stats after parsing", "statement": "Whatever the file contains, the AR/OD/CS/HP a parsed map reports are in [0,10] unless the file gives a NaN for that stat; a stat written NaN is reported as NaN (so the range claim without the exception is false).", "quantifier": "all sequences of Difficulty-section lines", "why_tests_cant": "unbounded files", "anchors": ["beatmap/parser.go:parseDifficulty", "math/mutils/utils.go:ClampF64"]}
{"id": "C14", "title": "AR defaults to OD", "statement": "After any sequence of Difficulty-section lines, GetAR() is the last ApproachRate given if there is one (whether it came before or after OverallDifficulty), otherwise the last OverallDifficulty if there is one, otherwise 5.", "quantifier": "all sequences of Difficulty-section lines", "why_tests_cant": "unbounded sequences and orders", "anchors": ["beatmap/parser.go:parseDifficulty"]}
{"id": "C15", "title": "Timing point lookup", "statement": "After FinalizePoints, GetPointAt(t) returns the last point (in the stable time order) whose time is <= t, or the earliest point when t precedes all of them; GetOriginalPointAt does the same among the uninherited points. It panics only when there is no point.", "quantifier": "all multisets of timing points without NaN times, all query times", "why_tests_cant": "unbounded lists; binary search", "anchors": ["beatmap/timing/timing.go:GetPointAt", "beatmap/timing/timing.go:GetOriginalPointAt", "beatmap/timing/timing.go:FinalizePoints"]}
{"id": "C16", "title": "Inherited points take the base beat length of the last uninherited point", "statement": "After FinalizePoints every point's base beat length is the beat length of the nearest point at or before it (in stable time order) that is not inherited or is the first point.", "quantifier": "all lists of timing points", "why_tests_cant": "unbounded lists", "anchors": ["beatmap/timing/timing.go:FinalizePoints"]}
{"id": "C17", "title": "Slider velocity ratio is clamped", "statement": "GetRatio of every control point lies between float32(10)/100 and 10, whatever the beat length (NaN and infinities included). In exact arithmetic it is 1 for a beat length that is not negative, and one hundredth of the size of a negative one, which counts as at least 10 and at most 1000.", "quantifier": "all float64 beat lengths", "why_tests_cant": "2^64 inputs incl. NaN", "anchors": ["beatmap/timing/timing.go:GetRatio"]}
{"id": "C18", "title": "FinalizePoints can be repeated", "statement": "Calling FinalizePoints again, any number of times, changes no answer of GetPointAt and no answer of GetOriginalPointAt, although the list behind the latter grows by a full copy with every call and is then no longer sorted.", "quantifier": "all lists of timing points without NaN times, any number of calls, all query times", "why_tests_cant": "unbounded lists", "anchors": ["beatmap/timing/timing.go:FinalizePoints"]}
{"id": "C19", "title": "MinBPM and MaxBPM bracket every tempo", "statement": "After parsing any number of timing points, MinBPM <= 60000/b <= MaxBPM for every given beat length b >= 0 and both are attained (or are the initial values +Inf and 0 when there is no such point).", "quantifier": "all sequences of timing points", "why_tests_cant": "unbounded sequences", "anchors": ["beatmap/beatmap.go:ParsePoint"]}
{"id": "C20", "title": "Hit objects are stably sorted", "statement": "In a successfully parsed map the hit objects are ordered by start time, objects with equal start time keep file order, and no object created from a line is lost or duplicated.", "quantifier": "all files without NaN start times", "why_tests_cant": "unbounded files", "anchors": ["beatmap/parser.go:ParseFromReader", "beatmap/objects/util.go:CreateObject"]}
{"id": "C21", "title": "Object ids and combo numbering", "statement": "In a parsed map object ids are 0..n-1 in order; combo numbers count up from 1 and restart exactly at new-combo non-spinner objects; the combo set is the number of combo starts so far; the first non-spinner after a spinner always starts a combo.", "quantifier": "all lists of hit objects", "why_tests_cant": "unbounded lists", "anchors": ["beatmap/parser.go:ParseFromReader"]}
{"id": "C22", "title": "Object counters and length", "statement": "Circles, Sliders and Spinners count the hit object lines of each kind by type-bit priority (hold notes count as sliders but create no object), Circles+Sliders+Spinners minus hold notes equals the number of hit objects, and Length is the maximum of 0 and the parsed line times.", "quantifier": "all files", "why_tests_cant": "unbounded files", "anchors": ["beatmap/parser.go:ParseFromReader"]}
{"id": "C23", "title": "When parsing reports an error", "statement": "ParseFromReader returns the 'corrupted file' error exactly when Title, Artist and Creator are all empty or no timing-point line was seen (given that no line makes it panic).", "quantifier": "all files", "why_tests_cant": "unbounded files", "anchors": ["beatmap/parser.go:ParseFromReader"]}
{"id": "C24", "title": "Malformed records make ParseFromReader panic instead of returning an error", "statement": "Call a record malformed when it is: a HitObjects record (a line of that section with a comma, not a comment) with fewer than 4 fields, a circle with fewer than 5, a spinner or hold note with fewer than 6, a slider with fewer than 8 fields, with a path point without ':', with a repeat count below -1 or of at least 2^45, or with more edge sounds than slider ends; or an Events background or break record with fewer than 3 fields. Users expect an error for such a file. Instead: (1) ParseFromReader never returns, neither a map nor its error, for a file with a malformed record anywhere; (2) when no slider of the file is an arc or a Bezier curve it panics exactly when there is a malformed record; (3) in any file a panic means that there is a malformed record or a three point arc.", "quantifier": "all files", "why_tests_cant": "unbounded files; the record can be anywhere", "anchors": ["beatmap/parser.go:ParseFromReader", "beatmap/parser.go:parseEvents", "beatmap/objects/slider.go:NewSlider", "beatmap/objects/baseobject.go:commonParse"]}
{"id": "C25", "title": "Comments and unknown sections are inert", "statement": "Inserting a line that starts with '//' anywhere, or any lines while an unknown section (or none) is in force, does not change what parsing does (map, error, panic or hang), provided the inserted lines are shorter than the scanner's 10 MiB buffer and those of an unknown section are neither headers nor start with 'osu file format v'. The last exception is needed: a format line counts in every section and changes the file version.", "quantifier": "all files, all insertion points", "why_tests_cant": "unbounded files", "anchors": ["beatmap/parser.go:tokenizeN", "beatmap/parser.go:ParseFromReader"]}
{"id": "C26", "title": "The Version key is never read", "statement": "The difficulty name of a map (the 'Version:' key of the Metadata section) never reaches BeatMap.Version: only a 'FileVersion:' key sets it. Users expect the former; that is false.", "quantifier": "all files without a FileVersion metadata key", "why_tests_cant": "unbounded files", "anchors": ["beatmap/parser.go:parseMetadata"]}
{"id": "C27", "title": "Read errors are swallowed", "statement": "ParseFromReader never reports a read error. Whatever portions the reader delivers its data in and whatever error it fails with (EOF or any other, or giving up after 101 empty reads), the outcome is the one for a complete file that consists of the bytes delivered before the error; the only exception is a last line of exactly 10 MiB that arrives along with the error. A file with a line of 10 MiB or more gives the same outcome as the file cut before that line.", "quantifier": "all readers, all portions, all failure points, all files", "why_tests_cant": "all failure points and all ways of splitting the data into reads", "anchors": ["beatmap/parser.go:ParseFromReader", "files/utf.go:NewScannerBuf"]}
{"id": "C28", "title": "Stacking variants do not interfere", "statement": "The NM, EZ and HR stack indices and offsets computed for a map are each what one would get by running only that variant; the order in which the variants are computed does not matter.", "quantifier": "all object lists", "why_tests_cant": "unbounded lists", "anchors": ["beatmap/stackleniency.go:calculateStackLeniency", "beatmap/stackleniency.go:processStacking"]}
{"id": "C29", "title": "Spinners are never stacked", "statement": "After parsing every spinner has stack index 0 and zero stack offset for every mod combination, and stacking changes no object's times, raw positions, combo data or id.", "quantifier": "all object lists", "why_tests_cant": "unbounded lists", "anchors": ["beatmap/stackleniency.go:processStacking"]}
{"id": "C30", "title": "A stack of n circles", "statement": "n circles of a map that are within 3 px of each other and not of any other object, each starting within the stack threshold of the previous one (measured as the algorithm in question measures it), get stack indices n-1, n-2, ..., 0, for every mod variant, under both the old and the new algorithm. In particular a map of n circles at one place gets these indices.", "quantifier": "all maps, all groups of circles in them, any arithmetic", "why_tests_cant": "all n", "anchors": ["beatmap/stackleniency.go:applyNewStacking", "beatmap/stackleniency.go:applyOldStacking"]}
{"id": "C31", "title": "Isolated objects are not stacked", "statement": "If no two objects of the map are within the stack distance of each other (by start or end position; spinners do not count from format 6 on), every stack index is 0 for every mod variant under both algorithms, and in IEEE arithmetic every stacked position equals the raw (for HardRock: flipped) position.", "quantifier": "all object lists; any arithmetic for the indices, IEEE for the positions", "why_tests_cant": "unbounded lists", "anchors": ["beatmap/stackleniency.go:applyNewStacking", "beatmap/stackleniency.go:applyOldStacking"]}
{"id": "C32", "title": "Curve lookup is total", "statement": "PointAt on any slider path returns a point for every t (including NaN and infinities) without panicking, and so does the position of every object of a parsed map at every time. In IEEE arithmetic all t<=0 give the same point, all t>=1 give the same point, and on a linear or Bezier path of finite length every t<=0 gives the first control point (numerically).", "quantifier": "all curves, all float32 t", "why_tests_cant": "all inputs incl. NaN", "anchors": ["math/curves/multicurve.go:PointAt"]}
{"id": "C33", "title": "Slider paths have the requested length", "statement": "In exact arithmetic a slider path whose untrimmed length L is positive and that is built with desired length D > 0.0001 has length exactly D if D <= L + 0.0001 or its last line is not a single point; up to D - 0.0001 (and L) it is the same path as the untrimmed one. It is empty if D <= 0.0001, and a path of length 0 keeps length 0. If the last line is a single point (for example a Bezier slider that ends in a doubled control point) and D is larger than L, the path is not extended and keeps length L: the expected 'length D' is false there.", "quantifier": "all control point lists, all desired lengths", "why_tests_cant": "unbounded polylines", "anchors": ["math/curves/multicurve.go:NewMultiCurveT"]}
{"id": "C34", "title": "Short circular arcs collapse", "statement": "A three-point circular slider (type P) whose arc is shorter than 8 px produces no line segments: its path has length 0, its position is the start position at all times and its end time is its start time, whatever pixel length the file requests. The expected 'path has the requested length' is false for them.", "quantifier": "all such arcs; exact arithmetic for the 8 px bound, any arithmetic for the collapse", "why_tests_cant": "continuum of inputs", "anchors": ["math/curves/approximation.go:ApproximateCircularArc"]}
{"id": "C35", "title": "Bezier flattening with buffer reuse is recursive subdivision", "statement": "CreateBezier, which recycles buffers and aliases its scratch arrays, returns exactly what the pure recursive definition returns (flatten the left half, then the right half, then the last control point) and terminates exactly if the recursion does; it starts at the first control point and ends at the last one, does not modify the caller's control points, and panics only on an empty list.", "quantifier": "all control point lists, any arithmetic", "why_tests_cant": "unbounded recursion, aliasing", "anchors": ["math/curves/bezierapproximator.go:CreateBezier", "math/curves/bezierapproximator.go:Subdivide", "math/curves/bezierapproximator.go:Approximate"]}
{"id": "C36", "title": "Bezier flattening terminates", "statement": "In exact arithmetic CreateBezier terminates on every nonempty control polygon. In float32 it terminates on every nonempty list of control points with coordinates of at most 2^k in magnitude (k at most 17) whose number times 2^k is at most 2^21; there are at most 2^((k+7)/2) points for each control point and one more, all of them finite and within 2^k, and the last is the last control point. In general it does not terminate in float32: there are control points (coordinates near 2^23) on which it runs forever, so reading the hit object line of such a slider never returns.", "quantifier": "all control point lists", "why_tests_cant": "termination for all inputs", "anchors": ["math/curves/bezierapproximator.go:CreateBezier", "math/curves/bezierapproximator.go:IsFlatEnough"]}
{"id": "C37", "title": "Subdivision preserves the curve", "statement": "In exact arithmetic the two halves produced by Subdivide trace the first and the second half of the parent's Bezier curve, and what CreateBezier returns is put together from flat pieces of the given curve that are consecutive and cover the whole curve.", "quantifier": "all control point lists, all t", "why_tests_cant": "continuum", "anchors": ["math/curves/bezierapproximator.go:Subdivide"]}
{"id": "C38", "title": "BinomialCoefficient", "statement": "BinomialCoefficient(n,k) never exceeds the binomial coefficient and is right for k<=1, k>=n-1 and outside of 0<=k<=n, but it divides before multiplying: for k=2 it is right exactly if n is odd, e.g. BinomialCoefficient(4,2) = 4 instead of 6. A whole row n is right exactly for n<=3 and n=5 (int64 overflow, which starts beyond n=60, is not considered).", "quantifier": "all n, k", "why_tests_cant": "all n, k", "anchors": ["math/curves/bezier.go:BinomialCoefficient"]}
{"id": "C39", "title": "Slider score points", "statement": "A slider with R repeats gets R*(ticks+1) score points, the same number of ticks in every span, and one repeat mark per span but the last (any arithmetic). In exact arithmetic with a positive beat length, multiplier and tick rate, the ticks are exactly the multiples of the tick distance that lie before the end of the path by more than 10 ms of travel, visited forwards and backwards, the last point is at max(middle, end - 36 ms), the points are in time order and lie between start and end.", "quantifier": "all sliders, all timing points", "why_tests_cant": "unbounded tick counts", "anchors": ["beatmap/objects/slider.go:SetTiming"]}
{"id": "C40", "title": "A zero slider multiplier hangs the parser", "statement": "With SliderMultiplier 0 (also when the key is missing) and a nonzero tick rate, setting the timing of any slider with at least one span, positive path length and a non-NaN beat length never returns, so ParseFromReader never returns a map with such a slider.", "quantifier": "all such sliders", "why_tests_cant": "non-termination", "anchors": ["beatmap/objects/slider.go:SetTiming", "beatmap/timing/timing.go:GetTickDistance"]}
{"id": "C41", "title": "Slider ball position", "statement": "In exact arithmetic the slider ball at time t of span k is at fraction (t - spanStart)/span of the path for even k and at one minus this for odd k; it stays at the start before the start time and at its final place after the end time, and EndPosRaw is the path end or start according to the parity of the repeat count.", "quantifier": "all sliders with positive duration", "why_tests_cant": "continuum", "anchors": ["beatmap/objects/slider.go:PositionAt", "beatmap/objects/slider.go:SetTiming"]}
{"id": "C42", "title": "Setting the timing again multiplies the score points", "statement": "SetTiming appends to the existing score points: after n+1 calls a slider has n+1 times the score points it has after one, and nothing else differs. Users expect it to be idempotent; that is false.", "quantifier": "all sliders", "why_tests_cant": "histories", "anchors": ["beatmap/objects/slider.go:SetTiming"]}
{"id": "C43", "title": "Step results agree with single results", "statement": "For every i >= 1, the i-th result of CalculateStep equals CalculateSingle on the first i+1 objects, bit for bit; there is one result per object; and CalculateStep panics or hangs exactly when CalculateSingle on the whole list does.", "quantifier": "all object lists, all mods, any arithmetic", "why_tests_cant": "unbounded lists", "anchors": ["performance/osu/difficulty.go:CalculateStep", "performance/osu/difficulty.go:CalculateSingle", "performance/osu/preprocessing/objects.go:CreateDifficultyObjects"]}
{"id": "C44", "title": "The first step result is special", "statement": "CalculateStep's first result always has Total=0 and SliderFactor=0, unlike CalculateSingle on the one-object map, whose SliderFactor is 1: the agreement of the previous property fails for i=0.", "quantifier": "all object lists", "why_tests_cant": "all lists", "anchors": ["performance/osu/difficulty.go:CalculateStep"]}
{"id": "C45", "title": "Strain peaks are consistent", "statement": "On a nonempty object list CalculateSingleWithPeaks, CalculateStepWithPeaks and CalculateStrainPeaks fail exactly when CalculateSingle does, and otherwise their peaks coincide; Aim, Speed, Total (and Flashlight when the mod is on, otherwise it is empty) have equal lengths, so computing Total never goes out of range. On the empty list only CalculateStrainPeaks does not panic.", "quantifier": "all object lists, all mods, any arithmetic", "why_tests_cant": "unbounded lists", "anchors": ["performance/osu/difficulty.go:getPeaks", "performance/osu/skills/skill.go:processInternal"]}
{"id": "C46", "title": "Attribute counts", "statement": "CalculateSingle reports ObjectCount = number of objects, the numbers of circles, sliders and spinners, and MaxCombo = number of objects + total number of score points.", "quantifier": "all object lists", "why_tests_cant": "unbounded lists", "anchors": ["performance/osu/difficulty.go:addObjectToAttribs", "performance/osu/difficulty.go:calculateSingle"]}
{"id": "C47", "title": "When difficulty calculation panics", "statement": "CalculateSingle panics on the empty list. On the objects of a parsed map, building the difficulty objects fails exactly if there is a slider without score points (a slider line with 0 repeats), and then CalculateSingle panics; both kinds of map are accepted by the parser.", "quantifier": "all object lists", "why_tests_cant": "unbounded lists", "anchors": ["performance/osu/difficulty.go:calculateSingle", "performance/osu/preprocessing/lazyslider.go:calculateEndPosition"]}
{"id": "C48", "title": "Difficulty object invariants", "statement": "Every difficulty object has StrainTime >= 25 (unless NaN), nonnegative jump/travel/movement distances (unless NaN), movement and travel times that are at least 25 after a slider, all distances 0 next to a spinner, and there is one fewer difficulty object than hit objects, each depending only on the objects up to it. The distances are nonnegative if math.Pow(x, 0.4) is never negative. With finite start times and a finite nonzero clock rate the strain time is the larger of 25 and the interval.", "quantifier": "all object lists, IEEE arithmetic", "why_tests_cant": "unbounded lists, NaN", "anchors": ["performance/osu/preprocessing/object.go:NewDifficultyObject", "performance/osu/preprocessing/objects.go:CreateDifficultyObjects"]}
{"id": "C49", "title": "Strain sections", "statement": "The number of strain peaks is the number of 400 ms sections (ends at multiples of 400, on the clock of the calculation) from that of the second hit object to the last one reached. In exact arithmetic always; in float64 if start times are finite, at most 2^53 and zero or at least 2^-800, and the clock rate is between 1/8 and 2^100.", "quantifier": "all object lists", "why_tests_cant": "unbounded lists and times; rounding of quotients and sums near section ends", "anchors": ["performance/osu/skills/skill.go:processInternal"]}
{"id": "C50", "title": "Difficulty value depends on the multiset of peaks only and is monotone", "statement": "DifficultyValue of a skill depends only on the multiset of its strain peaks: not on their order and not on how the (unstable) sort orders ties. It is nonnegative, and raising peaks or adding sections never lowers it. IEEE double arithmetic, including rounding and overflow.", "quantifier": "all lists of finite nonnegative peaks of any length, all four skills, any two correct sorts, any library functions with 0 <= log10 <= 1 on [1, 10]", "why_tests_cant": "unbounded lists, rounding", "anchors": ["performance/osu/skills/skill.go:DifficultyValue"]}
{"id": "C51", "title": "Stars never decrease along a map", "statement": "The aim, speed and flashlight ratings in CalculateStep never decrease from one step to the next, in IEEE double arithmetic, as long as the strain peaks of every beginning of the map are finite.", "quantifier": "all object lists of any length, all difficulties and mods, any correct sort, any library functions with 0 <= log10 <= 1 on [1, 10] and the usual signs of powers", "why_tests_cant": "unbounded lists", "anchors": ["performance/osu/difficulty.go:CalculateStep", "performance/osu/skills/skill.go:DifficultyValue"]}
{"id": "C52", "title": "PPv2 objects can be reused", "statement": "PPv2x does not depend on what the receiver was used for before: all its results and its returned value are the same as for a fresh PPv2.", "quantifier": "all receiver states, all arguments, any arithmetic", "why_tests_cant": "unbounded histories", "anchors": ["performance/osu/pp.go:PPv2x"]}
{"id": "C53", "title": "PPv2x default arguments", "statement": "Passing a negative combo to PPv2x is the same as passing the maximum combo (at least 1), and passing a negative n300 is the same as passing ObjectCount-n100-n50-nmiss, so that the hits add up to ObjectCount.", "quantifier": "all arguments", "why_tests_cant": "all ints", "anchors": ["performance/osu/pp.go:PPv2x"]}
{"id": "C54", "title": "Accuracy and effective misses", "statement": "The accuracy used by PPv2x is in [0,1] for all counts up to 2^60, negative ones included; for nonnegative counts the effective miss count is at least the number of misses and at most the total hits; with full combo, or without sliders, it is the number of misses; Relax adds the 100s and 50s, up to the total hits.", "quantifier": "all nonnegative hit counts", "why_tests_cant": "all ints, rounding", "anchors": ["performance/osu/pp.go:PPv2x", "performance/osu/pp.go:calculateEffectiveMissCount"]}
{"id": "C55", "title": "Mod-dependent PP components", "statement": "With Relax the accuracy PP is 0; without Flashlight the flashlight PP is 0.", "quantifier": "all arguments, any arithmetic", "why_tests_cant": "all arguments", "anchors": ["performance/osu/pp.go:computeAccuracyValue", "performance/osu/pp.go:computeFlashlightValue"]}
{"id": "C56", "title": "PP is nonnegative on valid scores", "statement": "In exact arithmetic, for a valid score (nonnegative counts, positive total, nonnegative combo, spinners <= hits, nonnegative ratings, slider factor in [0,1], effective AR <= 37, which holds for all maps) every PP component and the total are nonnegative. If the map has more spinners than hits were passed and SpunOut is on, the total is never positive, and there are plays for which it is negative.", "quantifier": "all valid scores", "why_tests_cant": "continuum", "anchors": ["performance/osu/pp.go:PPv2x"]}
{"id": "C57", "title": "PP does not reward worse plays", "statement": "In exact arithmetic, for two plays of one map with equally many hits, if one has no fewer misses, no fewer imperfect hits, no fewer 50s, no higher accuracy and no higher combo (with Relax also no fewer 100s plus 50s), then none of its PP components and not its total is higher. In particular turning 300s into 100s, 50s or misses, or losing combo, never gains PP. Aim, accuracy and flashlight PP do not need the condition on 50s; speed PP does: turning a 50 into a miss can raise speed PP.", "quantifier": "all pairs of valid plays, all mods, all maps", "why_tests_cant": "continuum", "anchors": ["performance/osu/pp.go:PPv2x", "performance/osu/pp.go:computeAimValue", "performance/osu/pp.go:computeSpeedValue", "performance/osu/pp.go:computeAccuracyValue", "performance/osu/pp.go:computeFlashlightValue", "performance/osu/pp.go:calculateEffectiveMissCount"]}
{"id": "C58", "title": "Star rating is monotone in its skills", "statement": "In exact arithmetic Total is nondecreasing in raw aim, raw speed and raw flashlight difficulty and is never below 0.135 times the cube root of 1.12 (about 0.14), which is the rating of a map without strain. With Relax no attribute depends on raw speed; without Flashlight Total does not depend on raw flashlight difficulty.", "quantifier": "all nonnegative raw values, all mods", "why_tests_cant": "continuum", "anchors": ["performance/osu/difficulty.go:getStarsFromRawValues", "performance/osu/pp.go:ppBase"]}
{"id": "C59", "title": "Integer clamps", "statement": "ClampI and ClampI64 return a value in [min,max] whenever min <= max, equal to x when x is already there.", "quantifier": "all 64-bit ints", "why_tests_cant": "all ints", "anchors": ["math/mutils/utils.go:ClampI"]}
{"id": "C63", "title": "Bezier flattening is accurate", "statement": "In exact arithmetic every point CreateBezier returns for n control points is within (n+1)/64 px of a point of the Bezier curve in both coordinates.", "quantifier": "all control point lists", "why_tests_cant": "continuum of curves, unbounded degree", "anchors": ["math/curves/bezierapproximator.go:CreateBezier", "math/curves/bezierapproximator.go:Approximate"]}
{"id": "C64", "title": "Slider paths are connected and measured by arc length", "statement": "In exact arithmetic the lines of a slider path are connected, the path starts at the first control point, an untrimmed linear, Bezier or Catmull path ends at the last control point, and PointAt(t) is the point at distance t * length along the lines.", "quantifier": "all control point lists, all types, all t", "why_tests_cant": "A test checks a few fixed sliders; connectedness and arc-length parametrisation are claims about every control point list.", "anchors": ["math/curves/multicurve.go:NewMultiCurveT", "math/curves/multicurve.go:PointAt", "math/curves/linear.go:NewLinear", "math/curves/linear.go:PointAt"]}
{"id": "C65", "title": "Circular sliders follow the true arc", "statement": "In exact arithmetic a three-point circular slider follows the circular arc from the first over the second to the third point: before trimming it has one line for every full 8 px of arc length, whose ends divide the arc evenly, up to 1e-18 of the radius (the code's pi is a decimal constant).", "quantifier": "all arcs through three points not on a line", "why_tests_cant": "The orientation and angle unwrapping have a case for every arrangement of three points around a circle; a test visits a few of them.", "anchors": ["math/curves/cirarc.go:NewCirArc", "math/curves/cirarc.go:PointAt", "math/curves/approximation.go:ApproximateCircularArc"]}
{"id": "C66", "title": "PP does not decrease when a map is rated higher", "statement": "In exact arithmetic, the same play (hits, combo, mods) on attributes that differ only in higher aim, speed and flashlight ratings gets no less PP in any component and in total.", "quantifier": "all valid plays, all mods, all pairs of attributes", "why_tests_cant": "continuum of ratings, and TouchDevice, length, combo and miss scaling interact", "anchors": ["performance/osu/pp.go:PPv2x", "performance/osu/pp.go:ppBase"]}
{"id": "C62", "title": "On which maps a calculation returns", "statement": "On the objects of a parsed map that has objects, no slider without score points, start times after the first that are finite, at most 2^53 and zero or at least 2^-800, and a clock rate between 1/8 and 2^100, CalculateSingle and CalculateStrainPeaks return (neither panic nor hang). If an object is later than 2^62 on the clock of the calculation (or at infinity) they hang; if the second object is at a positive time of at most 2^-1067 they panic. The parser accepts such files.", "quantifier": "all files, all difficulty settings, IEEE arithmetic", "why_tests_cant": "termination and absence of panics for unbounded inputs", "anchors": ["performance/osu/skills/skill.go:processInternal", "performance/osu/difficulty.go:CalculateSingle", "performance/osu/difficulty.go:CalculateStrainPeaks"]}
{"id": "C67", "title": "No strain is negative", "statement": "No strain peak that CalculateStrainPeaks reports for aim, speed or flashlight is negative (in IEEE double arithmetic: each is NaN or at least zero), whatever the beatmap, the mods and the clock rate. The rhythm multiplier of the speed skill is at least one for every object that is not a spinner.", "quantifier": "all object lists of any length with any coordinates and times, all difficulties and mods, any library functions with the signs of powers (squares are not negative, sin^2 <= 1, positive powers of nonnegative numbers are not negative)", "why_tests_cant": "signs must survive rounding for all inputs, including intervals below 25 ms, negative hit windows, infinite values and unbounded lists", "anchors": ["performance/osu/difficulty.go:CalculateStrainPeaks", "performance/osu/skills/aim.go:aimStrainValue", "performance/osu/skills/speed.go:speedStrainValue", "performance/osu/skills/speed.go:speedStrainBonus", "performance/osu/skills/flashlight.go:flashlightStrainValue", "performance/osu/skills/skill.go:processInternal"]}
{"id": "C68", "title": "Only a few inputs change star ratings; rate mods are custom speeds", "statement": "Every difficulty calculation (CalculateSingle, CalculateStep, their WithPeaks variants and CalculateStrainPeaks) gives bit for bit the same result for two difficulties with the same circle radius, 300 window, speed and the same HardRock, Easy, Relax and Flashlight mods. Consequently mods that agree on DifficultyAdjustMask give the same results, DoubleTime at custom speed c gives the results of custom speed 1.5*c without a rate mod (HalfTime: 0.75*c), and SetAR and SetHP after reading never change a result.", "quantifier": "all lists of objects, difficulties, mod sets, custom speeds, any floating point arithmetic and library functions", "why_tests_cant": "Independence from the remaining inputs is a statement about pairs of calculations over all maps and all mod sets; tests compare a few pairs.", "anchors": ["performance/osu/difficulty.go:CalculateSingle", "performance/osu/difficulty.go:CalculateStep", "performance/osu/difficulty.go:CalculateStrainPeaks", "beatmap/difficulty/mods.go:DifficultyAdjustMask", "beatmap/difficulty/difficulty.go:SetMods", "beatmap/difficulty/difficulty.go:SetCustomSpeed", "beatmap/difficulty/difficulty.go:SetAR", "beatmap/difficulty/difficulty.go:SetHP"]}
{"id": "C69", "title": "PP of an ordinary play is a finite non-negative number", "statement": "In double precision arithmetic, PPv2x returns five finite, non-negative results (aim, speed, accuracy, flashlight and total) for every play whose hit counts, combo and object counts are not negative (a negative combo or number of 300s standing for its default) and at most 2^50, whose aim and speed ratings are between 0 and 2^80, flashlight rating between 0 and 2^104 and slider factor between 0 and 2^96, whose effective AR and OD are between -4096 and 14, and, with SpunOut, with no more spinners than judged objects. No NaN, no infinity and no negative PP, also if nothing was judged. Effective AR and OD are in that range for base stats between 0 and 10, any mods and custom speeds from 0.01 to 100.", "quantifier": "all attributes, difficulties, mod combinations and hit counts in the stated ranges; all math.Pow and math.Log10 that keep powers between powers of two", "why_tests_cant": "A NaN or a negative value appears for isolated combinations of inputs (a zero divisor, an overflowing power, a subtraction that cancels too much); tests sample a handful of scores out of an astronomical number of combinations.", "anchors": ["performance/osu/pp.go:PPv2x", "performance/osu/pp.go:computeAimValue", "performance/osu/pp.go:computeSpeedValue", "performance/osu/pp.go:computeAccuracyValue", "performance/osu/pp.go:computeFlashlightValue", "beatmap/difficulty/difficulty.go:calculate"]}
{"id": "C70", "title": "Ratings, strains and PP of an ordinary map are finite non-negative numbers", "statement": "In double precision arithmetic, for a map of at most 2^29 objects in order of their start times, whose start times and slider ticks are within 2^40 ms of the start of the song, whose objects and slider balls stay within a million osu! pixels, with at most a million ticks and repeats per slider, circle radius between 1 and 1024, speed between 1/1024 and 1024 and 300 window between 1 and 4096 ms: all five numbers of CalculateSingle (total, aim, speed, flashlight, slider factor), of every entry of CalculateStep and all strain peaks (aim, speed, flashlight, total) of CalculateStrainPeaks are finite and not negative. The ratings of CalculateStep do not decrease from one object to the next, and PPv2x of any play in which every object is judged gives finite, non-negative PP. Radius, speed and window are in those ranges for base stats between 0 and 10, any mods and custom speeds from 0.01 to 100. Overlapping objects, objects at the same time and zero length sliders are included.", "quantifier": "all maps of any length up to half a billion objects, all difficulties and mods in the ranges, all plays of them; all library functions that keep powers, sines, cube roots and logarithms in their usual ranges", "why_tests_cant": "One division by a zero distance or time, one acos of a number rounded above 1 or one overflowing strain poisons all later results with NaN; whether this can happen depends on all positions and times at once.", "anchors": ["performance/osu/difficulty.go:CalculateSingle", "performance/osu/difficulty.go:CalculateStep", "performance/osu/difficulty.go:CalculateStrainPeaks", "performance/osu/preprocessing/object.go:NewDifficultyObject", "performance/osu/preprocessing/lazyslider.go:calculateEndPosition", "performance/osu/skills/aim.go:aimStrainValue", "performance/osu/skills/speed.go:speedStrainValue", "performance/osu/skills/flashlight.go:flashlightStrainValue", "performance/osu/skills/skill.go:DifficultyValue", "performance/osu/pp.go:PPv2x"]}
{"id": "C60", "title": "The order of the sections does not matter", "statement": "Two files that have the same lines, in the same order, within each of the sections General, Metadata, Difficulty, Events, TimingPoints and HitObjects, and the same last format line, parse to the same map or both to the error. Sections may come in any order, be split into several pieces and interleaved; in particular two neighbouring sections with different names can be exchanged. If one of the files makes the parser panic or hang, so does the other.", "quantifier": "all pairs of files of any length, all section orders and interleavings", "why_tests_cant": "A forgotten dependency (objects that use timing points or difficulty settings read so far, defaults applied too early) shows only for orders that no sample file has.", "anchors": ["beatmap/parser.go:ParseFromReader", "beatmap/parser.go:parseDifficulty", "beatmap/beatmap.go:ParsePoint"]}
{"id": "C61", "title": "Line endings and blank lines do not matter", "statement": "Changing all line feeds of a file without carriage returns to carriage return and line feed does not change what parsing does; nor does a final line feed, a blank line inserted anywhere, or any inserted line without colon and comma that is neither a section header nor a format line (provided lines stay below the 10 MiB limit of the scanner).", "quantifier": "all files of any length, all insertion points", "why_tests_cant": "unbounded files", "anchors": ["beatmap/parser.go:ParseFromReader", "files/utf.go:NewScannerBuf"]}
{"id": "C71", "title": "What a mod does to the PP of a play with given ratings", "statement": "For given ratings and hit results, PP depend only on the mods NoFail, Easy, TouchDevice, Hidden, HardRock, DoubleTime, Relax, HalfTime, Flashlight, SpunOut and ScoreV2. Adding NoFail or SpunOut leaves all components alone and never raises the total; NoFail costs at most 10% of it and nothing on a full combo without misses, SpunOut nothing without spinners. Adding Relax never raises any component, removes accuracy PP and leaves at most 60% of the total. Adding Flashlight leaves aim and speed PP alone and never loses PP. Adding Hidden never loses PP while the effective AR is at most 12 (always so for AR in [0,10] and custom speeds up to 2), but costs aim and speed PP above. Adding TouchDevice never gains PP when aim and flashlight ratings are at least 1; for ratings below 1 it never loses, and it raises aim PP strictly for aim ratings from 0.0675 up to 1.", "quantifier": "all ratings, hit results and mod sets; exact arithmetic for inequalities, any arithmetic for equalities", "why_tests_cant": "The direction of a mod's effect depends on real-valued ratings, rates and hit counts; the two reversals (Hidden above AR 12, TouchDevice below 1 star of aim) lie outside of usual samples.", "anchors": ["performance/osu/pp.go:PPv2x", "performance/osu/pp.go:computeAimValue", "performance/osu/pp.go:computeSpeedValue", "performance/osu/pp.go:computeAccuracyValue", "performance/osu/pp.go:computeFlashlightValue", "beatmap/difficulty/difficulty.go:SetMods"]}
{"id": "C72", "title": "Slider paths go through their anchors", "statement": "The path of a Bezier slider is one curve after the other, one for each run of control points between red points (points given twice), each computed from the control points of its run only; every control point list can be cut into such runs. A perfect slider with more than three points is the Bezier slider of these points, with fewer than three or three in a line (in exact arithmetic: a triangle of area below 0.0005) it is the linear slider, and a slider of an unknown type stays at its first point. In exact arithmetic a linear slider goes straight from one control point to the next, a Catmull slider goes through all its control points in order, a Bezier slider through its red points in order and to its last one; PointAt at the fraction of the length that belongs to such a point is that point, unless the path is trimmed before it.", "quantifier": "all control point lists, all types, all desired lengths; any arithmetic for the structure, exact arithmetic for positions", "why_tests_cant": "Sliders have any number of points and red points in any arrangement, including points given three times or at the end; a few sample sliders do not settle where the path is cut.", "anchors": ["math/curves/multicurve.go:NewMultiCurve", "math/curves/multicurve.go:NewMultiCurveT", "math/curves/multicurve.go:PointAt", "math/curves/multicurve.go:processBezier", "math/curves/multicurve.go:processLinear", "math/curves/multicurve.go:processCatmull", "math/curves/multicurve.go:processPerfect"]}
{"id": "C73", "title": "Bézier curves by their polynomial", "statement": "In exact arithmetic, PointAt(t) of a curve from NewBezier or NewBezierNA with up to four or with six control points is the point of the Bézier curve (repeated interpolation); with five or with more than six control points it is not: a curve whose control points all coincide is pulled towards the origin for every t between 0 and 1. With any number of points PointAt(0) and PointAt(1) are the first and last control point. The length that NewBezier reports lies between the distance of the end points and the length of the control polygon. NewBezier panics without points and never otherwise.", "quantifier": "all lists of control points, all t", "why_tests_cant": "The error appears only for certain numbers of control points and depends on all of them; tests with three or four points pass.", "anchors": ["math/curves/bezier.go:NewBezier", "math/curves/bezier.go:NewBezierNA", "math/curves/bezier.go:PointAt", "math/curves/bezier.go:BinomialCoefficient", "math/curves/bezier.go:CalculateLength"]}
{"id": "C74", "title": "Directions and lengths of curves", "statement": "In exact arithmetic the start and end angle of a line, in (-π, π], are the directions in which its start is seen from its end and its end from its start. GetStartAngle and GetEndAngle of a path are those of its first and last line; GetStartAngleAt(t) and GetEndAngleAt(t) are those of a line on which PointAt(t) lies, and none of them ever panics; a path without lines has angle 0. The length of a circular arc through three points is radius times swept angle within 1e-18 of the radius. NewCatmull panics exactly if it is not given four points; its curve leads from the second to the third and its reported length is at least their distance.", "quantifier": "all points, paths and t", "why_tests_cant": "Angles involve quadrants and the path position a binary search over accumulated lengths; samples do not cover all of them.", "anchors": ["math/curves/linear.go:GetStartAngle", "math/curves/linear.go:GetEndAngle", "math/curves/multicurve.go:GetStartAngleAt", "math/curves/multicurve.go:GetEndAngleAt", "math/curves/multicurve.go:getLineAt", "math/curves/cirarc.go:GetLength", "math/curves/catmull.go:NewCatmull"]}
{"id": "C75", "title": "Vector operations", "statement": "In exact arithmetic, Rotate keeps the length of a vector, turns it by the given angle, and rotating twice is rotating by the sum. Nor gives the unit vector in the same direction except for vectors whose squared length is below 0.00001, which it returns unchanged. AngleBetween32 is the angle at the centre: between 0 and π, symmetric, with the cosine that the scalar product demands. In float32 it can be NaN for points on one ray: the angle between (1,3) and (4,12) seen from the origin, because rounding lifts the cosine above 1.", "quantifier": "all vectors and angles; one float32 witness for NaN", "why_tests_cant": "Identities over all real vectors; the NaN depends on rounding.", "anchors": ["math/vector/vector2f.go:Rotate", "math/vector/vector2f.go:Nor", "math/vector/vector2f.go:AngleBetween32"]}
{"id": "C76", "title": "What the keys of a file mean", "statement": "For every file that parses: Mode, StackLeniency (0 if NaN, 0.7 if missing) and PreviewTime are those of the last such key in the General section; the audio name is all AudioFilename values one after the other, so two such lines are run together. Title, TitleUnicode, Artist, ArtistUnicode, Creator, Source, Tags, BeatmapID and BeatmapSetID are those of the last such key in the Metadata section. SliderMultiplier and SliderTickRate are those of the last such key in the Difficulty section, not clamped, and 0 if missing. The background is that of the last background event with the quotes removed, the breaks are all break events in order, the version is that of the last format line, 0 if there is none.", "quantifier": "all files that parse, any float arithmetic", "why_tests_cant": "It must hold for any number, order and repetition of keys, sections and other lines.", "anchors": ["beatmap/parser.go:parseGeneral", "beatmap/parser.go:parseMetadata", "beatmap/parser.go:parseDifficulty", "beatmap/parser.go:parseEvents", "beatmap/parser.go:ParseFromReader"]}
{"id": "C77", "title": "What the timing points of a file mean", "statement": "For every file that parses, each record of the TimingPoints section gives exactly one timing point, with time, beat length, signature (4 for 0 or missing), sample set (0), index (1), volume (percent, 1 if missing), inherited flag (only for a seventh field that reads as 0), kiai and omit-bar flags as on the record; no other point exists. In IEEE arithmetic the points are ordered by time, those at one time by line, and both lookups give the last point not after the time asked for, or the first. A time (or other integer field) that is not a plain integer, such as 1000.5 or one with a space before it, is read as 0: such points move to the start of the map.", "quantifier": "all files that parse; lookups for all times that are not NaN; lost times for all texts with a stray character behind fewer than 20 digits", "why_tests_cant": "It must hold for any number and order of records and any combination of missing fields.", "anchors": ["beatmap/beatmap.go:ParsePoint", "beatmap/timing/timing.go:AddPoint", "beatmap/timing/timing.go:FinalizePoints", "beatmap/timing/timing.go:GetPointAt", "beatmap/timing/timing.go:GetOriginalPointAt", "beatmap/parser.go:ParseFromReader"]}
{"id": "C78", "title": "A written map is read back", "statement": "Take any map written down as a .osu file (General, Metadata, Difficulty, Events, TimingPoints, HitObjects; integers in 64 bits, decimal numbers of any length, texts without line breaks and surrounding blanks). If the file parses, the result has exactly the version, names, ids, preview time, mode, slider multiplier, tick rate, background and breaks that were written, HP, CS, OD and AR clamped to 0..10, one timing point per line with the fields written, and one object per line with the position, time, new-combo flag, colour skip, sounds, spinner end, slider path, repeats and length written; circle, slider and spinner counts and the length are those of the lines. In IEEE arithmetic objects and timing points are ordered by time and then by line, and if the lines are in order the objects correspond one by one. Files without sliders that have a timing point and a title, artist or creator always parse. Every 64-bit integer is read back, and a decimal number is read as the float nearest to it.", "quantifier": "all maps: any number of breaks, timing points and objects, any values; any float arithmetic (order: IEEE)", "why_tests_cant": "The round trip must hold for every combination of values, numbers and texts, not for sample files.", "anchors": ["beatmap/parser.go:ParseFromReader", "beatmap/parser.go:parseGeneral", "beatmap/parser.go:parseMetadata", "beatmap/parser.go:parseDifficulty", "beatmap/parser.go:parseEvents", "beatmap/parser.go:parseHitObjects", "beatmap/beatmap.go:ParsePoint", "beatmap/objects/util.go:CreateObject", "beatmap/objects/baseobject.go:commonParse", "beatmap/objects/slider.go:NewSlider"]}
{"id": "C79", "title": "Stacks are never higher than the number of objects left", "statement": "In a parsed map without sliders, no object has a negative stack index and the stack index of an object is at most the number of objects after it; in particular the last object is not stacked. This holds for the variants without mods, with Easy and with HardRock, for old and new file versions. In every map (with or without sliders) the stack offset of a circle or slider is, in both coordinates, the negated index times a tenth of the circle radius of the variant. With sliders indices can be negative, and their magnitude can exceed the number of objects: a map of eight objects has one of -14.", "quantifier": "all files that parse, all objects, all three stacking variants, all file versions", "why_tests_cant": "The indices come from nested loops that run backwards over a list they modify, with early exits that depend on distances and times; a bound in terms of the position needs an invariant of all loops over all maps.", "anchors": ["beatmap/stackleniency.go:calculateStackLeniency", "beatmap/stackleniency.go:processStacking", "beatmap/stackleniency.go:applyNewStacking", "beatmap/stackleniency.go:applyOldStacking", "beatmap/objects/hitobject.go:SetStackIndex"]}
{"id": "C80", "title": "From the file to the performance points", "statement": "Take any map written down as a .osu file as in C78, without sliders, with at least one and at most 32768 objects, a timing point and a title, artist or creator, coordinates whose whole part is at most 131071 and times within 34 years; all other numbers and texts are arbitrary. The file parses to a map with that many objects. For any mods and any custom speed between a quarter and four, the difficulty calculation and the strain peaks of the map terminate without a panic, every rating is a finite number that is not negative, and for every play with as many judgements as objects (given or completed with 300s), any combo up to 2^50, all performance points are finite and not negative.", "quantifier": "all written maps without sliders, all mods, all speeds, all plays; IEEE arithmetic, library functions within their stated bounds", "why_tests_cant": "No number of sample maps shows that none of the intermediate floats of parsing, stacking, strains and performance points overflows or becomes a NaN, and that no loop runs forever.", "anchors": ["beatmap/parser.go:ParseFromReader", "beatmap/stackleniency.go:calculateStackLeniency", "beatmap/difficulty/difficulty.go:calculate", "performance/osu/difficulty.go:CalculateSingle", "performance/osu/difficulty.go:CalculateStrainPeaks", "performance/osu/pp.go:PPv2x"]}
{"id": "C81", "title": "When setting the timing of a slider ends", "statement": "In IEEE arithmetic SetTiming returns for every slider whose path is at most 2^26 tick distances long, and the number of ticks it adds per span is the exact one up to one part in 2^25; in particular it returns for slider multipliers and tick rates between 1/16 and 1024, paths up to 16384 px and pixel lengths of at least 1/4096, under any timing points. It never returns if the tick distance or the pixel length is not positive (negative slider multiplier; a pixel length of 0 on a path whose float32 length lost some of its lines) and the path is longer than 10 ms of travel, nor if the path is longer than 2^55 tick distances (tick rate 1e20).", "quantifier": "all sliders, all timing points, any numbers of steps", "why_tests_cant": "termination and non-termination for all inputs, unbounded tick counts", "anchors": ["beatmap/objects/slider.go:SetTiming", "beatmap/timing/timing.go:GetTickDistance", "beatmap/timing/timing.go:GetVelocity"]}
{"id": "C82", "title": "Positions on slider paths in float32", "statement": "For a slider path made of lines with coordinates within 2^k (k at most 17), none of them nonzero but shorter than 2^-48, and a pixel length at most 2^j above the length of the lines, the path has a finite length and the position at every progress that is a number is finite: it is the first control point, or, with one and the same fraction for both coordinates, on one of the lines or at most 3*2^j + 2^(k-20) beyond its end, up to (2^k + 2^j)/2^18 in each coordinate. For straight sliders the lines are those between consecutive control points. The restriction on tiny lines is needed: a straight slider whose last control point differs from the one before by 2^-100 and that has to be extended ends at a position that is not a number.", "quantifier": "all lists of control points, all pixel lengths, all progresses", "why_tests_cant": "float32 rounding, trimming and extension for all paths; no test enumerates control points", "anchors": ["math/curves/multicurve.go:NewMultiCurveT", "math/curves/multicurve.go:PointAt", "math/curves/linear.go:PointAt", "math/vector/vector2f.go:Lerp"]}
{"id": "C83", "title": "Maps with sliders get finite ratings and performance points", "statement": "Take any parsed map with objects sorted by whole start times within 34 years, start positions within 131072, circle size, overall difficulty and approach rate between 0 and 10 and stacks at most 32768 high, in which every slider has between 1 and 2^20 spans, at most 2^20 score points at times within 34 years, a velocity between 2^-20 and 2^40 px/s and a path made of at most 2^20 lines within 65536, none of them nonzero but shorter than 2^-48, that is extended by at most 16384. Then, under any mods and any custom speed between a quarter and four, the difficulty calculation and the strain peaks terminate without a panic, every rating is a finite number that is not negative, and every play with as many judgements as objects and any combo up to 2^50 gets finite performance points that are not negative.", "quantifier": "all such parsed maps, all mods, all speeds, all plays; IEEE arithmetic, library functions within their stated bounds", "why_tests_cant": "Every position that is computed on any slider path (score points, lazy end, cursor steps) must be finite for all maps; tests only sample maps.", "anchors": ["beatmap/parser.go:ParseFromReader", "beatmap/objects/slider.go:PositionAt", "beatmap/objects/slider.go:SetTiming", "math/curves/multicurve.go:PointAt", "performance/osu/difficulty.go:CalculateSingle", "performance/osu/difficulty.go:CalculateStrainPeaks", "performance/osu/pp.go:PPv2x"]}
{"id": "C84", "title": "Slider paths are as long as written, and sliders end when they should", "statement": "In IEEE arithmetic, for a path of at most 2^20 lines with coordinates within 2^k (k at most 17), none of them nonzero but shorter than 2^-48, whose lines have the positive length L, and for any pixel length P from 0 to L + 2^j whose last line has nonzero length or P is at most L + 1/9000, the length of the path is P up to 1/5000 + (2^k + 2^j)/2^15 + n(L + P)/2^21, where n is the number of lines. For straight sliders this holds for any control points within 2^k that are equal or at least 2^-19 apart and not all equal, with the length of their polyline in place of L. A path whose last line has no length is never extended: its length stays L however large the pixel length is from L + 1/9000 on (for example a Bezier slider whose last control point is given three times). A slider of a parsed map ends at its start plus 1000 * length * spans / velocity, up to one part in 2^50.", "quantifier": "all control points, pixel lengths, span counts, velocities", "why_tests_cant": "error bounds of float32 sums, square roots and interpolation for all paths; number of lines unbounded by any sample", "anchors": ["math/curves/multicurve.go:NewMultiCurveT", "math/curves/linear.go:GetLength", "math/vector/vector2f.go:Dst", "beatmap/objects/slider.go:SetTiming"]}
{"id": "C85", "title": "Written maps with straight sliders are read and get finite results", "statement": "Take any written map with a title, artist or creator, at least one timing point, whole start times within 8 years, coordinates within 131072, beat lengths from 1 to 65535 in magnitude (negative ones too), slider multiplier and tick rate from a quarter to eight, and sliders that are straight lines through at most 129 points with whole coordinates below 4096, with a pixel length from 1 to 16383 and at least one span, where the spans times (length + 512) are at most 131072. The parser returns a map with as many objects as there are lines, without a panic, an error or an endless loop. If no stack of that map is higher than 32768, then under any mods and any custom speed between a quarter and four the difficulty calculation and the strain peaks return, every rating is finite and not negative, and every play with as many judgements as objects gets finite performance points that are not negative.", "quantifier": "all such files, all mods, all speeds, all plays; IEEE arithmetic, library functions within their stated bounds", "why_tests_cant": "the text of the file, the number of objects, control points and timing points are unbounded; tests only sample files", "anchors": ["beatmap/parser.go:ParseFromReader", "beatmap/objects/slider.go:NewSlider", "beatmap/objects/slider.go:SetTiming", "beatmap/timing/timing.go:GetVelocity", "math/curves/multicurve.go:NewMultiCurveT", "performance/osu/difficulty.go:CalculateSingle", "performance/osu/difficulty.go:CalculateStrainPeaks", "performance/osu/pp.go:PPv2x"]}
{"id": "C86", "title": "Ratings do not depend on where the map lies in the plane", "statement": "In exact arithmetic, if the positions that are reported for the objects of two maps (starts, ends and the positions on sliders at every time, with mods and stacking) differ by a map of the plane that preserves distances (a move, a turn, a reflection), then all five difficulty calculations (whole map, with peaks, stepwise, stepwise with peaks, strain peaks) return the same results, errors included. Adding one vector to all positions and slider paths of a map does this under all mods, also with HardRock, which reflects the map. In IEEE arithmetic, exchanging the two coordinates of everything in a map changes not one bit of any of the results, as long as HardRock is off and the arc tangent is even in its first argument up to sign.", "quantifier": "all maps, all mods (IEEE: without HardRock), all isometries of the plane", "why_tests_cant": "Relates two runs of the whole calculation for all maps and all isometries; tests compare a few maps with rounding tolerance.", "anchors": ["performance/osu/difficulty.go:CalculateSingle", "performance/osu/difficulty.go:CalculateStep", "performance/osu/difficulty.go:CalculateStrainPeaks", "performance/osu/preprocessing/object.go:NewDifficultyObject", "performance/osu/preprocessing/lazyslider.go:calculateEndPosition", "beatmap/objects/hitobject.go:modifyPosition"]}
{"id": "C87", "title": "Ratings do not change when the map starts whole sections later", "statement": "In exact arithmetic, adding to all times of a map a whole number of sections of 400 ms multiplied by the speed changes no difficulty calculation. In IEEE arithmetic not one bit of the results changes at speed 1 for maps of circles and spinners whose times are whole milliseconds from 0 to 2^40. Other shifts are visible: there is a map of three circles that has one aim peak, and two when it starts 100 ms later.", "quantifier": "all maps, all speeds, all whole numbers of sections (IEEE: speed 1, no sliders, whole times)", "why_tests_cant": "Relates two runs of the whole calculation for all maps and shifts; sections are counted by adding 400 in floating point.", "anchors": ["performance/osu/difficulty.go:CalculateSingle", "performance/osu/difficulty.go:CalculateStrainPeaks", "performance/osu/skills/skill.go:Process", "performance/osu/preprocessing/object.go:NewDifficultyObject"]}
{"id": "C88", "title": "A faster speed is the same as earlier times", "statement": "In exact arithmetic, all five difficulty calculations at speed v' give for the map whose times (starts, ends, score points and span durations of sliders) are multiplied by v'/v what they give at speed v for the map itself, errors included, when the two difficulties have the same circle radius and the same window for a 300 in real time (window divided by speed) and agree on HardRock, Easy, Relax and Flashlight. In IEEE arithmetic this holds to the last bit between speed 1 and every whole speed up to 1024 for maps of circles and spinners whose times are whole milliseconds.", "quantifier": "all maps, all positive speeds, all difficulties that agree as stated (IEEE: whole speeds, no sliders, whole times)", "why_tests_cant": "Relates two runs of the whole calculation for all maps and all speeds.", "anchors": ["performance/osu/difficulty.go:CalculateSingle", "performance/osu/difficulty.go:CalculateStep", "performance/osu/difficulty.go:CalculateStrainPeaks", "performance/osu/preprocessing/object.go:NewDifficultyObject", "performance/osu/skills/speed.go:speedStrainValue", "beatmap/objects/slider.go:PositionAt"]}
{"id": "C89", "title": "Maps without movement have no aim rating, and spinners are not rated", "statement": "For every ordinary map (the maps of C70) whose objects are spinners and circles that are all shown in one place, the aim rating is zero, the slider factor is 1, the aim rating is zero after every object, and all aim strain peaks are zero. For every ordinary map of spinners alone, aim, speed and flashlight ratings are zero at the end and after every object, and so are all strain peaks.", "quantifier": "all ordinary maps without sliders whose circles are in one place; all ordinary maps of spinners; all mods; all mathematical libraries that obey the stated laws", "why_tests_cant": "A claim about float64 results for all maps of the kind, with any number of objects at any times; tests sample a few.", "anchors": ["performance/osu/difficulty.go:CalculateSingle", "performance/osu/difficulty.go:CalculateStep", "performance/osu/difficulty.go:CalculateStrainPeaks", "performance/osu/skills/aim.go:aimStrainValue", "performance/osu/skills/speed.go:speedStrainValue", "performance/osu/skills/flashlight.go:flashlightStrainValue", "performance/osu/skills/skill.go:DifficultyValue"]}
{"id": "C90", "title": "Closed forms for the ratings of steady maps", "statement": "For a map of circles at equal time distances and equal distances in the plane, the speed strain that CalculateStrainPeaks reports for the last section is a closed form: a geometric sum with n-1 terms whose ratio is 0.3 to the power of the seconds between circles, and whose first term is 1375 times the bonus for short intervals and for spacing over the interval (with the reduction for intervals shorter than the 300 window). No other speed peak of the map is greater, and none is negative. If the circles go back and forth between two places with at least 100 ms between them, the same holds for aim with ratio 0.15 per second, first term 23.25 times the jump length over the interval, and n-3 terms. The sums stay below their limit however long the map is. The calculation returns, with one peak for each 400 ms section. If all circles after the first are in one section, the aim and speed ratings of CalculateSingle are 0.0675 times the square root of 0.75 times 1.06 (aim) or 1.04 (speed) times that strain, and the slider factor is one.", "quantifier": "all numbers of circles, first times, intervals (for speed also zero or negative ones), distances, clock rates, circle sizes and 300 windows, exact arithmetic with NaN", "why_tests_cant": "A test compares one map with a number recorded from the same code; the closed form fixes every constant of the strain of a stream of any length, interval, spacing, circle size and accuracy, which a finite number of recorded values cannot.", "anchors": ["performance/osu/difficulty.go:CalculateStrainPeaks", "performance/osu/difficulty.go:CalculateSingle", "performance/osu/skills/aim.go:aimStrainValue", "performance/osu/skills/speed.go:speedStrainValue", "performance/osu/skills/speed.go:speedStrainBonus", "performance/osu/skills/skill.go:Process", "performance/osu/preprocessing/object.go:NewDifficultyObject"]}
{"id": "C91", "title": "Raising OD never makes a map easier", "statement": "For every map, with sliders and spinners too, and all mods: raising OD to any value up to 13 (or any other change that shortens the window for a 300) never lowers the speed rating and never lowers the star rating, at the end of the map, after each object of the map and in each strain section. Aim, flashlight and slider factor, the object counts and the max combo are the same.", "quantifier": "all lists of objects with times, all difficulty settings with a positive clock rate, all windows, all mods; exact arithmetic with NaN", "why_tests_cant": "The strain of every object depends on all objects before it, on windows in several places and with clamps; that the final sorted and weighted sum is monotone must hold for every map and pair of OD values.", "anchors": ["performance/osu/difficulty.go:CalculateSingle", "performance/osu/difficulty.go:CalculateStep", "performance/osu/difficulty.go:CalculateStrainPeaks", "performance/osu/skills/speed.go:speedStrainValue", "performance/osu/skills/speed.go:speedStrainBonus", "performance/osu/skills/skill.go:DifficultyValue", "beatmap/difficulty/difficulty.go:SetOD"]}
{"id": "C92", "title": "Wider gaps, smaller circles and HardRock never lower the speed rating", "statement": "Take two maps of circles and spinners with the same times, where each object of the second is at least as far from the one before as in the first, circles are no larger and the window for a 300 is no longer. Both calculations return, and the speed rating and every speed peak of the second are at least those of the first. So raising CS (up to 12) never lowers the speed rating of such a map, and adding HardRock to any mods never does if the objects are not stacked and CS and OD are between 0 and 10.", "quantifier": "all pairs of such maps of any length, at any positions and times, all mods; exact arithmetic with NaN", "why_tests_cant": "A claim that relates the results for two arbitrary maps; tests compare few pairs.", "anchors": ["performance/osu/difficulty.go:CalculateSingle", "performance/osu/difficulty.go:CalculateStep", "performance/osu/difficulty.go:CalculateStrainPeaks", "performance/osu/skills/speed.go:speedStrainValue", "performance/osu/skills/speed.go:speedStrainBonus", "performance/osu/skills/skill.go:DifficultyValue", "performance/osu/preprocessing/object.go:NewDifficultyObject", "beatmap/difficulty/difficulty.go:SetCS", "beatmap/difficulty/difficulty.go:SetMods", "beatmap/objects/hitobject.go:modifyPosition"]}
{"id": "C93", "title": "Aim strain of maps that turn by the same angle at each circle", "statement": "For a map of circles at equal times and equal distances, where the directions back and on enclose the same angle at each circle (squares, stars, zigzags, straight lines, jumps back and forth), the last and greatest aim peak is the sum of two geometric series: one of the velocity, from the third jump on, and one of a bonus for the angle, from the fourth jump on. The bonus is the greater of a bonus for wide angles and one for sharp angles at short intervals, is never negative, and is zero for angles of at most 30 degrees with at least 100 ms between circles.", "quantifier": "all numbers of circles, angles, distances, intervals, clock rates, circle sizes and mods; exact arithmetic", "why_tests_cant": "The formula has five continuous parameters and holds at every length; tests pin it at few points.", "anchors": ["performance/osu/skills/aim.go:aimStrainValue", "performance/osu/skills/aim.go:calcWideAngleBonus", "performance/osu/skills/aim.go:calcAcuteAngleBonus", "performance/osu/preprocessing/object.go:NewDifficultyObject", "performance/osu/difficulty.go:CalculateStrainPeaks"]}
{"id": "C94", "title": "Flashlight strain of straight steady maps", "statement": "With Flashlight, for a map of circles at equal times and equal distances on a straight line, the last and greatest flashlight peak is a decayed sum in which each hit counts with the square of velocity times the weight of the hits before it that the memory still holds (at most ten, each 0.8 times the one after it), lowered for jumps shorter than 75 pixels and for stacked circles.", "quantifier": "all numbers of circles, lines, distances, intervals, clock rates, circle sizes and mods with Flashlight; exact arithmetic", "why_tests_cant": "Each hit looks back at up to ten others with products of weights; the formula must hold at every length and for all distances, also below the thresholds.", "anchors": ["performance/osu/skills/flashlight.go:flashlightStrainValue", "performance/osu/preprocessing/object.go:NewDifficultyObject", "performance/osu/difficulty.go:CalculateStrainPeaks"]}
{"id": "C95", "title": "Performance points in closed form", "statement": "In exact arithmetic, for every play (counts not negative, at least one object): each PP component is the value of a perfect play times shares for misses, combo, dropped slider ends, accuracy and 50s, each given by an explicit formula; the total is 1.12 times the factor of the mods times the 1.1-norm of the components. A play with only 300s and full combo, and the call that leaves out combo and 300s, get exactly the perfect values.", "quantifier": "all attributes, difficulties, mods, combos and hit counts; exact arithmetic", "why_tests_cant": "The formula has more than ten parameters with thresholds (2000 and 200 objects, AR 8 and 10.33, OD 8, 15% of the sliders, Relax and ScoreV2); tests pin it at points.", "anchors": ["performance/osu/pp.go:PPv2x", "performance/osu/pp.go:computeAimValue", "performance/osu/pp.go:computeSpeedValue", "performance/osu/pp.go:computeAccuracyValue", "performance/osu/pp.go:computeFlashlightValue", "performance/osu/pp.go:calculateEffectiveMissCount", "performance/osu/pp.go:ppBase"]}
{"id": "C96", "title": "The cursor on a slider moves as little as possible", "statement": "The travel distance and the lazy end position of a slider are those of a cursor that starts at the slider head, and at each score point moves to the nearest place from which the ball is within reach: one circle radius at repeats, 1.8 radii at ticks, and 1.8 radii of the nearer of tail and slider end at the end. The travel distance is the length of this way at a circle radius of 50, times a bonus for repeats. The way is never longer than the passages of the ball, and a slider whose path is no longer than the circle radius has no travel and ends at its head.", "quantifier": "all sliders, mods, stack heights and circle sizes; exact arithmetic", "why_tests_cant": "The cursor depends on the whole path and on all score points; that each move is the shortest one and the bound by the path length hold for a continuum of shapes.", "anchors": ["performance/osu/preprocessing/lazyslider.go:NewLazySlider", "beatmap/objects/slider.go:PositionAt", "beatmap/objects/slider.go:SetTiming"]}
{"id": "C97", "title": "Aim strain of every map", "statement": "In exact arithmetic, for every map with at least two objects - circles, sliders and spinners at any places and times in order, under any mods and speed - the aim strain peaks are, section by section of 400 ms from the section of the second object to that of the last, the greatest of the strains in that section. The strain is the sum of what the hits so far have added, each decayed by 0.15 per second; what a hit adds is an explicit formula of the places and times of the last notes (velocity over the jump or over a slider and the jump after it, bonus for wide or sharp turns at steady tempo lowered if repeated, bonus for changes of velocity, bonus for slider velocity).", "quantifier": "all maps, speeds, circle sizes and mods; exact arithmetic", "why_tests_cant": "The strain at each object depends on all objects before it and on three notes through a formula with many cases; maps are unbounded.", "anchors": ["performance/osu/skills/aim.go:aimStrainValue", "performance/osu/skills/skill.go:processInternal", "performance/osu/preprocessing/object.go:NewDifficultyObject", "performance/osu/difficulty.go:CalculateStrainPeaks"]}
{"id": "C98", "title": "Speed strain of every map", "statement": "In exact arithmetic, for every map with at least two objects the speed strain peaks are, section by section of 400 ms, the greatest of the strains in that section, where a strain is the sum of what the hits so far have added, each decayed by 0.3 per second, times the factor of the rhythm. The rhythm factor depends on the islands (runs of notes at one tempo that start with a speed-up) among the last 32 notes within five seconds: each counts with the root of the changes of tempo at its start and end, lowered for sliders, equal or alike sizes and repeated speed-ups, and with how well it is still remembered. At every note there is exactly one list of islands.", "quantifier": "all maps, speeds, circle sizes, hit windows and mods; exact arithmetic", "why_tests_cant": "The rhythm loop walks up to 32 objects back with a state machine; that it computes a function of the islands holds for all maps only by proof.", "anchors": ["performance/osu/skills/speed.go:speedStrainValue", "performance/osu/skills/speed.go:speedStrainBonus", "performance/osu/skills/skill.go:processInternal", "performance/osu/difficulty.go:CalculateStrainPeaks"]}
{"id": "C99", "title": "Flashlight strain of every map", "statement": "In exact arithmetic, with Flashlight, for every map with at least two objects the flashlight strain peaks are, section by section of 400 ms, the greatest of the strains in that section, where a strain is the sum of what the hits so far have added, each decayed by 0.15 per second. What a hit adds is the square of a sum over the last ten notes that are not spinners: the distance of the note over the time for which it has to be remembered, less for each note in between, less if notes are stacked and less if the last note is still in sight. Without Flashlight there are no flashlight peaks.", "quantifier": "all maps, speeds, circle sizes and mods; exact arithmetic", "why_tests_cant": "The value of a hit depends on up to ten notes before it and on which of them are spinners; maps are unbounded.", "anchors": ["performance/osu/skills/flashlight.go:flashlightStrainValue", "performance/osu/skills/skill.go:processInternal", "performance/osu/difficulty.go:CalculateStrainPeaks"]}
{"id": "C100", "title": "Ratings of every map", "statement": "In exact arithmetic, for every map with at least two objects, all results of CalculateSingle are explicit functions of the strain peaks of C97 to C99: peaks in descending order, the ten (for speed, five) hardest eased to three quarters and logarithmically more, sorted again, summed with weights 0.9^i (for flashlight, 1), times 1.06 (for speed, 1.04); a rating is 0.0675 times the root. The slider factor is the ratio of the aim rating without sliders and with them, or 1 for an aim rating of at most 0.00001. With Relax the speed rating is 0. The stars are the cube root formula over the three ratings. The total that CalculateStrainPeaks reports for a section is that formula for the peaks of the section alone. No map has fewer than 0.135 times the cube root of 1.12 stars, which is what maps with a single object have.", "quantifier": "all maps, speeds, circle sizes, hit windows and mods; every sorting algorithm; exact arithmetic", "why_tests_cant": "All results at once for all maps, independent of the algorithm by which the strains are sorted.", "anchors": ["performance/osu/difficulty.go:CalculateSingle", "performance/osu/difficulty.go:getStarsFromRawValues", "performance/osu/skills/skill.go:DifficultyValue"]}
{"id": "C101", "title": "The slider factor is between 0 and 1", "statement": "In exact arithmetic, for every map with at least two objects the slider factor of CalculateSingle is between 0 and 1: sliders never make a map easier to aim. If the map has no sliders it is 1.", "quantifier": "all maps, speeds, circle sizes and mods; exact arithmetic", "why_tests_cant": "It needs that each hit adds no more without sliders, through all bonuses and through sections, sorting and weighting; the bonus for sharp angles is not obviously monotone.", "anchors": ["performance/osu/difficulty.go:CalculateSingle", "performance/osu/difficulty.go:getStarsFromRawValues", "performance/osu/skills/aim.go:aimStrainValue"]}
{"id": "C102", "title": "Ratings by the highest strain", "statement": "In exact arithmetic, for every map with at least two objects: if M is the highest aim strain that CalculateStrainPeaks reports, the aim rating of CalculateSingle is between 0.0675 times the root of 0.795 M and 0.0675 times the root of 10.6 M, however long the map is. Without Relax the same holds for speed with 0.78 and 10.4. The flashlight rating has no such bound: it is between 0.0675 times the roots of 0.795 and 1.06 times the sum of all flashlight strains.", "quantifier": "all maps, speeds, circle sizes, hit windows and mods; exact arithmetic", "why_tests_cant": "The upper bounds hold for maps of every length.", "anchors": ["performance/osu/difficulty.go:CalculateSingle", "performance/osu/difficulty.go:CalculateStrainPeaks", "performance/osu/skills/skill.go:DifficultyValue"]}
{"id": "C103", "title": "Which maps are not rated", "statement": "In exact arithmetic: the aim rating of CalculateSingle is zero iff at every object from the fourth on that is no spinner and does not follow one, the cursor need not move to it nor to the object before it. So maps of up to three objects have no aim rating wherever their objects are. Without Relax the speed rating is zero iff all objects after the first are spinners; with Relax it is always zero.", "quantifier": "all maps, speeds, circle sizes, hit windows and mods; exact arithmetic", "why_tests_cant": "An equivalence over all maps; that one small movement is enough for a positive rating, whatever else the map contains, needs positivity of the whole chain of bonuses, sections and weights.", "anchors": ["performance/osu/difficulty.go:CalculateSingle", "performance/osu/skills/aim.go:aimStrainValue", "performance/osu/skills/speed.go:speedStrainValue"]}
{"id": "C104", "title": "Smaller circles and wider maps are never easier", "statement": "In exact arithmetic, for maps of circles and spinners with defined times and positions: raising the circle size (up to 12, at OD at most 13 and positive custom speed) never lowers the aim, speed, flashlight or total rating of CalculateSingle, nor, for at least two objects, the aim, speed or flashlight strain of any section of CalculateStrainPeaks. Nor does adding HardRock or removing Easy, when objects are in order of time and not stacked and CS and OD are from 0 to 10; nor stretching all distances between objects by a common factor of at least 1. All calculations return.", "quantifier": "all maps of circles and spinners with defined times in order and defined positions, all mods and speeds; exact arithmetic", "why_tests_cant": "Compares two calculations on every map; a single wrong sign in a bonus would show only on maps where that bonus dominates.", "anchors": ["performance/osu/difficulty.go:CalculateSingle", "performance/osu/difficulty.go:CalculateStrainPeaks", "beatmap/difficulty/difficulty.go:calculate", "performance/osu/skills/aim.go:aimStrainValue", "performance/osu/skills/flashlight.go:flashlightStrainValue", "performance/osu/preprocessing/object.go:setDistances"]}
{"id": "C105", "title": "A map without undefined numbers gets ratings without undefined numbers", "statement": "In exact arithmetic with NaN: slider paths of every type through defined points have defined points only. A file that is read, that gives no position, time, path or length as NaN or infinity, and whose sliders have a span and a positive velocity, gives a map in which all times are defined and in order and all positions, also those on sliders, are defined under all mods; CalculateSingle rates it under all mods and at all positive custom speeds, and all its ratings are numbers. In particular this holds for every map as an editor writes it with positive slider multiplier and tick rate, beat lengths other than 0 and sliders with at least one span.", "quantifier": "all files, slider paths, mods and speeds; exact arithmetic", "why_tests_cant": "NaN can enter at each of the hundreds of divisions and square roots between the text of the file and the rating; no finite set of files shows that it enters at none.", "anchors": ["beatmap/parser.go:ParseFromReader", "math/curves/multicurve.go:NewMultiCurveT", "beatmap/objects/slider.go:SetTiming", "beatmap/stackleniency.go:calculateStackLeniency", "performance/osu/preprocessing/lazyslider.go:calculateEndPosition", "performance/osu/difficulty.go:CalculateSingle"]}
{"id": "C106", "title": "Every map as an editor writes it is read and rated", "statement": "In exact arithmetic: a file written as an editor writes it, with sliders of all four curve types, is read without a panic, an error or an endless loop, with every object. The file must have a timing point, a title, artist or creator, positive slider multiplier and tick rate, beat lengths other than 0, and sliders with a positive length and at least one and fewer than 2^45 spans; the three points of a circular arc must be within 1024 pixels of the origin in each coordinate. CalculateSingle then rates the map under every combination of mods and at every positive custom speed, and all ratings are numbers.", "quantifier": "all written files, all mods, all positive speeds; exact arithmetic", "why_tests_cant": "Termination of the Bezier subdivision, of the arc and tick loops, and the absence of panics and of NaN, hold here for every file at once; tests sample a few files.", "anchors": ["beatmap/parser.go:ParseFromReader", "beatmap/objects/util.go:CreateObject", "beatmap/objects/slider.go:SetTiming", "math/curves/multicurve.go:NewMultiCurveT", "math/curves/bezierapproximator.go:CreateBezier", "math/curves/cirarc.go:NewCirArc", "performance/osu/difficulty.go:CalculateSingle"]}
{"id": "C107", "title": "Written maps with Bezier sliders are read and get finite results", "statement": "In IEEE arithmetic: take any written map as in C85 whose sliders are either straight as there, or of any type other than Catmull curves and circular arcs through three points (so Bezier curves with red anchors, lines, and perfect sliders with any other number of points), through at most 64 points, with a pixel length from 1 to below 16384 and at least one span, where the spans times (length + 64 + the square of the number of points) are at most 131072. The coordinates of the points of a slider are either from 1 to below 1024, fractions allowed, or whole from -1023 to 1023 with at most six points in each piece between red anchors. The parser returns a map with as many objects as there are lines, without a panic, an error or an endless loop. If no stack of that map is higher than 32768, then under any mods and any custom speed between a quarter and four the difficulty calculation and the strain peaks return, every rating is finite and not negative, and every play with as many judgements as objects gets finite performance points that are not negative.", "quantifier": "all such files, all mods, all speeds, all plays; IEEE arithmetic, library functions within their stated bounds", "why_tests_cant": "rounding in the subdivision could keep a curve from ever being flat, or leave lines so short that the divisions by their lengths are inexact; the files are unbounded in number and tests only sample them", "anchors": ["beatmap/parser.go:ParseFromReader", "beatmap/objects/slider.go:NewSlider", "beatmap/objects/slider.go:SetTiming", "math/curves/multicurve.go:NewMultiCurveT", "math/curves/bezierapproximator.go:CreateBezier", "performance/osu/difficulty.go:CalculateSingle", "performance/osu/difficulty.go:CalculateStrainPeaks", "performance/osu/pp.go:PPv2x"]}
{"id": "C108", "title": "Playing faster never lowers the hardest aim and flashlight strain", "statement": "In exact arithmetic: take any map of at least two objects with defined positions, times and slider paths (for example any that is read from a file as in C105), CS at most 12, and two choices of mods and custom speed that agree on Easy, HardRock, Relax and Flashlight, of which the second is at least as fast altogether (for example adding DoubleTime, or a higher custom speed). Both strain calculations return. Each flashlight peak of the slower one is at most some flashlight peak of the faster one; and if objects start at least 25 ms after one another at the higher speed, each aim peak of the slower one is at most some aim peak of the faster one. So the hardest section is no easier when the map is played faster, also with sliders and spinners.", "quantifier": "all maps of at least two objects with defined numbers, all CS up to 12, all pairs of mods that agree on the four mods and all positive custom speeds with the second one at least as fast", "why_tests_cant": "The strain is a decaying sum over all earlier objects, sections move when the speed changes, and the angle, slider and velocity-change bonuses depend on time in opposite directions; a test only compares single maps at single speeds.", "anchors": ["performance/osu/skills/aim.go:aimStrainValue", "performance/osu/skills/flashlight.go:flashlightStrainValue", "performance/osu/skills/skill.go:processInternal", "performance/osu/preprocessing/object.go:NewDifficultyObject", "beatmap/difficulty/difficulty.go:GetModifiedTime", "performance/osu/difficulty.go:CalculateStrainPeaks"]}
{"id": "C109", "title": "Every play of a map gets performance points, and higher OD or CS never lowers them", "statement": "In exact arithmetic: for any map with objects in which all times, positions and slider paths are defined (for example any that an editor writes, or that is read from a file as in C105), CS and AR at most 12 and OD at most 13, any mods and any custom speed above 0, the difficulty calculation returns ratings, and for every play of the map (any combo, also the default; hits and misses not negative with at least one object and no fewer than the spinners, or the default number of 300s) aim, speed, accuracy, flashlight and total performance points are numbers and not negative. Raising OD, when the effective OD was not negative before, lowers none of the five; raising CS on a map of circles and spinners lowers none of them. With a negative effective OD (low OD with HalfTime) raising OD strictly lowers the aim points.", "quantifier": "All maps, mods, speeds, combos and hit counts as described; all pairs of OD and CS", "why_tests_cant": "The claim joins parser, difficulty calculation and performance formula over every map and every score; a test sees a few maps and scores, and the monotonicity compares two ratings of the same arbitrary map.", "anchors": ["performance/osu/pp.go:PPv2x", "performance/osu/difficulty.go:CalculateSingle", "beatmap/difficulty/difficulty.go:calculate", "beatmap/parser.go:ParseFromReader"]}
{"id": "C110", "title": "The values that a difficulty derives from its base stats have their published closed forms", "statement": "In exact arithmetic, for any base stats, mods and custom speed above 0: HP, AR and OD are raised 1.4 times and CS 1.3 times by HardRock, to at most 10, and then halved by Easy; the circle radius is 54.4 - 4.48 CS; the preempt time is 1800 - 120 AR up to AR 5 and 1950 - 150 AR above; the hit windows are 80 - 6 OD, 140 - 8 OD and 200 - 10 OD; spinners need 3 + 0.4 OD spins per second up to OD 5 and 2.5 + 0.5 OD above; the speed is the custom speed times 1.5 under DoubleTime and times 0.75 under HalfTime; a modified time is the time divided by the speed; the effective AR has a preempt time, and the effective OD a 300 window, that is the one of the map divided by the speed.", "quantifier": "all base stats, all mod sets, all custom speeds above 0", "why_tests_cant": "A test compares a few stats under a few mods; the piecewise formulas, caps and inversions must hold for every real stat and each of the mod sets.", "anchors": ["beatmap/difficulty/difficulty.go:calculate", "beatmap/difficulty/difficulty.go:DifficultyRate", "beatmap/difficulty/difficulty.go:DiffFromRate", "beatmap/difficulty/difficulty.go:GetModifiedTime"]}
{"id": "C111", "title": "Objects are shown mirrored under HardRock and moved by their stack", "statement": "In exact arithmetic, for every map that is read from text and every mod set: the start of each object, its end, and its place at any time are shown at the raw place, mirrored to 384 - y under HardRock, moved to the left and up by the object's stack index times a tenth of the circle radius, where index and radius are those of HardRock if that is on, else those of Easy if that is on, else those without mods. The place at a time fails exactly when the raw place fails. In any arithmetic, the positions that are asked for without mods are those under no mods.", "quantifier": "all texts, all objects of the map, all mod sets, all times", "why_tests_cant": "Index, radius and mirror must come from the same variant for each of the mod sets and any stack heights; a test sees a few stacks under a few mods.", "anchors": ["beatmap/objects/hitobject.go:GetStackedStartPositionMod", "beatmap/objects/hitobject.go:GetStackedEndPositionMod", "beatmap/objects/hitobject.go:GetStackedPositionAtMod", "beatmap/objects/hitobject.go:GetStackedStartPosition", "beatmap/objects/hitobject.go:GetStackedEndPosition", "beatmap/objects/hitobject.go:GetStackedPositionAt"]}
{"id": "C112", "title": "Mods are listed by full name and by acronym consistently", "statement": "For every mod set, the full listing has, in the order of the mod bits and each once, the full names of the mods in the set, except DoubleTime beside Nightcore, HalfTime beside Daycore and SuddenDeath beside Perfect; the short text is the acronyms of the same mods in the same order without separators.", "quantifier": "all 2^64 mod sets", "why_tests_cant": "There are 2^64 mod sets; a test tries a few combinations and misses a shifted table or a suppressed name in others.", "anchors": ["beatmap/difficulty/mods.go:StringFull", "beatmap/difficulty/mods.go:String"]}
{"id": "C113", "title": "Slider velocity, slider time and tick distance agree with each other", "statement": "In exact arithmetic, for slider multiplier, tick rate and red line beat length above 0: the beat length of a timing point is that of the last red line times the velocity ratio; at the velocity of the point a slider moves by 100 times the slider multiplier in one such beat; the slider time of a length is the time that this length takes at this velocity; the tick distance is the way at this velocity in one beat of the red line, divided by the tick rate. The default timing point has beats of 1000 ms and ratio 1.", "quantifier": "all multipliers, tick rates and timing points, all lengths", "why_tests_cant": "The four functions are computed by separate formulas; their agreement for all parameters is an identity that sampled values with ratio 1 or tick rate 1 do not settle.", "anchors": ["beatmap/timing/timing.go:GetVelocity", "beatmap/timing/timing.go:GetSliderTimeP", "beatmap/timing/timing.go:GetTickDistance", "beatmap/timing/timing.go:GetBeatLength", "beatmap/timing/timing.go:GetScoringDistance", "beatmap/timing/timing.go:GetDefault"]}
{"id": "C114", "title": "Written maps with circular arcs are read and get finite results", "statement": "In IEEE arithmetic, with cosines and sines correct to nine decimals between -16 and 16 and arctangents of at most pi in magnitude: take any written map as in C107 whose sliders may also be circular arcs through three points with whole coordinates of at most 1023 in magnitude, where the points are either on a line or at least 12 px apart from each other on a circle whose centre has coordinates of at most 4096 in magnitude, with a pixel length from 1 to below 16384 and at least one span, where the spans times (length + 640) are at most 131072. The parser returns a map with as many objects as there are lines, without a panic, an error or an endless loop. If no stack of that map is higher than 32768, then under any mods and any custom speed between a quarter and four the difficulty calculation and the strain peaks return, every rating is finite and not negative, and every play with as many judgements as objects gets finite performance points that are not negative.", "quantifier": "all such files, all mods, all speeds, all plays; IEEE arithmetic, library functions within their stated bounds", "why_tests_cant": "the circle through three nearly straight points is computed with large cancellation, the loop that unwinds the end angle could go on for ever and the number of lines could come out negative; the files are unbounded in number and tests only sample them", "anchors": ["beatmap/parser.go:ParseFromReader", "beatmap/objects/slider.go:NewSlider", "math/curves/cirarc.go:NewCirArc", "math/curves/cirarc.go:PointAt", "math/curves/approximation.go:ApproximateCircularArc", "math/curves/multicurve.go:NewMultiCurveT", "performance/osu/difficulty.go:CalculateSingle", "performance/osu/difficulty.go:CalculateStrainPeaks", "performance/osu/pp.go:PPv2x"]}
{"id": "C115", "title": "The encoding of a map file does not matter", "statement": "A file that holds a text in UTF-8, with or without byte order mark, or in UTF-16 of either byte order with its mark is read exactly as that text, whatever characters the text has. Bytes in a file without mark that are not part of a UTF-8 sequence, as in files of an older encoding, are each read as the replacement character and change nothing else. Every file without the mark of UTF-8, whatever its bytes are, is read as some text, so what holds of all texts holds of all such files.", "quantifier": "all texts, all byte sequences, all portions in which the reader delivers them; any arithmetic", "why_tests_cant": "a test tries a few files; that no text is changed by its encoding, that no surrogate pair is torn and that no byte sequence makes the decoder lose its place are statements about all of them", "anchors": ["files/utf.go:NewUnicodeReader", "files/utf.go:NewScannerBuf", "beatmap/parser.go:ParseFromReader"]}
{"id": "C116", "title": "Catmull sliders are Catmull-Rom splines", "statement": "In exact arithmetic, the path of a Catmull slider, before it is trimmed to the pixel length, has fifty lines for each pair of consecutive control points. They join the points at times 0, 1/50, ..., 1 of a cubic curve from the one control point to the other. There is one such spline: at each inner control point it has half the way between the two neighbouring control points as speed, at the first one half the way to the second, and at the last one the whole way from the one before, so that the parts join smoothly. Every point of the spline is, in each coordinate, within 0.0003 times the width of the control points of a point of the path (0.2 px for a slider as large as the screen).", "quantifier": "all control point lists; exact arithmetic", "why_tests_cant": "A test compares some points of some sliders; that the curve is the smooth spline for all control points, and how far its lines are from it, are statements about all real coordinates.", "anchors": ["math/curves/catmull.go:findPoint", "math/curves/approximation.go:ApproximateCatmullRom", "math/curves/multicurve.go:processCatmull"]}
{"id": "C117", "title": "Written maps with sliders of every type are read and get finite results", "statement": "In IEEE arithmetic, with library functions as in C114: take any written map as in C114 whose sliders may also be Catmull curves through any points with whole coordinates of at most 1023 in magnitude, repeated points included, with a pixel length from 1 to below 16384 and at least one span, where the spans times (length + 64 + 80 times the square of the number of parts) are at most 131072. The parser returns a map with as many objects as there are lines, without a panic, an error or an endless loop. If no stack of that map is higher than 32768, then under any mods and any custom speed between a quarter and four the difficulty calculation and the strain peaks return, every rating is finite and not negative, and every play with as many judgements as objects gets finite performance points that are not negative.", "quantifier": "all such files, all mods, all speeds, all plays; IEEE arithmetic, library functions within their stated bounds", "why_tests_cant": "Catmull curves swing out of their control points and come to rest at repeated ones, where lines shorter than 2^-48 would make the position at the end of an extended slider not a number; no sample of files shows that rounding never produces one.", "anchors": ["beatmap/parser.go:ParseFromReader", "beatmap/objects/slider.go:NewSlider", "math/curves/catmull.go:findPoint", "math/curves/approximation.go:ApproximateCatmullRom", "math/curves/multicurve.go:processCatmull", "math/curves/multicurve.go:NewMultiCurveT", "performance/osu/difficulty.go:CalculateSingle", "performance/osu/difficulty.go:CalculateStrainPeaks", "performance/osu/pp.go:PPv2x"]}
{"id": "C118", "title": "Moving the control points of a slider moves its path", "statement": "In exact arithmetic, applying any map of the plane that preserves distances (rotations, reflections, translations and their compositions) to all control points of a slider whose path is not a three-point circular arc gives the moved path: the same length, the same lengths of the parts, the moved lines, and at every progress the moved position. For translations this also holds for three-point circular arcs. In IEEE arithmetic, exchanging the two coordinates of all control points of a slider that is not a three-point arc exchanges the coordinates of every position on its path and keeps the length to the last bit.", "quantifier": "every slider type, every list of control points, every pixel length, every distance-preserving map (every vector for translations); every implementation of the mathematical library for the IEEE part", "why_tests_cant": "The construction of Bezier paths subdivides an unknown number of times, and trimming cuts lines at computed positions; a dependence on the place or the direction in the plane would show only for some shapes, and tests compare single paths.", "anchors": ["math/curves/multicurve.go:NewMultiCurveT", "math/curves/multicurve.go:PointAt", "math/curves/bezierapproximator.go:CreateBezier", "math/curves/approximation.go:ApproximateCatmullRom", "math/curves/cirarc.go:NewCirArc"]}
{"id": "C119", "title": "A map file with exchanged coordinates is the same map, turned over", "statement": "Take a map file with circles, spinners and sliders of any type except three-point circular arcs, and exchange the x and y coordinate of every object and of every point of a slider in the text of the file. In IEEE arithmetic the exchanged file is read if and as the original one is: the parsed maps differ only in that the coordinates of all objects, ends, paths and stack offsets are exchanged; order, times, combos, lengths, ticks and stack heights are the same. An original that is refused as corrupted stays refused. Without HardRock, every difficulty calculation (attributes, attributes after each object, strain peaks) gives the same results for both files to the last bit.", "quantifier": "every written map (any texts, settings, timing points, decimals as coordinates) that is read, every fuel; every difficulty without HardRock; every implementation of the mathematical library in which the angle atan2 of a negated first argument is the same up to sign (for the ratings)", "why_tests_cant": "The two files take the same steps only if parsing, path construction, timing, stacking and all skills treat both axes alike in every rounding; a dependence on one axis (such as a wrong field, a sum in another order or a comparison of one coordinate) shows only on some maps, and tests compare single maps with recorded numbers.", "anchors": ["beatmap/parser.go:ParseFromReader", "beatmap/objects/util.go:CreateObject", "beatmap/objects/slider.go:NewSlider", "beatmap/objects/slider.go:SetTiming", "beatmap/stackleniency.go:processStacking", "math/curves/multicurve.go:NewMultiCurveT", "performance/osu/difficulty.go:CalculateSingle"]}
{"id": "C120", "title": "The order of the lines of the objects does not matter", "statement": "Two map files that differ only in the order of the lines of the HitObjects section, where lines that give the same time are in the same order in both, give the same result of parsing: the same map in every field (order, ids, combos, stacks, counters, length), or both the error that the file is corrupted; if one makes the parser panic or hang, so does the other. In particular lines of objects at different times can be put in any order. Only lines at the same time must keep theirs: an example shows that exchanging those gives a different map.", "quantifier": "every text of a file in which the times of the object lines are numbers (not NaN), every order of the lines, every implementation of the sorting functions that keeps to its documentation, every fuel", "why_tests_cant": "There are n! orders of n lines, and the ids, combos, timing of sliders, stacks and the length of the map are computed in passes over the list; a pass before sorting, an unstable sort or a value taken from the last line would show only for unsorted files, which no editor writes.", "anchors": ["beatmap/parser.go:ParseFromReader", "beatmap/parser.go:parseHitObjects", "beatmap/objects/util.go:CreateObject"]}
{"id": "C121", "title": "Names, audio, background and breaks change nothing in the objects of a map", "statement": "Take two map files with the same lines in the Difficulty, TimingPoints and HitObjects sections, the same last StackLeniency in General and the same last format line. If both are read as maps, the maps have the same objects in every field (places, paths, times, combos, stacks), the same difficulty, timing points, counters, length, tempo, slider velocity and version, whatever their titles, ids, audio, preview time, mode, background, breaks, unknown keys and unknown sections. The calculators of difficulty and performance take only the objects and the difficulty from a map, so they are called with the same values. If the first is read and the second has the same Events lines and at least one of title, artist and creator, the second is read as well.", "quantifier": "all pairs of texts that satisfy the condition, all interleavings and repetitions of sections, every float arithmetic", "why_tests_cant": "The two files may differ in arbitrary text in any number of places; tests compare a few edited files.", "anchors": ["beatmap/parser.go:ParseFromReader", "beatmap/parser.go:parseGeneral", "beatmap/parser.go:parseMetadata", "beatmap/parser.go:parseEvents"]}
{"id": "C122", "title": "The order of the lines of the timing points does not matter", "statement": "Two map files that differ only in the order of the lines of the TimingPoints section, where lines that give the same time are in the same order in both, give the same result of parsing: the same map in every field (objects, slider times, score points, difficulty, timing points with their base beat lengths, lowest and highest tempo, counters, length), or both the error that the file is corrupted; if one makes the parser panic or hang, so does the other. The time of a line is the whole number before its first comma; a time that is no whole number counts as 0 (C77). The order of lines with the same time does matter.", "quantifier": "all pairs of files that satisfy the condition, all numbers of timing points, IEEE arithmetic", "why_tests_cant": "There are n! orders of n lines, and the points interact through base beat lengths and slider times; tests use sorted files.", "anchors": ["beatmap/beatmap.go:ParsePoint", "beatmap/timing/timing.go:FinalizePoints", "beatmap/parser.go:ParseFromReader"]}
