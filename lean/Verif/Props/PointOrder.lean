import Verif.Lemmas.TempoOrder
import Verif.Lemmas.Written
import Verif.Props.Sample

/-!
# C122: the order of the lines of the timing points does not matter
-/

namespace GosuPP
open Go Spec

section
variable [GoSort] [GoLibm F64]

/-- C122 (IEEE). Two files that differ in the order of the lines of their timing points only, where lines with the same time are in the same
order, give the same result: the same map, or the error `corrupted file`. If one of them makes the parser panic or hang so does the other. -/
theorem C122_lines (fuel : ℕ) {a b : List Str} (h : PointsReordered a b) (r : Option (BeatMap F32 F64)) :
    parseFromLines fuel a = .ok r ↔ parseFromLines fuel b = .ok r :=
  ⟨points_same h, points_same h.symm⟩

/-- C122 (IEEE). The same for the texts of files. -/
theorem C122_text (fuel : ℕ) {a b : Str} (h : PointsReordered (scanLines bufferSize a) (scanLines bufferSize b)) (r : Option (BeatMap F32 F64)) :
    parseText fuel a = .ok r ↔ parseText fuel b = .ok r :=
  C122_lines fuel h r

end

/-! ### Concrete cases -/

namespace Sample.Points

def file (points : List String) : List Str := (["osu file format v14", "[Metadata]", "Title:a", "[Difficulty]", "SliderMultiplier:1",
  "SliderTickRate:1", "[TimingPoints]"] ++ points ++ ["[HitObjects]", "64,64,1000,1,0", "64,64,2500,1,0"]).map String.toList

def text (ls : List Str) : Str := ls.flatMap (· ++ ['\n'])

def one : List Str := file ["0,500,4,1,0,100,1,0", "1000,400,4,1,0,100,1,0", "1000,-50,4,1,0,100,0,0", "2000,300,3,1,0,100,1,0"]

/-- The last point comes first; the two points at 1000 are in the same order. -/
def two : List Str := file ["2000,300,3,1,0,100,1,0", "1000,400,4,1,0,100,1,0", "0,500,4,1,0,100,1,0", "1000,-50,4,1,0,100,0,0"]

theorem two_points : pointLines one = ["0,500,4,1,0,100,1,0", "1000,400,4,1,0,100,1,0", "1000,-50,4,1,0,100,0,0", "2000,300,3,1,0,100,1,0"].map String.toList ∧
    pointLines two = ["2000,300,3,1,0,100,1,0", "1000,400,4,1,0,100,1,0", "0,500,4,1,0,100,1,0", "1000,-50,4,1,0,100,0,0"].map String.toList := by
  constructor <;> decide +kernel

/-- C122: the hypotheses are met. -/
example : PointsReordered one two := by
  refine ⟨by decide +kernel, by decide +kernel, ?_, fun t => ?_⟩
  · rw [two_points.1, two_points.2]; decide +kernel
  · rw [two_points.1, two_points.2]
    simp only [List.map_cons, List.map_nil]
    have e : ∀ (s : String) (n : ℤ), pointTime s.toList = some (ofInt n) → pointAtTime t s.toList = ((ofInt n : F64) ==. t) := by
      intro s n h
      unfold pointAtTime
      rw [h]
    have e1 := e "0,500,4,1,0,100,1,0" 0 (by decide +kernel)
    have e2 := e "1000,400,4,1,0,100,1,0" 1000 (by decide +kernel)
    have e3 := e "1000,-50,4,1,0,100,0,0" 1000 (by decide +kernel)
    have e4 := e "2000,300,3,1,0,100,1,0" 2000 (by decide +kernel)
    have no : ∀ x y : F64, Fl.eq x y = false → ((x ==. t) = true → (y ==. t) = false) := by
      intro x y hxy hx
      by_contra hc
      have h1 := Fl.eq_iff_le.mp (show Fl.eq x t = true from hx)
      have h2 := Fl.eq_iff_le.mp (show Fl.eq y t = true from eq_true_of_ne_false hc)
      have := Fl.eq_iff_le.mpr ⟨Fl.le_trans h1.1 h2.2, Fl.le_trans h2.1 h1.2⟩
      rw [hxy] at this
      cases this
    have n1 := no (ofInt 0) (ofInt 1000) (by decide +kernel)
    have n2 := no (ofInt 0) (ofInt 2000) (by decide +kernel)
    have n3 := no (ofInt 1000) (ofInt 2000) (by decide +kernel)
    simp only [List.filter_cons, List.filter_nil, e1, e2, e3, e4]
    cases h1 : ((ofInt 0 : F64) ==. t)
    · cases h2 : ((ofInt 1000 : F64) ==. t)
      · simp only [Bool.false_eq_true, if_false]
      · simp only [n3 h2, Bool.false_eq_true, if_false, if_true]
    · simp only [n1 h1, n2 h1, Bool.false_eq_true, if_false, if_true]

/-- C122: both are maps with the points in the order of time. -/
example : Sample.observe (text one) (fun m => m.timings.points.map fun p => (p.time, p.beatLength, p.beatLengthBase)) =
      some [(lit 0, lit 500, lit 500), (lit 1000, lit 400, lit 400), (lit 1000, lit (-50), lit 400), (lit 2000, lit 300, lit 300)] ∧
    Sample.observe (text two) (fun m => m.timings.points.map fun p => (p.time, p.beatLength, p.beatLengthBase)) =
      some [(lit 0, lit 500, lit 500), (lit 1000, lit 400, lit 400), (lit 1000, lit (-50), lit 400), (lit 2000, lit 300, lit 300)] := by
  constructor <;> decide +kernel

/-- C122: and the same bounds of the tempo. -/
example : Sample.observe (text one) (fun m => (m.minBPM, m.maxBPM)) = some (lit 120, lit 200) ∧
    Sample.observe (text two) (fun m => (m.minBPM, m.maxBPM)) = some (lit 120, lit 200) := by
  constructor <;> decide +kernel

/-- C122: the order of points with the same time matters: a green line before the red line of its time takes the tempo before it. -/
example : Sample.observe (text (file ["0,500,4,1,0,100,1,0", "1000,-50,4,1,0,100,0,0", "1000,400,4,1,0,100,1,0"]))
      (fun m => m.timings.points.map fun p => (p.beatLength, p.beatLengthBase)) =
    some [(lit 500, lit 500), (lit (-50), lit 500), (lit 400, lit 400)] := by
  decide +kernel

end Sample.Points

end GosuPP
