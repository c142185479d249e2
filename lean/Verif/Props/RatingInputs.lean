import Verif.Lemmas.RatingInputs

/-!
# C121: names, audio, background and breaks change nothing in the objects of a map
-/

namespace GosuPP
open Go

section
variable {S D : Type} [GoFloat S] [GoFloat D] [GoConv S D] [GoLibm D]
variable [GoSort]

/-- C121. Two files that differ in nothing but names, ids, audio, preview time, mode, background, breaks and unknown keys and sections give
maps with the same objects (places, paths, times, combos, stacks), difficulty, timing points, counters, length, tempo and version. So every
rating and all performance points are the same. -/
theorem C121_same (fuel : ℕ) {a b : Str} (h : Spec.SamePlay (scanLines bufferSize a) (scanLines bufferSize b)) {m m' : BeatMap S D}
    (ha : parseText fuel a = .ok (some m)) (hb : parseText fuel b = .ok (some m')) :
    m'.hitObjects = m.hitObjects ∧ m'.difficulty = m.difficulty ∧ m'.timings = m.timings ∧ m'.sliderMultiplier = m.sliderMultiplier ∧
    m'.circles = m.circles ∧ m'.sliders = m.sliders ∧ m'.spinners = m.spinners ∧ m'.length = m.length ∧
    m'.minBPM = m.minBPM ∧ m'.maxBPM = m.maxBPM ∧ m'.stackLeniency = m.stackLeniency ∧ m'.fileVersion = m.fileVersion := by
  obtain ⟨st, h1, objs, h2, rfl⟩ := parseText_some ha
  obtain ⟨st', h1', objs', h2', rfl⟩ := parseText_some hb
  obtain ⟨e1, e2, e3, e4, e5, e6, e7, e8, e9, e10, e11, e12, -⟩ := same_play h h1 h1'
  rw [← e3, ← e6, h2] at h2'
  cases h2'
  dsimp only
  rw [← e1, ← e3, ← e11, ← e12]
  exact ⟨rfl, rfl, rfl, e2.symm, e7.symm, e8.symm, e9.symm, e10.symm, e4.symm, e5.symm, rfl, rfl⟩

/-- C121. If the first file is read, then the second is read as well when it has the same events and at least one of title, artist and creator. -/
theorem C121_read (fuel : ℕ) {a b : Str} (h : Spec.SamePlay (scanLines bufferSize a) (scanLines bufferSize b))
    (he : Spec.sectionLines "Events".toList (scanLines bufferSize a) = Spec.sectionLines "Events".toList (scanLines bufferSize b))
    {m : BeatMap S D} (ha : parseText fuel a = .ok (some m))
    (hn : ∃ k ∈ ["Title", "Artist", "Creator"], ∃ v, (Spec.values "Metadata" k (scanLines bufferSize b)).getLast? = some v ∧ v ≠ []) :
    ∃ m' : BeatMap S D, parseText fuel b = .ok (some m') := by
  obtain ⟨st, h1, objs, h2, -⟩ := parseText_some ha
  have ra := (Sec.parts fuel (scanLines bufferSize a) (ParseState.init : ParseState S D)).1 st h1
  have key : ∀ i : Sec, Spec.sectionLines i.name (scanLines bufferSize a) = Spec.sectionLines i.name (scanLines bufferSize b) →
      ∃ r, Sec.run fuel i (i.lines (ParseState.init : ParseState S D).currentSection (scanLines bufferSize b))
        (Sec.only i (ParseState.init : ParseState S D)) = .ok r := by
    intro i hi
    have e : i.lines (ParseState.init : ParseState S D).currentSection (scanLines bufferSize a) =
      i.lines (ParseState.init : ParseState S D).currentSection (scanLines bufferSize b) := hi
    rw [← e]
    exact ⟨_, ra i⟩
  obtain ⟨st', hb⟩ := (Sec.parts fuel (scanLines bufferSize b) (ParseState.init : ParseState S D)).2 fun i => by
    cases i with
    | general => exact run_texts (.inl rfl) _ _
    | metadata => exact run_texts (.inr (.inl rfl)) _ _
    | difficulty => exact run_texts (.inr (.inr rfl)) _ _
    | events => exact key .events he
    | timing => exact key .timing h.timing
    | hit => exact key .hit h.objects
  obtain ⟨e1, -, e3, -, -, e6, -, -, -, -, -, -, e13⟩ := same_play h h1 hb
  have hc : st.counter ≠ 0 := by
    intro hc
    unfold parseText parseFromLines at ha
    rw [h1] at ha
    have ha : finishParse fuel st = .ok (some m) := ha
    unfold finishParse at ha
    dsimp only at ha
    rw [if_pos (Or.inr hc)] at ha
    cases ha
  have hne : ¬ (st'.beatMap.title ++ st'.beatMap.artist ++ st'.beatMap.creator = [] ∨ st'.counter = 0) := by
    rintro (hcon | hcon)
    · rw [List.append_eq_nil_iff, List.append_eq_nil_iff] at hcon
      obtain ⟨⟨n1, n2⟩, n3⟩ := hcon
      rw [metadata_value (fun b => b.title) (fun _ => rfl) "Title" id (fun k v b => (metadata_fields k v b).1) hb] at n1
      rw [metadata_value (fun b => b.artist) (fun _ => rfl) "Artist" id (fun k v b => (metadata_fields k v b).2.2.1) hb] at n2
      rw [metadata_value (fun b => b.creator) (fun _ => rfl) "Creator" id (fun k v b => (metadata_fields k v b).2.2.2.2.1) hb] at n3
      obtain ⟨k, hk, v, hv, hv0⟩ := hn
      simp only [List.mem_cons, List.not_mem_nil, or_false] at hk
      rcases hk with rfl | rfl | rfl
      · unfold Spec.lastOr at n1; rw [hv] at n1; exact hv0 n1
      · unfold Spec.lastOr at n2; rw [hv] at n2; exact hv0 n2
      · unfold Spec.lastOr at n3; rw [hv] at n3; exact hv0 n3
    · exact hc (e13.trans hcon)
  unfold parseText parseFromLines
  rw [hb, ok_bind]
  unfold finishParse
  dsimp only
  rw [if_neg hne, ← e3, ← e6, h2]
  exact ⟨_, rfl⟩

end

/-! ### Concrete cases -/

namespace Sample.Play

def one : List Str := ["osu file format v14", "[General]", "StackLeniency:0.5", "[Metadata]", "Title:a", "[Difficulty]", "CircleSize:4",
  "SliderMultiplier:1", "SliderTickRate:1", "[TimingPoints]", "0,500", "[HitObjects]", "64,64,1000,5,0", "128,64,1500,1,0"].map String.toList

/-- Other names, audio, preview time, background, breaks and order of sections, and an earlier stack leniency. -/
def two : List Str := ["osu file format v14", "[TimingPoints]", "0,500", "[General]", "AudioFilename: x.mp3", "StackLeniency:0.9", "PreviewTime: 77",
  "StackLeniency: 0.5", "[Events]", "0,0,\"bg.jpg\",0,0", "2,1100,1400", "[Editor]", "Bookmarks: 3", "[Difficulty]", "CircleSize:4",
  "SliderMultiplier:1", "SliderTickRate:1", "[HitObjects]", "64,64,1000,5,0", "128,64,1500,1,0", "[Metadata]", "Creator:c",
  "BeatmapID:9"].map String.toList

def text (ls : List Str) : Str := ls.flatMap (· ++ ['\n'])

/-- C121: the files have the same settings, timing points and objects. -/
example : Spec.SamePlay (scanLines bufferSize (text one)) (scanLines bufferSize (text two)) := by
  refine ⟨by decide +kernel, by decide +kernel, by decide +kernel, by decide +kernel, by decide +kernel⟩

/-- C121: both are maps; the names and breaks differ, the objects do not. -/
example : Sample.observe (text one) (fun m => (m.title, m.bg, m.pauses.length, m.mapID)) = some ("a".toList, [], 0, 0) ∧
    Sample.observe (text two) (fun m => (m.title, m.bg, m.pauses.length, m.mapID)) = some ([], "bg.jpg".toList, 1, 9) ∧
    Sample.observe (text one) (fun m => (m.stackLeniency, m.hitObjects.map fun o => o.base.startTime)) = some (lit 0.5, [lit 1000, lit 1500]) ∧
    Sample.observe (text two) (fun m => (m.stackLeniency, m.hitObjects.map fun o => o.base.startTime)) = some (lit 0.5, [lit 1000, lit 1500]) := by
  refine ⟨by decide +kernel, by decide +kernel, by decide +kernel, by decide +kernel⟩

/-- C121: the hypothesis on names is met by the second file, and without any name a file is not a map. -/
example : (∃ k ∈ ["Title", "Artist", "Creator"], ∃ v, (Spec.values "Metadata" k (scanLines bufferSize (text two))).getLast? = some v ∧ v ≠ []) ∧
    Sample.observe (text (one.filter (· != "Title:a".toList))) (fun m => m.mode) = none := by
  refine ⟨⟨"Creator", by decide, "c".toList, by decide +kernel, by decide⟩, by decide +kernel⟩

end Sample.Play

end GosuPP
