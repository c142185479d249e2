import Verif.Lemmas.WrittenObjects
import Verif.Props.FileValues
import Verif.Props.ParserObjects
import Verif.Props.Malformed

/-!
# C78: what is written in a file is what is read
-/

namespace GosuPP.Props
open Go GosuPP Spec

section
variable {S D : Type} [GoFloat S] [GoFloat D] [GoConv S D] [GoLibm D]

/-- Numbers (any arithmetic): an integer of 64 bits is read back, a decimal number is read as the float nearest to it. -/
theorem C78_numbers : (∀ n : Int, File.Int64 n → parseInt (showInt n) = n) ∧ (∀ d : Dec, (parseFloat d.show : D) = d.value) :=
  ⟨fun _ h => parseInt_showInt h, parseFloat_show⟩

variable [GoSort]

/-- Keys, events, version (any arithmetic). -/
theorem C78_values (fuel : Nat) (f : File) (hf : f.Good) (m : BeatMap S D) (h : parseText fuel f.text = .ok (some m)) :
    (m.fileVersion = f.version ∧ m.audio = f.audio ∧ m.previewTime = f.previewTime ∧ m.mode = f.mode ∧
      m.stackLeniency = if GoFloat.isNaN (f.stackLeniency.value : D) then lit 0 else f.stackLeniency.value) ∧
    (m.title = f.title ∧ m.titleUnicode = f.titleUnicode ∧ m.artist = f.artist ∧ m.artistUnicode = f.artistUnicode ∧
      m.creator = f.creator ∧ m.source = f.source ∧ m.tags = f.tags ∧ m.mapID = f.mapID ∧ m.setID = f.setID) ∧
    (m.difficulty.getHP = clampF64 f.hp.value (lit 0) (lit 10) ∧ m.difficulty.getCS = clampF64 f.cs.value (lit 0) (lit 10) ∧
      m.difficulty.getOD = clampF64 f.od.value (lit 0) (lit 10) ∧ m.difficulty.getAR = clampF64 f.ar.value (lit 0) (lit 10) ∧
      m.sliderMultiplier = f.sliderMultiplier.value ∧ m.timings.sliderMult = f.sliderMultiplier.value ∧
      m.timings.tickRate = f.tickRate.value) ∧
    (m.bg = f.background ∧ m.pauses = f.breaks.map (fun b => ⟨b.1.value, b.2.value⟩)) := by
  have hg := C76_general fuel f.text m h
  have hm := C76_metadata fuel f.text m h
  have hs := C76_sliders fuel f.text m h
  have he := C76_events fuel f.text m h
  have hd := C13_stats fuel f.text m h
  have ha := C14_approach_rate fuel f.text m h
  simp only [lines_text hf] at hg hm hs he hd ha
  simp only [values_general hf] at hg
  simp only [values_metadata hf] at hm
  simp only [values_difficulty hf] at hs hd ha
  simp only [format_lines hf, records_events hf] at he
  simp [File.general, lastOr, trimSpace_showInt, trimSpace_show, parseFloat_show, parseInt_showInt hf.mode,
    parseInt_showInt hf.previewTime, hf.audio.2.2] at hg
  simp [File.metadata, lastOr, trimSpace_showInt, trimSpace_show, parseFloat_show, parseInt_showInt hf.mapID,
    parseInt_showInt hf.setID, hf.title.2.2, hf.titleUnicode.2.2, hf.artist.2.2, hf.artistUnicode.2.2, hf.creator.2.2,
    hf.source.2.2, hf.tags.2.2] at hm
  simp [File.difficulty, lastOr, trimSpace_show, parseFloat_show] at hs
  simp [File.difficulty, stat, trimSpace_show, parseFloat_show] at hd
  simp [File.difficulty, stat, trimSpace_show, parseFloat_show] at ha
  obtain ⟨e1, e2, e3⟩ := he
  refine ⟨⟨?_, hg.2.2.2, hg.2.2.1, hg.1, hg.2.1⟩, hm, ⟨hd.1, hd.2.1, hd.2.2, ha, hs.1, hs.2.1.trans hs.1, hs.2.2⟩, ?_, ?_⟩
  · rw [e3]
    unfold lastOr
    rw [List.getLast?_singleton]
    show parseInt (List.drop _ _) = _
    rw [show "osu file format v".length = "osu file format v".toList.length by decide, List.drop_left,
      parseInt_showInt hf.version]
  · rw [e1]
    have hn : (f.breaks.map (fun b => [['2'], b.1.show, b.2.show])).filterMap background = [] := by
      rw [List.filterMap_eq_nil_iff]
      intro r hr
      obtain ⟨b, -, rfl⟩ := List.mem_map.mp hr
      rfl
    have hq : ('"' :: f.background ++ ['"']).filter (· != '"') = f.background := by
      rw [List.cons_append, List.filter_cons_of_neg (by decide), List.filter_append]
      have : f.background.filter (· != '"') = f.background := by
        rw [List.filter_eq_self]
        intro c hc
        simp only [bne_iff_ne, ne_eq]
        rintro rfl
        exact hf.background.2.2.2 hc
      rw [this]
      simp
    have hb : background [['0'], ['0'], '"' :: f.background ++ ['"'], ['0'], ['0']] = some f.background := by
      show (if ['0'] = "Background".toList ∨ ['0'] = "0".toList then
        some (('"' :: f.background ++ ['"']).filter (· != '"')) else none) = _
      rw [if_pos (.inr (by decide)), hq]
    unfold File.events
    rw [List.filterMap_cons, hb, hn]
    rfl
  · rw [e2]
    unfold File.events
    have hb : break_ (D := D) [['0'], ['0'], '"' :: f.background ++ ['"'], ['0'], ['0']] = none := by
      have hc : ¬ (['0'] = "Break".toList ∨ ['0'] = "2".toList) := by decide
      unfold break_
      exact if_neg hc
    rw [List.filterMap_cons, hb, List.filterMap_map]
    apply filterMap_some
    intro b _
    have e : break_ (D := D) [['2'], b.1.show, b.2.show] = some ⟨parseFloat b.1.show, parseFloat b.2.show⟩ := by
      have hc : ['2'] = "Break".toList ∨ ['2'] = "2".toList := by decide
      unfold break_
      exact if_pos hc
    show break_ (D := D) [['2'], b.1.show, b.2.show] = _
    rw [e, parseFloat_show, parseFloat_show]

omit [GoFloat S] [GoConv S D] [GoLibm D] [GoSort] in
theorem points_written {ls : List TimingLine} (hg : ∀ p ∈ ls, File.GoodPoint p) {ps : List (ControlPoint D)}
    (h : List.Forall₂ IsPoint (ls.map TimingLine.fields) ps) (hb : ∀ p ∈ ps, p.beatLengthBase = p.beatLength) :
    ps = ls.map TimingLine.point := by
  induction ls generalizing ps with
  | nil => cases h; rfl
  | cons l ls ih =>
    rw [List.map_cons] at h
    cases h with
    | cons h1 h2 =>
      rw [List.map_cons, ← ih (fun p hp => hg p (by simp [hp])) h2 (fun p hp => hb p (by simp [hp])),
        point_written (hg l (by simp)) h1 (hb _ (by simp))]

/-- Timing points (any arithmetic): the points written, in an order of their times. What their base beat lengths are: C16. -/
theorem C78_points (fuel : Nat) (f : File) (hf : f.Good) (m : BeatMap S D) (h : parseText fuel f.text = .ok (some m)) :
    ∃ sorted : List (ControlPoint D), sorted.Perm (f.points.map TimingLine.point) ∧ BaseOf sorted m.timings.points := by
  obtain ⟨ps, sorted, h1, -, h3, h4, h5⟩ := C77_fields fuel f.text m h
  rw [lines_text hf, (records_timing hf).2] at h1
  rw [points_written hf.points h1 h3] at h4
  exact ⟨sorted, h4, h5⟩

omit [GoSort] in
theorem describes_all {fuel : Nat} {ls : List ObjectLine} {os : List (Option (Obj S D))} (hg : ∀ l ∈ ls, File.GoodObject l)
    (h : (ls.map ObjectLine.fields).mapM (createObject fuel) = .ok os) : List.Forall₂ (LineDescribes fuel) ls os.reduceOption := by
  induction ls generalizing os with
  | nil => cases h; exact .nil
  | cons l ls ih =>
    rw [List.map_cons, List.mapM_cons] at h
    obtain ⟨o, ho, h⟩ := bind_ok h
    obtain ⟨os', hos, h⟩ := bind_ok h
    cases h
    obtain ⟨ob, rfl, hd⟩ := create_describes (hg l (by simp)) ho
    exact .cons hd (ih (fun x hx => hg x (by simp [hx])) hos)

/-- Objects (any arithmetic): every line gives the object that it describes, and no others. -/
theorem C78_objects (fuel : Nat) (f : File) (hf : f.Good) (m : BeatMap S D) (h : parseText fuel f.text = .ok (some m)) :
    ∃ os : List (Obj S D), List.Forall₂ (LineDescribes fuel) f.objects os ∧ (m.hitObjects.map given).Perm (os.map given) := by
  obtain ⟨os, h1, h2⟩ := C20_none_lost fuel f.text m h
  rw [lines_text hf, records_objects hf] at h1
  exact ⟨os.reduceOption, describes_all hf.objects h1, h2⟩

/-- Counters (any arithmetic). -/
theorem C78_counters (fuel : Nat) (f : File) (hf : f.Good) (m : BeatMap S D) (h : parseText fuel f.text = .ok (some m)) :
    m.circles = f.objects.countP (fun o => o.kind = .circle) ∧ m.spinners = f.objects.countP (fun o => o.kind = .spinner) ∧
    m.sliders = f.objects.countP (fun o => o.kind = .slider) ∧ m.hitObjects.length = f.objects.length ∧
    m.length = (f.objects.map ObjectLine.last).foldl max 0 := by
  obtain ⟨os, hos, hp⟩ := C78_objects fuel f hf m h
  obtain ⟨h1, h2, h3, -, h5⟩ := C22_counters fuel f.text m h
  rw [lines_text hf, records_objects hf] at h1 h2 h3 h5
  have hc : ∀ (k : LineKind), (f.objects.map ObjectLine.fields).countP (fun a => lineKind a = k) =
      f.objects.countP (fun o => o.kind = k) := by
    intro k
    rw [List.countP_map]
    apply List.countP_congr
    intro o _
    simp only [Function.comp, lineKind_written]
  simp only [hc] at h1 h2 h3
  refine ⟨h1, h2, ?_, ?_, ?_⟩
  · have : f.objects.countP (fun o => o.kind = .hold) = 0 := by
      rw [List.countP_eq_zero]
      intro o _
      cases o <;> simp [ObjectLine.kind]
    rw [h3, this]
    simp
  · have := hp.length_eq
    rw [List.length_map, List.length_map, ← hos.length_eq] at this
    exact this
  · rw [h5, List.map_map]
    congr 1
    apply List.map_congr_left
    intro o ho
    have hg := hf.objects o ho
    show lineTime o.fields = _
    unfold lineTime
    rw [lineKind_written]
    cases o with
    | circle h => exact parseInt_showInt hg.1
    | spinner h e => exact parseInt_showInt hg.2.2
    | slider h c ps r l => exact parseInt_showInt hg.1

omit [GoLibm D] in
theorem setTimings_plain (fuel : Nat) (t : Timings D) {l : List (Obj S D)} (h : ∀ o ∈ l, o.isSlider = false) :
    setTimings fuel t l = .ok l := by
  induction l with
  | nil => rfl
  | cons o l ih =>
    have ho : o.setTiming fuel t = .ok o := by
      have := h o (by simp)
      unfold Obj.setTiming
      cases hk : o.kind with
      | slider s => simp [Obj.isSlider, hk] at this
      | circle => rfl
      | spinner => rfl
    rw [setTimings, ho, ok_bind, ih (fun x hx => h x (by simp [hx]))]
    rfl

/-- A file without sliders, with a timing point and with a title, artist or creator, is read (any arithmetic). -/
theorem C78_parses (fuel : Nat) (f : File) (hf : f.Good) (hp : f.points ≠ [])
    (hn : ¬ (f.title = [] ∧ f.artist = [] ∧ f.creator = [])) (ho : ∀ o ∈ f.objects, o.kind ≠ .slider) :
    ∃ m : BeatMap S D, parseText fuel f.text = .ok (some m) := by
  have hc : ∀ r ∈ records "HitObjects" (scanLines bufferSize f.text), ¬ CurveRecord r := by
    intro r hr hcr
    rw [lines_text hf, records_objects hf] at hr
    obtain ⟨o, hol, rfl⟩ := List.mem_map.mp hr
    have := hcr.1
    rw [lineKind_written] at this
    exact ho o hol this
  have hmal : ¬ Malformed (scanLines bufferSize f.text) := by
    rw [lines_text hf]
    rintro (⟨r, hr, hb⟩ | ⟨r, hr, hb⟩)
    · rw [records_events hf] at hr
      have hlen : 3 ≤ r.length := by
        unfold File.events at hr
        rcases List.mem_cons.mp hr with rfl | hr
        · exact Nat.le_add_left _ _
        · obtain ⟨b, -, rfl⟩ := List.mem_map.mp hr
          exact Nat.le_refl _
      have := hb.2
      omega
    · rw [records_objects hf] at hr
      obtain ⟨o, hol, rfl⟩ := List.mem_map.mp hr
      rcases hb with hb | hb
      · unfold BadObject at hb
        rw [lineKind_written] at hb
        cases o with
        | circle h => rcases hb with hb | hb <;> simp [ObjectLine.fields, Head.fields, ObjectLine.kind] at hb
        | spinner h e => rcases hb with hb | hb <;> simp [ObjectLine.fields, Head.fields, ObjectLine.kind] at hb
        | slider h c ps r l => exact ho _ hol rfl
      · have := hb.1
        rw [lineKind_written] at this
        exact ho o hol this
  have hnp := mt (C24_iff (S := S) (D := D) fuel f.text hc).mp hmal
  have hc' : ∀ p ∈ sectioned [] (scanLines bufferSize f.text), ¬ SliderLine CurveRecord p := by
    intro p hp h
    obtain ⟨r, h1, h2⟩ := (sliderLine_iff _ _).mpr ⟨p, hp, h⟩
    exact hc r h1 h2
  obtain ⟨r, hr⟩ : ∃ r, parseText (S := S) (D := D) fuel f.text = .ok r := by
    rcases GosuPP.parseLines_plain (S := S) (D := D) (fuel := fuel) (st := ParseState.init) hc' with ⟨st, hst⟩ | hst
    · unfold parseText parseFromLines
      rw [hst, ok_bind]
      unfold finishParse
      simp only
      split
      · exact ⟨_, rfl⟩
      · rw [setTimings_plain]
        · exact ⟨_, rfl⟩
        · intro o hom
          obtain ⟨os, h1, h2, -⟩ := parseLines_objects hst
          rw [lines_text hf, records_objects hf] at h1
          have hd := describes_all hf.objects h1
          have hk : ∀ o ∈ st.beatMap.hitObjects, o.isSlider = false := by
            intro o hom
            rw [h2] at hom
            obtain ⟨l, hl, hd⟩ := forall₂_right hd hom
            have hr := hd.rest
            cases l with
            | circle h => simp [Obj.isSlider, hr.1]
            | spinner h e => simp [Obj.isSlider, hr.1]
            | slider h c ps r len => exact absurd rfl (ho _ hl)
          have e : ∀ l : List (Obj S D), (l.map uncombo).map Obj.isSlider = l.map Obj.isSlider := by
            intro l
            rw [List.map_map]
            rfl
          have hm := List.mem_map_of_mem (f := Obj.isSlider) hom
          rw [← e, comboLoop_frame, e] at hm
          obtain ⟨o', ho', e'⟩ := List.mem_map.mp hm
          rw [← e']
          exact hk o' ((GoSort.stable_perm _ _).mem_iff.mp ho')
    · exfalso
      apply hnp
      unfold parseText parseFromLines
      rw [hst]
      rfl
  cases r with
  | some m => exact ⟨m, hr⟩
  | none =>
    exfalso
    rcases (C23_error_iff fuel f.text none hr).mp rfl with hv | hv
    · rw [lines_text hf] at hv
      simp only [values_metadata hf] at hv
      simp [File.metadata, hf.title.2.2, hf.artist.2.2, hf.creator.2.2] at hv
      exact hn hv
    · rw [lines_text hf, (records_timing hf).1, List.map_eq_nil_iff] at hv
      exact hp hv

end

/-! ## Order -/

theorem int_value_mono {a b : Int} (h : a ≤ b) : Fl.le (Dec.int a).value ((Dec.int b).value : F64) = true := by
  have hv : ∀ n : Int, ((Dec.int n).value : F64) =
      if n < 0 then Fl.neg (Fl.ofRat _ (n.natAbs : ℚ) false) else Fl.ofRat _ (n.natAbs : ℚ) false := by
    intro n
    unfold Dec.value Dec.int
    simp only [fracValue, add_zero, decide_eq_true_eq]
    rfl
  rw [hv, hv]
  split
  · split
    · apply Fl.neg_le_neg
      apply Fl.ofRat_mono
      exact_mod_cast (by omega : b.natAbs ≤ a.natAbs)
    · have h1 : Fl.NonNeg (Fl.ofRat fmt64 (a.natAbs : ℚ) false) := Fl.ofRat_nonneg (by positivity) _
      have h2 : Fl.NonNeg (Fl.ofRat fmt64 (b.natAbs : ℚ) false) := Fl.ofRat_nonneg (by positivity) _
      refine Fl.le_trans (Fl.neg_le_neg h1) (Fl.le_trans ?_ h2)
      decide
  · rw [if_neg (by omega)]
    apply Fl.ofRat_mono
    exact_mod_cast (by omega : a.natAbs ≤ b.natAbs)

theorem int_value_nn (a : Int) : ((Dec.int a).value : F64) ≠ .nan := (Fl.le_nn (int_value_mono (Int.le_refl a))).1

section
variable [GoSort] [GoLibm F64]

/-- In IEEE arithmetic the objects are in order of their times, those at the same time in the order of their lines. When the
lines are in order of their times, the objects of the map are those of the lines one by one. -/
theorem C78_ordered (fuel : Nat) (f : File) (hf : f.Good) (m : BeatMap F32 F64)
    (h : parseText fuel f.text = .ok (some m)) :
    ∃ os : List (Obj F32 F64), List.Forall₂ (LineDescribes fuel) f.objects os ∧
      m.hitObjects.map given = (insertionSort byStart os).map given ∧
      (f.objects.Pairwise (fun a b => a.head.time ≤ b.head.time) → m.hitObjects.map given = os.map given) := by
  obtain ⟨st, hl, objs, hobjs, rfl⟩ := parseText_some h
  obtain ⟨os, h1, h2, -⟩ := parseLines_objects hl
  rw [lines_text hf, records_objects hf] at h1
  have hd := describes_all hf.objects h1
  have hn : ∀ o ∈ os.reduceOption, o.base.startTime ≠ .nan := by
    intro o ho
    obtain ⟨l, -, hd⟩ := forall₂_right hd ho
    rw [hd.time]
    exact int_value_nn _
  have hw : StrictWeak (byStart (S := F32) (D := F64)) os.reduceOption :=
    ⟨fun a _ => Fl.lt_irrefl _, fun a _ b _ c _ h1 h2 => Fl.lt_trans h1 h2,
      fun a ha b hb c hc h1 h2 => by
        have g1 := Fl.le_of_not_lt (hn b hb) (hn a ha) h1
        have g2 := Fl.le_of_not_lt (hn c hc) (hn b hb) h2
        exact Fl.not_lt_of_le (Fl.le_trans g2 g1)⟩
  have he : (Stacking.calculate st.beatMap.fileVersion st.beatMap.difficulty st.beatMap.stackLeniency objs).map given =
      (insertionSort byStart os.reduceOption).map given := by
    rw [given_final hobjs, h2, ← stable_eq_insertionSort hw]
  refine ⟨os.reduceOption, hd, he, fun hs => ?_⟩
  rw [he, insertionSort_of_sorted]
  clear he hw hn h2 h1
  generalize os.reduceOption = l at hd
  generalize f.objects = ls at hd hs
  induction hd with
  | nil => exact .nil
  | cons hab hrest ih =>
    rw [List.pairwise_cons] at hs
    refine List.pairwise_cons.mpr ⟨fun o ho => ?_, ih hs.2⟩
    obtain ⟨l', hl', hd'⟩ := forall₂_right hrest ho
    show Fl.lt _ _ = false
    rw [hab.time, hd'.time]
    exact Fl.not_lt_of_le (int_value_mono (hs.1 l' hl'))

/-- The same for timing points; and a lookup finds the last written point that is not after the time asked for, or the first
one in the order of times. -/
theorem C78_lookup (fuel : Nat) (f : File) (hf : f.Good) (m : BeatMap F32 F64) (h : parseText fuel f.text = .ok (some m)) :
    let ps : List (ControlPoint F64) := f.points.map TimingLine.point
    BaseOf (byTime ps) m.timings.points ∧
    ∀ t : F64, Fl.NN t →
      (∃ p q, m.timings.getPointAt t = .ok q ∧ pick (byTime ps) t = some p ∧ SameButBase p q) ∧
      (∃ p, m.timings.getOriginalPointAt t = .ok p ∧ pick (originals (byTime ps)) t = some p) := by
  obtain ⟨ps, h1, h2, h3⟩ := C77_lookup fuel f.text m h
  rw [lines_text hf, (records_timing hf).2] at h1
  rw [points_written hf.points h1 h2] at h3
  exact h3

end

/-! ## Concrete case -/

def Sample.dec (n : Nat) (fr : List (Fin 10)) : Dec := ⟨false, n, fr⟩

def Sample.head (x y : Nat) (t : Int) (nc : Bool) (skip : Fin 8) : Head := ⟨Sample.dec x [], Sample.dec y [5], t, nc, skip, 2⟩

def Sample.file : File :=
  { version := 14, audio := "a b.mp3".toList, previewTime := -1, mode := 0, stackLeniency := Sample.dec 0 [7]
    title := "Title: x".toList, titleUnicode := [], artist := "a".toList, artistUnicode := [], creator := [], source := []
    tags := "t1 t2".toList, mapID := 12, setID := -1
    hp := Sample.dec 6 [], cs := Sample.dec 4 [2], od := Sample.dec 11 [], ar := Sample.dec 9 [3]
    sliderMultiplier := Sample.dec 1 [8], tickRate := Sample.dec 1 [], background := "b g.jpg".toList
    breaks := [(Sample.dec 500 [], Sample.dec 900 [])]
    points := [⟨0, Sample.dec 333 [3, 3], 4, 2, 1, 60, false, false, false⟩, ⟨-50, ⟨true, 50, []⟩, 4, 2, 1, 5, true, true, true⟩]
    objects := [.circle (Sample.head 100 50 1000 true 3), .slider (Sample.head 10 20 400 false 0) 'L'
      [(Sample.dec 50 [], Sample.dec 20 [5])] 2 (Sample.dec 40 []), .spinner (Sample.head 256 192 2000 false 0) 3000] }

theorem Sample.file_good : Sample.file.Good := by
  constructor
  case points =>
    intro p hp
    simp only [Sample.file, List.mem_cons, List.not_mem_nil, or_false] at hp
    rcases hp with rfl | rfl <;> (unfold File.GoodPoint File.Int64; decide)
  case objects =>
    intro o ho
    simp only [Sample.file, List.mem_cons, List.not_mem_nil, or_false] at ho
    rcases ho with rfl | rfl | rfl <;> (unfold File.GoodObject File.Int64; decide)
  case short => decide +kernel
  case version | previewTime | mode | mapID | setID => unfold File.Int64; decide
  case background => decide
  all_goals unfold File.Word; decide +kernel

example : Sample.observe Sample.file.text (fun m => (m.title, m.mapID, m.bg, m.pauses.length)) =
    some ("Title: x".toList, 12, "b g.jpg".toList, 1) := by decide +kernel

example : Sample.observe Sample.file.text (fun m => (m.difficulty.getCS, m.difficulty.getOD, m.timings.tickRate)) =
    some (lit 4.2, lit 10, lit 1) := by decide +kernel

example : Sample.observe Sample.file.text (fun m => m.timings.points.map (fun p => (p.time, p.beatLength, p.beatLengthBase))) =
    some [(lit (-50), lit (-50), lit (-50)), (lit 0, lit 333.33, lit 333.33)] := by decide +kernel

example : Sample.observe Sample.file.text (fun m => m.hitObjects.map (fun o => (o.base.startTime, o.isSlider, o.isSpinner))) =
    some [(lit 400, true, false), (lit 1000, false, false), (lit 2000, false, true)] := by decide +kernel

/-- The same without its slider. -/
def Sample.plain : File := { Sample.file with objects := [.circle (Sample.head 100 50 1000 true 3), .spinner (Sample.head 256 192 2000 false 0) 3000] }

theorem Sample.plain_good : Sample.plain.Good := by
  obtain ⟨h1, h2, h3, h4, h5, h6, h7, h8, h9, h10, h11, h12, h13, h14, h15, -, -⟩ := Sample.file_good
  refine ⟨h1, h2, h3, h4, h5, h6, h7, h8, h9, h10, h11, h12, h13, h14, h15, ?_, by decide +kernel⟩
  intro o ho
  simp only [Sample.plain, List.mem_cons, List.not_mem_nil, or_false] at ho
  rcases ho with rfl | rfl <;> (unfold File.GoodObject File.Int64; decide)

example [GoSort] [GoLibm F64] : ∃ m : BeatMap F32 F64, parseText 0 Sample.plain.text = .ok (some m) :=
  C78_parses 0 Sample.plain Sample.plain_good (by simp [Sample.plain, Sample.file]) (by simp [Sample.plain, Sample.file])
    (by decide)

end GosuPP.Props
