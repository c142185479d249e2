import Verif.Lemmas.ParserFrame

/-! The parser treats every section on its own. -/

namespace GosuPP
open Go
variable {S D : Type} [GoFloat S] [GoFloat D] [GoConv S D]

private theorem okb {ε α β : Type} (a : α) (f : α → Except ε β) : (Except.ok a >>= f) = f a := rfl

/-- The sections that the parser reads. -/
inductive Sec
  | general | metadata | difficulty | events | timing | hit

namespace Sec

def name : Sec → Str
  | general => "General".toList
  | metadata => "Metadata".toList
  | difficulty => "Difficulty".toList
  | events => "Events".toList
  | timing => "TimingPoints".toList
  | hit => "HitObjects".toList

theorem name_known (i : Sec) : i.name ∈ Spec.knownSections := by
  cases i <;> decide

omit [GoFloat S] [GoConv S D] in
/-- The part of a map that belongs to a section. -/
def part (b : BeatMap S D) : Sec → BeatMap S D
  | general => { (BeatMap.new : BeatMap S D) with
      mode := b.mode, stackLeniency := b.stackLeniency, audio := b.audio, previewTime := b.previewTime }
  | metadata => { (BeatMap.new : BeatMap S D) with
      title := b.title, titleUnicode := b.titleUnicode, artist := b.artist, artistUnicode := b.artistUnicode
      creator := b.creator, version := b.version, source := b.source, tags := b.tags, mapID := b.mapID, setID := b.setID }
  | difficulty => { (BeatMap.new : BeatMap S D) with
      sliderMultiplier := b.sliderMultiplier, difficulty := b.difficulty, arSpecified := b.arSpecified
      timings := { sliderMult := b.timings.sliderMult, tickRate := b.timings.tickRate, points := [], originalPoints := [] } }
  | events => { (BeatMap.new : BeatMap S D) with bg := b.bg, pauses := b.pauses }
  | timing => { (BeatMap.new : BeatMap S D) with
      minBPM := b.minBPM, maxBPM := b.maxBPM
      timings := { sliderMult := lit 0, tickRate := lit 0, points := b.timings.points, originalPoints := b.timings.originalPoints } }
  | hit => { (BeatMap.new : BeatMap S D) with
      circles := b.circles, sliders := b.sliders, spinners := b.spinners, length := b.length, hitObjects := b.hitObjects }

omit [GoFloat S] [GoConv S D] in
/-- The part of the state that belongs to a section. -/
def only (i : Sec) (st : ParseState S D) : ParseState S D :=
  { beatMap := part st.beatMap i, currentSection := [], counter := match i with | timing => st.counter | _ => 0 }

omit [GoFloat S] [GoConv S D] in
theorem only_current (i : Sec) (st : ParseState S D) (s : Str) : only i { st with currentSection := s } = only i st := by
  cases i <;> rfl

omit [GoFloat S] [GoConv S D] in
theorem only_format (i : Sec) (st : ParseState S D) (l : Str) :
    only i { st with beatMap := parseFormat l st.beatMap } = only i st := by
  obtain ⟨v, hv⟩ := parseFormat_frame l st.beatMap
  rw [hv]
  cases i <;> rfl

omit [GoFloat S] [GoConv S D] in
theorem joined {a b : ParseState S D} (h : ∀ i, only i a = only i b) (hf : a.beatMap.fileVersion = b.beatMap.fileVersion) :
    a.beatMap = b.beatMap ∧ a.counter = b.counter := by
  have h1 := h general
  have h2 := h metadata
  have h3 := h difficulty
  have h4 := h events
  have h5 := h timing
  have h6 := h hit
  obtain ⟨⟨v1, v2, v3, v4, v5, v6, v7, v8, v9, v10, v11, v12, v13, v14, v15, v16, v17, v18, v19, v20, v21, v22, v23, v24, ⟨t1, t2, t3, t4⟩, v26, v27, v28⟩, c, n⟩ := a
  obtain ⟨⟨w1, w2, w3, w4, w5, w6, w7, w8, w9, w10, w11, w12, w13, w14, w15, w16, w17, w18, w19, w20, w21, w22, w23, w24, ⟨u1, u2, u3, u4⟩, w26, w27, w28⟩, d, m⟩ := b
  simp only [only, part, BeatMap.new, ParseState.mk.injEq, BeatMap.mk.injEq, Timings.mk.injEq] at h1 h2 h3 h4 h5 h6 hf ⊢
  simp_all

section
variable [GoLibm D]

/-- Other sections leave the part alone. -/
theorem only_other {fuel : Nat} {sec line : Str} {st st' : ParseState S D} (h : parseInSection fuel sec line st = .ok st')
    {i : Sec} (hi : sec ≠ i.name) : only i st' = only i st := by
  cases parseInSection_step h with
  | general k v hs _ e =>
    obtain ⟨_, _, _, _, hf⟩ := parseGeneral_frame k v st.beatMap
    subst e
    rw [hf]
    cases i with
    | general => exact absurd hs hi
    | _ => rfl
  | metadata k v hs _ e =>
    obtain ⟨_, _, _, _, _, _, _, _, _, _, hf⟩ := parseMetadata_frame k v st.beatMap
    subst e
    rw [hf]
    cases i with
    | metadata => exact absurd hs hi
    | _ => rfl
  | difficulty k v hs _ e =>
    obtain ⟨_, _, _, _, _, hf⟩ := parseDifficulty_frame k v st.beatMap
    subst e
    rw [hf]
    cases i with
    | difficulty => exact absurd hs hi
    | _ => rfl
  | events arr b hs _ hb e =>
    obtain ⟨_, _, rfl⟩ := parseEvents_ok hb
    subst e
    cases i with
    | events => exact absurd hs hi
    | _ => rfl
  | timing arr b hs _ hb e =>
    obtain ⟨_, s, _, _, _, _, _, _, rfl⟩ := parsePoint_ok hb
    obtain ⟨_, _, hu⟩ := updateBPM_frame st.beatMap (parseFloat s : D)
    subst e
    rw [hu]
    cases i with
    | timing => exact absurd hs hi
    | _ => rfl
  | hit arr b hs _ hb e =>
    obtain ⟨_, _, _, _, _, rfl⟩ := parseHitObjectLine_frame hb
    subst e
    cases i with
    | hit => exact absurd hs hi
    | _ => rfl
  | inert e => rw [e]

/-- No section line changes the format version or the current section. -/
theorem step_version {fuel : Nat} {sec line : Str} {st st' : ParseState S D} (h : parseInSection fuel sec line st = .ok st') :
    st'.beatMap.fileVersion = st.beatMap.fileVersion ∧ st'.currentSection = st.currentSection := by
  cases parseInSection_step h with
  | general k v hs _ e =>
    obtain ⟨_, _, _, _, hf⟩ := parseGeneral_frame k v st.beatMap
    subst e
    rw [hf]; exact ⟨rfl, rfl⟩
  | metadata k v hs _ e =>
    obtain ⟨_, _, _, _, _, _, _, _, _, _, hf⟩ := parseMetadata_frame k v st.beatMap
    subst e
    rw [hf]; exact ⟨rfl, rfl⟩
  | difficulty k v hs _ e =>
    obtain ⟨_, _, _, _, _, hf⟩ := parseDifficulty_frame k v st.beatMap
    subst e
    rw [hf]; exact ⟨rfl, rfl⟩
  | events arr b hs _ hb e =>
    obtain ⟨_, _, rfl⟩ := parseEvents_ok hb
    subst e; exact ⟨rfl, rfl⟩
  | timing arr b hs _ hb e =>
    obtain ⟨_, s, _, _, _, _, _, _, rfl⟩ := parsePoint_ok hb
    obtain ⟨_, _, hu⟩ := updateBPM_frame st.beatMap (parseFloat s : D)
    subst e
    rw [hu]; exact ⟨rfl, rfl⟩
  | hit arr b hs _ hb e =>
    obtain ⟨_, _, _, _, _, rfl⟩ := parseHitObjectLine_frame hb
    subst e; exact ⟨rfl, rfl⟩
  | inert e => rw [e]; exact ⟨rfl, rfl⟩

omit [GoFloat S] [GoConv S D] [GoLibm D] in
private theorem general_part (k v : Str) (b : BeatMap S D) : part (parseGeneral k v b) general = parseGeneral k v (part b general) := by
  unfold parseGeneral
  by_cases h : k = "Mode".toList
  · rw [if_pos h, if_pos h]; rfl
  rw [if_neg h, if_neg h]; clear h
  by_cases h : k = "StackLeniency".toList
  · rw [if_pos h, if_pos h]; rfl
  rw [if_neg h, if_neg h]; clear h
  by_cases h : k = "AudioFilename".toList
  · rw [if_pos h, if_pos h]; rfl
  rw [if_neg h, if_neg h]; clear h
  by_cases h : k = "PreviewTime".toList
  · rw [if_pos h, if_pos h]; rfl
  rw [if_neg h, if_neg h]

omit [GoFloat S] [GoConv S D] [GoLibm D] in
private theorem metadata_part (k v : Str) (b : BeatMap S D) : part (parseMetadata k v b) metadata = parseMetadata k v (part b metadata) := by
  unfold parseMetadata
  by_cases h : k = "Title".toList
  · rw [if_pos h, if_pos h]; rfl
  rw [if_neg h, if_neg h]; clear h
  by_cases h : k = "TitleUnicode".toList
  · rw [if_pos h, if_pos h]; rfl
  rw [if_neg h, if_neg h]; clear h
  by_cases h : k = "Artist".toList
  · rw [if_pos h, if_pos h]; rfl
  rw [if_neg h, if_neg h]; clear h
  by_cases h : k = "ArtistUnicode".toList
  · rw [if_pos h, if_pos h]; rfl
  rw [if_neg h, if_neg h]; clear h
  by_cases h : k = "Creator".toList
  · rw [if_pos h, if_pos h]; rfl
  rw [if_neg h, if_neg h]; clear h
  by_cases h : k = "FileVersion".toList
  · rw [if_pos h, if_pos h]; rfl
  rw [if_neg h, if_neg h]; clear h
  by_cases h : k = "Source".toList
  · rw [if_pos h, if_pos h]; rfl
  rw [if_neg h, if_neg h]; clear h
  by_cases h : k = "Tags".toList
  · rw [if_pos h, if_pos h]; rfl
  rw [if_neg h, if_neg h]; clear h
  by_cases h : k = "BeatmapID".toList
  · rw [if_pos h, if_pos h]; rfl
  rw [if_neg h, if_neg h]; clear h
  by_cases h : k = "BeatmapSetID".toList
  · rw [if_pos h, if_pos h]; rfl
  rw [if_neg h, if_neg h]

omit [GoFloat S] [GoConv S D] [GoLibm D] in
private theorem difficulty_part (k v : Str) (b : BeatMap S D) : part (parseDifficulty k v b) difficulty = parseDifficulty k v (part b difficulty) := by
  unfold parseDifficulty
  simp only
  by_cases h : k = "SliderMultiplier".toList
  · rw [if_pos h, if_pos h]; rfl
  rw [if_neg h, if_neg h]; clear h
  by_cases h : k = "ApproachRate".toList
  · rw [if_pos h, if_pos h]; rfl
  rw [if_neg h, if_neg h]; clear h
  by_cases h : k = "CircleSize".toList
  · rw [if_pos h, if_pos h]; rfl
  rw [if_neg h, if_neg h]; clear h
  by_cases h : k = "SliderTickRate".toList
  · rw [if_pos h, if_pos h]; rfl
  rw [if_neg h, if_neg h]; clear h
  by_cases h : k = "HPDrainRate".toList
  · rw [if_pos h, if_pos h]; rfl
  rw [if_neg h, if_neg h]; clear h
  by_cases h : k = "OverallDifficulty".toList
  · rw [if_pos h, if_pos h]
    have e : (part b difficulty).arSpecified = b.arSpecified := rfl
    rw [e]
    by_cases ha : (!b.arSpecified) = true
    · rw [if_pos ha, if_pos ha]; rfl
    · rw [if_neg ha, if_neg ha]; rfl
  rw [if_neg h, if_neg h]

omit [GoFloat S] [GoConv S D] [GoLibm D] in
private theorem events_part (arr : List Str) (b : BeatMap S D) :
    (parseEvents arr b).map (part · events) = parseEvents arr (part b events) := by
  unfold parseEvents
  cases index arr 0 with
  | error e => rfl
  | ok key =>
    show Except.map _ (if _ then _ else _) = (if _ then _ else _)
    split
    · cases index arr 2 <;> rfl
    · split
      · cases (newPause arr : Result (Pause D)) <;> rfl
      · rfl

omit [GoFloat S] [GoConv S D] [GoLibm D] in
private theorem timing_part (line : Str) (b : BeatMap S D) :
    (b.parsePoint line).map (part · timing) = (part b timing).parsePoint line := by
  unfold BeatMap.parsePoint
  simp only
  cases index (split ',' line) 0 with
  | error e => rfl
  | ok t =>
    cases index (split ',' line) 1 with
    | error e => rfl
    | ok s =>
      simp only [okb]
      show Except.ok _ = Except.ok _
      congr 1
      unfold BeatMap.updateBPM Timings.addPoint
      simp only
      split <;> rfl

private theorem hit_part (fuel : Nat) (arr : List Str) (b : BeatMap S D) :
    (parseHitObjectLine fuel arr b).map (part · hit) = parseHitObjectLine fuel arr (part b hit) := by
  have hcount : countObject arr (part b hit) = (countObject arr b).map fun p => (part p.1 hit, p.2) := by
    unfold countObject
    cases index arr 3 with
    | error e => rfl
    | ok ty =>
      simp only [okb]
      split
      · cases index arr 2 <;> rfl
      split
      · cases index arr 5 <;> rfl
      split
      · cases index arr 2 <;> rfl
      split
      · cases index arr 5 with
        | error e => rfl
        | ok f => 
          simp only [okb]
          cases index (split ':' f) 0 <;> rfl
      · rfl
  unfold parseHitObjectLine
  rw [hcount]
  cases countObject arr b with
  | error e => rfl
  | ok p =>
    obtain ⟨b1, t⟩ := p
    show Except.map _ (parseHitObjects _ _ _) = parseHitObjects _ _ _
    unfold parseHitObjects
    cases (createObject fuel arr : Result (Option (Obj S D))) with
    | error e => rfl
    | ok o => cases o <;> rfl

/-- A section depends on its own part only. -/
theorem only_own (fuel : Nat) (i : Sec) (line : Str) (st : ParseState S D) :
    (parseInSection fuel i.name line st).map (only i) = parseInSection fuel i.name line (only i st) := by
  unfold parseInSection
  simp only [tokenize2_eq, tokenize_eq]
  cases i with
  | general =>
    rw [if_pos (show general.name = "General".toList from rfl),
      if_pos (show general.name = "General".toList from rfl)]
    cases Spec.keyValue line with
    | none => rfl
    | some kv =>
      show Except.ok _ = Except.ok _
      congr 1
      unfold only
      simp only [general_part]
  | metadata =>
    rw [if_neg (show ¬ metadata.name = "General".toList by decide), if_pos (show metadata.name = "Metadata".toList from rfl),
      if_neg (show ¬ metadata.name = "General".toList by decide), if_pos (show metadata.name = "Metadata".toList from rfl)]
    cases Spec.keyValue line with
    | none => rfl
    | some kv =>
      show Except.ok _ = Except.ok _
      congr 1
      unfold only
      simp only [metadata_part]
  | difficulty =>
    rw [if_neg (show ¬ difficulty.name = "General".toList by decide), if_neg (show ¬ difficulty.name = "Metadata".toList by decide), if_pos (show difficulty.name = "Difficulty".toList from rfl),
      if_neg (show ¬ difficulty.name = "General".toList by decide), if_neg (show ¬ difficulty.name = "Metadata".toList by decide), if_pos (show difficulty.name = "Difficulty".toList from rfl)]
    cases Spec.keyValue line with
    | none => rfl
    | some kv =>
      show Except.ok _ = Except.ok _
      congr 1
      unfold only
      simp only [difficulty_part]
  | events =>
    rw [if_neg (show ¬ events.name = "General".toList by decide), if_neg (show ¬ events.name = "Metadata".toList by decide), if_neg (show ¬ events.name = "Difficulty".toList by decide), if_pos (show events.name = "Events".toList from rfl),
      if_neg (show ¬ events.name = "General".toList by decide), if_neg (show ¬ events.name = "Metadata".toList by decide), if_neg (show ¬ events.name = "Difficulty".toList by decide), if_pos (show events.name = "Events".toList from rfl)]
    cases Spec.fields line with
    | none => rfl
    | some arr =>
      simp only
      split
      · have := events_part arr st.beatMap
        show Except.map _ (parseEvents arr st.beatMap >>= _) = (parseEvents arr (part st.beatMap events) >>= _)
        rw [← this]
        cases parseEvents arr st.beatMap <;> rfl
      · rfl
  | timing =>
    rw [if_neg (show ¬ timing.name = "General".toList by decide), if_neg (show ¬ timing.name = "Metadata".toList by decide), if_neg (show ¬ timing.name = "Difficulty".toList by decide), if_neg (show ¬ timing.name = "Events".toList by decide), if_pos (show timing.name = "TimingPoints".toList from rfl),
      if_neg (show ¬ timing.name = "General".toList by decide), if_neg (show ¬ timing.name = "Metadata".toList by decide), if_neg (show ¬ timing.name = "Difficulty".toList by decide), if_neg (show ¬ timing.name = "Events".toList by decide), if_pos (show timing.name = "TimingPoints".toList from rfl)]
    cases Spec.fields line with
    | none => rfl
    | some arr =>
      simp only
      split
      · have := timing_part line st.beatMap
        show Except.map _ (st.beatMap.parsePoint line >>= _) = ((part st.beatMap timing).parsePoint line >>= _)
        rw [← this]
        cases st.beatMap.parsePoint line <;> rfl
      · rfl
  | hit =>
    rw [if_neg (show ¬ hit.name = "General".toList by decide), if_neg (show ¬ hit.name = "Metadata".toList by decide), if_neg (show ¬ hit.name = "Difficulty".toList by decide), if_neg (show ¬ hit.name = "Events".toList by decide), if_neg (show ¬ hit.name = "TimingPoints".toList by decide), if_pos (show hit.name = "HitObjects".toList from rfl),
      if_neg (show ¬ hit.name = "General".toList by decide), if_neg (show ¬ hit.name = "Metadata".toList by decide), if_neg (show ¬ hit.name = "Difficulty".toList by decide), if_neg (show ¬ hit.name = "Events".toList by decide), if_neg (show ¬ hit.name = "TimingPoints".toList by decide), if_pos (show hit.name = "HitObjects".toList from rfl)]
    cases Spec.fields line with
    | none => rfl
    | some arr =>
      simp only
      have := hit_part fuel arr st.beatMap
      show Except.map _ (parseHitObjectLine fuel arr st.beatMap >>= _) = (parseHitObjectLine fuel arr (part st.beatMap hit) >>= _)
      rw [← this]
      cases parseHitObjectLine fuel arr st.beatMap <;> rfl

/-- The lines of one section on their own. -/
def run (fuel : Nat) (i : Sec) : List Str → ParseState S D → Result (ParseState S D)
  | [], st => .ok st
  | l :: ls, st => do run fuel i ls (← parseInSection fuel i.name l st)

/-- The lines of a section. -/
def lines (i : Sec) (cur : Str) (ls : List Str) : List Str :=
  ((Spec.sectioned cur ls).filter (·.1 == i.name)).map (·.2)

/-- Unknown sections are skipped. -/
theorem unknown {fuel : Nat} {sec line : Str} (st : ParseState S D) (h : ∀ i : Sec, sec ≠ i.name) :
    parseInSection fuel sec line st = .ok st := by
  unfold parseInSection
  simp only
  rw [if_neg (show ¬ sec = "General".toList from h general),
    if_neg (show ¬ sec = "Metadata".toList from h metadata),
    if_neg (show ¬ sec = "Difficulty".toList from h difficulty),
    if_neg (show ¬ sec = "Events".toList from h events),
    if_neg (show ¬ sec = "TimingPoints".toList from h timing),
    if_neg (show ¬ sec = "HitObjects".toList from h hit)]
  rfl

/-- A file is read if and only if all its sections can be read, and its parts are what they give. -/
theorem parts (fuel : Nat) (ls : List Str) (st : ParseState S D) :
    (∀ st', parseLines fuel ls st = .ok st' → ∀ i, run fuel i (lines i st.currentSection ls) (only i st) = .ok (only i st')) ∧
    ((∀ i, ∃ r, run fuel i (lines i st.currentSection ls) (only i st) = .ok r) → ∃ st', parseLines fuel ls st = .ok st') := by
  induction ls generalizing st with
  | nil => exact ⟨fun st' h i => by cases h; rfl, fun _ => ⟨st, rfl⟩⟩
  | cons l ls ih =>
    rw [parseLines, parseLine_eq]
    cases hh : Spec.header l with
    | some s =>
      have e : ∀ i, lines i st.currentSection (l :: ls) = lines i s ls := by
        intro i
        unfold lines
        rw [Spec.sectioned, hh]
      have := ih { st with beatMap := parseFormat l st.beatMap, currentSection := s }
      simp only [e]
      have e2 : ∀ i, only i { st with beatMap := parseFormat l st.beatMap, currentSection := s } = only i st := by
        intro i
        rw [← only_format i st l]
        exact only_current i { st with beatMap := parseFormat l st.beatMap } s
      simp only [e2] at this
      exact this
    | none =>
      have e : ∀ i, lines i st.currentSection (l :: ls) =
          if st.currentSection = i.name then l :: lines i st.currentSection ls else lines i st.currentSection ls := by
        intro i
        unfold lines
        rw [Spec.sectioned, hh]
        simp only [List.filter_cons, beq_iff_eq]
        split <;> simp
      have e2 := fun i => only_format i st l
      generalize hst : ({ st with beatMap := parseFormat l st.beatMap } : ParseState S D) = st0 at e2
      have hc : st0.currentSection = st.currentSection := by rw [← hst]
      simp only
      constructor
      · intro st' h i
        obtain ⟨st1, h1, h⟩ := bind_ok h
        have h2 := (ih st1).1 st' h i
        rw [(step_version h1).2, hc] at h2
        rw [e]
        split
        · rename_i hi
          rw [run, ← e2]
          have := only_own fuel i l st0
          rw [← hi, h1, hi] at this
          rw [← this]
          exact h2
        · rename_i hi
          rw [← e2, ← only_other h1 hi]
          exact h2
      · intro hall
        have hrun : ∃ st1, parseInSection fuel st.currentSection l st0 = .ok st1 := by
          by_cases hk : ∃ i : Sec, st.currentSection = i.name
          · obtain ⟨i, hi⟩ := hk
            obtain ⟨r, hr⟩ := hall i
            rw [e, if_pos hi, run, ← e2] at hr
            obtain ⟨st1, h1, -⟩ := bind_ok hr
            rw [← only_own] at h1
            rw [hi]
            cases hp : parseInSection fuel i.name l st0 with
            | error x => rw [hp] at h1; cases h1
            | ok y => exact ⟨y, rfl⟩
          · push Not at hk
            exact ⟨st0, unknown st0 hk⟩
        obtain ⟨st1, h1⟩ := hrun
        rw [h1]
        refine (ih st1).2 ?_
        intro i
        obtain ⟨r, hr⟩ := hall i
        rw [(step_version h1).2, hc]
        rw [e] at hr
        split at hr
        · rename_i hi
          rw [run, ← e2, ← only_own, ← hi, h1] at hr
          exact ⟨r, hr⟩
        · rename_i hi
          rw [← e2, ← only_other h1 hi] at hr
          exact ⟨r, hr⟩

/-- The format version is that of the last format line. -/
theorem version {fuel : Nat} {ls : List Str} {st st' : ParseState S D} (h : parseLines fuel ls st = .ok st') :
    st'.beatMap.fileVersion =
      (((ls.filter Spec.isFormatLine).getLast?).map fun l => parseInt (l.drop formatPrefix.length)).getD st.beatMap.fileVersion := by
  induction ls generalizing st with
  | nil => cases h; rfl
  | cons l ls ih =>
    have key : ∃ st1 : ParseState S D, parseLines fuel ls st1 = .ok st' ∧
        st1.beatMap.fileVersion = (parseFormat l st.beatMap).fileVersion := by
      rw [parseLines, parseLine_eq] at h
      cases hh : Spec.header l with
      | some s => rw [hh] at h; exact ⟨_, h, rfl⟩
      | none =>
        rw [hh] at h
        obtain ⟨st1, h1, h⟩ := bind_ok h
        exact ⟨st1, h, (step_version h1).1⟩
    obtain ⟨st1, h1, hv⟩ := key
    rw [ih h1, hv]
    have hf : (parseFormat l st.beatMap).fileVersion =
        if Spec.isFormatLine l = true then parseInt (l.drop formatPrefix.length) else st.beatMap.fileVersion := by
      unfold parseFormat
      have : hasPrefix l formatPrefix = Spec.isFormatLine l := rfl
      rw [this]
      split <;> rfl
    rw [hf, List.filter_cons]
    split
    · cases hg : (ls.filter Spec.isFormatLine).getLast? with
      | none => 
        rw [List.getLast?_eq_none_iff] at hg
        rw [hg]; rfl
      | some x =>
        rw [List.getLast?_cons, hg]; rfl
    · rfl

end

end Sec

end GosuPP
