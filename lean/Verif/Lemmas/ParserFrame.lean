import Verif.Lemmas.Parser

/-! What the individual parser steps can change. -/

namespace GosuPP
open Go
variable {S D : Type} [GoFloat S] [GoFloat D] [GoConv S D]

theorem bind_ok {ε α β : Type} {x : Except ε α} {f : α → Except ε β} {b : β}
    (h : (x >>= f) = .ok b) : ∃ a, x = .ok a ∧ f a = .ok b := by
  cases x with
  | error e => cases h
  | ok a => exact ⟨a, rfl, h⟩

omit [GoFloat S] [GoConv S D] in
theorem updateBPM_frame (b : BeatMap S D) (bpm : D) :
    ∃ lo hi, b.updateBPM bpm = { b with minBPM := lo, maxBPM := hi } := by
  unfold BeatMap.updateBPM
  split
  · exact ⟨_, _, rfl⟩
  · exact ⟨b.minBPM, b.maxBPM, rfl⟩

omit [GoFloat S] [GoConv S D] in
/-- `ParsePoint` updates the tempo range and appends one point. -/
theorem parsePoint_ok {b b' : BeatMap S D} {line : Str} (h : b.parsePoint line = .ok b') :
    ∃ t s p, (split ',' line)[0]? = some t ∧ (split ',' line)[1]? = some s ∧
      p.time = ofInt (parseInt t) ∧ p.beatLength = parseFloat s ∧
      p.beatLengthBase = parseFloat s ∧
      b' = { b.updateBPM (parseFloat s) with
        timings := { b.timings with points := b.timings.points ++ [p] } } := by
  unfold BeatMap.parsePoint at h
  simp only at h
  obtain ⟨t, ht, h⟩ := bind_ok h
  obtain ⟨s, hs, h⟩ := bind_ok h
  have ht' : (split ',' line)[0]? = some t := by
    unfold index at ht
    cases hc : (split ',' line)[0]? <;> simp_all
  have hs' : (split ',' line)[1]? = some s := by
    unfold index at hs
    cases hc : (split ',' line)[1]? <;> simp_all
  obtain ⟨lo, hi, hu⟩ := updateBPM_frame b (parseFloat s : D)
  cases h
  refine ⟨t, s, ?p, ht', hs', ?h1, ?h2, ?h3, ?eq⟩
  case eq =>
    rw [hu]
    simp only [Timings.addPoint]
    rfl
  all_goals rfl

omit [GoFloat S] [GoConv S D] in
theorem parseEvents_ok {arr : List Str} {b b' : BeatMap S D} (h : parseEvents arr b = .ok b') :
    ∃ bg pauses, b' = { b with bg := bg, pauses := pauses } := by
  unfold parseEvents at h
  obtain ⟨key, -, h⟩ := bind_ok h
  split at h
  · obtain ⟨bg, -, h⟩ := bind_ok h
    cases h; exact ⟨_, b.pauses, rfl⟩
  · split at h
    · obtain ⟨p, -, h⟩ := bind_ok h
      cases h; exact ⟨b.bg, _, rfl⟩
    · cases h; exact ⟨b.bg, b.pauses, rfl⟩

/-- What a record says about the object on it: the counters to raise and the time. -/
inductive Counted (arr : List Str) (b : BeatMap S D) : BeatMap S D → Str → Prop
  | circle (ty t : Str) : arr[3]? = some ty → typeCircle (parseInt ty) = true →
      arr[2]? = some t → Counted arr b { b with circles := b.circles + 1 } t
  | spinner (ty t : Str) : arr[3]? = some ty → typeCircle (parseInt ty) = false →
      typeSpinner (parseInt ty) = true → arr[5]? = some t →
      Counted arr b { b with spinners := b.spinners + 1 } t
  | slider (ty t : Str) : arr[3]? = some ty → typeCircle (parseInt ty) = false →
      typeSpinner (parseInt ty) = false → typeSlider (parseInt ty) = true → arr[2]? = some t →
      Counted arr b { b with sliders := b.sliders + 1 } t
  | hold (ty f t : Str) : arr[3]? = some ty → typeCircle (parseInt ty) = false →
      typeSpinner (parseInt ty) = false → typeSlider (parseInt ty) = false →
      typeLongNote (parseInt ty) = true → arr[5]? = some f → (split ':' f)[0]? = some t →
      Counted arr b { b with sliders := b.sliders + 1 } t
  | other (ty : Str) : arr[3]? = some ty → typeCircle (parseInt ty) = false →
      typeSpinner (parseInt ty) = false → typeSlider (parseInt ty) = false →
      typeLongNote (parseInt ty) = false → Counted arr b b []

theorem index_ok {α : Type} {l : List α} {n : Nat} {x : α} (h : index l (n : Int) = .ok x) :
    l[n]? = some x := by
  unfold index at h
  rw [if_neg (by omega), Int.toNat_natCast] at h
  cases hc : l[n]? with
  | none => rw [hc] at h; cases h
  | some y => rw [hc] at h; cases h; rfl

theorem index_of {α : Type} {l : List α} {n : Nat} {x : α} (h : l[n]? = some x) :
    index l (n : Int) = .ok x := by
  unfold index
  rw [if_neg (by omega), Int.toNat_natCast, h]

omit [GoFloat S] [GoFloat D] [GoConv S D] in
theorem countObject_ok {arr : List Str} {b b' : BeatMap S D} {t : Str}
    (h : countObject arr b = .ok (b', t)) : Counted arr b b' t := by
  unfold countObject at h
  obtain ⟨ty, hty, h⟩ := bind_ok h
  have hty := index_ok (n := 3) hty
  simp only at h
  split at h
  · rename_i h1
    obtain ⟨x, hx, h⟩ := bind_ok h
    cases h; exact .circle ty _ hty h1 (index_ok (n := 2) hx)
  rename_i h1
  split at h
  · rename_i h2
    obtain ⟨x, hx, h⟩ := bind_ok h
    cases h; exact .spinner ty _ hty (by simpa using h1) h2 (index_ok (n := 5) hx)
  rename_i h2
  split at h
  · rename_i h3
    obtain ⟨x, hx, h⟩ := bind_ok h
    cases h; exact .slider ty _ hty (by simpa using h1) (by simpa using h2) h3 (index_ok (n := 2) hx)
  rename_i h3
  split at h
  · rename_i h4
    obtain ⟨x, hx, h⟩ := bind_ok h
    obtain ⟨y, hy, h⟩ := bind_ok h
    cases h
    exact .hold ty x _ hty (by simpa using h1) (by simpa using h2) (by simpa using h3) h4
      (index_ok (n := 5) hx) (index_ok (n := 0) hy)
  rename_i h4
  cases h
  exact .other ty hty (by simpa using h1) (by simpa using h2) (by simpa using h3) (by simpa using h4)

theorem parseHitObjectLine_ok [GoLibm D] {fuel : Nat} {arr : List Str} {b b' : BeatMap S D}
    (h : parseHitObjectLine fuel arr b = .ok b') :
    ∃ b1 t o, Counted arr b b1 t ∧ createObject fuel arr = .ok o ∧
      b' = { b1 with length := maxI b.length (parseInt t), hitObjects := b.hitObjects ++ o.toList } := by
  unfold parseHitObjectLine at h
  obtain ⟨⟨b1, t⟩, h1, h⟩ := bind_ok h
  have hc := countObject_ok h1
  unfold parseHitObjects at h
  obtain ⟨o, ho, h⟩ := bind_ok h
  have hl : b1.length = b.length ∧ b1.hitObjects = b.hitObjects := by cases hc <;> exact ⟨rfl, rfl⟩
  refine ⟨b1, t, o, hc, ho, ?_⟩
  cases o with
  | none => cases h; simp [← hl.1, ← hl.2]
  | some o => cases h; simp [← hl.1, ← hl.2]

theorem parseHitObjectLine_frame [GoLibm D] {fuel : Nat} {arr : List Str} {b b' : BeatMap S D}
    (h : parseHitObjectLine fuel arr b = .ok b') :
    ∃ c sl sp len hs, b' = { b with circles := c, sliders := sl, spinners := sp, length := len, hitObjects := hs } := by
  obtain ⟨b1, t, o, hc, -, rfl⟩ := parseHitObjectLine_ok h
  cases hc <;> exact ⟨_, _, _, _, _, rfl⟩

omit [GoFloat S] [GoConv S D] in
theorem parseGeneral_frame (k v : Str) (b : BeatMap S D) :
    ∃ mode sl a p, parseGeneral k v b =
      { b with mode := mode, stackLeniency := sl, audio := a, previewTime := p } := by
  unfold parseGeneral
  split
  · exact ⟨_, b.stackLeniency, b.audio, b.previewTime, rfl⟩
  split
  · exact ⟨b.mode, _, b.audio, b.previewTime, rfl⟩
  split
  · exact ⟨b.mode, b.stackLeniency, _, b.previewTime, rfl⟩
  split
  · exact ⟨b.mode, b.stackLeniency, b.audio, _, rfl⟩
  exact ⟨b.mode, b.stackLeniency, b.audio, b.previewTime, rfl⟩

omit [GoFloat S] [GoConv S D] [GoFloat D] in
theorem parseFormat_frame (line : Str) (b : BeatMap S D) :
    ∃ v, parseFormat line b = { b with fileVersion := v } := by
  unfold parseFormat
  split
  · exact ⟨_, rfl⟩
  · exact ⟨b.fileVersion, rfl⟩

omit [GoFloat S] [GoConv S D] [GoFloat D] in
/-- The fields that metadata lines leave alone, by one general principle: they only change
strings and ids. -/
theorem parseMetadata_frame (k v : Str) (b : BeatMap S D) :
    ∃ ti tu ar au cr ve so ta mi si, parseMetadata k v b =
      { b with title := ti, titleUnicode := tu, artist := ar, artistUnicode := au, creator := cr, version := ve, source := so, tags := ta, mapID := mi, setID := si } := by
  unfold parseMetadata
  by_cases h : k = "Title".toList
  · rw [if_pos h]; exact ⟨_, _, _, _, _, _, _, _, _, _, rfl⟩
  rw [if_neg h]; clear h
  by_cases h : k = "TitleUnicode".toList
  · rw [if_pos h]; exact ⟨_, _, _, _, _, _, _, _, _, _, rfl⟩
  rw [if_neg h]; clear h
  by_cases h : k = "Artist".toList
  · rw [if_pos h]; exact ⟨_, _, _, _, _, _, _, _, _, _, rfl⟩
  rw [if_neg h]; clear h
  by_cases h : k = "ArtistUnicode".toList
  · rw [if_pos h]; exact ⟨_, _, _, _, _, _, _, _, _, _, rfl⟩
  rw [if_neg h]; clear h
  by_cases h : k = "Creator".toList
  · rw [if_pos h]; exact ⟨_, _, _, _, _, _, _, _, _, _, rfl⟩
  rw [if_neg h]; clear h
  by_cases h : k = "FileVersion".toList
  · rw [if_pos h]; exact ⟨_, _, _, _, _, _, _, _, _, _, rfl⟩
  rw [if_neg h]; clear h
  by_cases h : k = "Source".toList
  · rw [if_pos h]; exact ⟨_, _, _, _, _, _, _, _, _, _, rfl⟩
  rw [if_neg h]; clear h
  by_cases h : k = "Tags".toList
  · rw [if_pos h]; exact ⟨_, _, _, _, _, _, _, _, _, _, rfl⟩
  rw [if_neg h]; clear h
  by_cases h : k = "BeatmapID".toList
  · rw [if_pos h]; exact ⟨_, _, _, _, _, _, _, _, _, _, rfl⟩
  rw [if_neg h]; clear h
  by_cases h : k = "BeatmapSetID".toList
  · rw [if_pos h]; exact ⟨_, _, _, _, _, _, _, _, _, _, rfl⟩
  rw [if_neg h]; clear h
  exact ⟨_, _, _, _, _, _, _, _, _, _, rfl⟩

omit [GoFloat S] [GoConv S D] in
theorem parseDifficulty_frame (k v : Str) (b : BeatMap S D) :
    ∃ sm sm' tr d s, parseDifficulty k v b =
      { b with sliderMultiplier := sm, timings := { b.timings with sliderMult := sm', tickRate := tr }, difficulty := d, arSpecified := s } := by
  unfold parseDifficulty
  simp only
  split
  · exact ⟨_, _, _, _, _, rfl⟩
  split
  · exact ⟨_, _, _, _, _, rfl⟩
  split
  · exact ⟨_, _, _, _, _, rfl⟩
  split
  · exact ⟨_, _, _, _, _, rfl⟩
  split
  · exact ⟨_, _, _, _, _, rfl⟩
  split
  · split
    · exact ⟨_, _, _, _, _, rfl⟩
    · exact ⟨_, _, _, _, _, rfl⟩
  exact ⟨_, _, _, _, _, rfl⟩

end GosuPP
