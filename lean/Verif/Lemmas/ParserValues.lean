import Verif.Lemmas.ParserFrame

/-! Values of single fields after parsing. -/

namespace GosuPP
open Go
variable {S D : Type} [GoFloat S] [GoFloat D] [GoConv S D]

theorem valueFor_other {sec key : String} {s line : Str} (h : s ≠ sec.toList) :
    Spec.valueFor sec key (s, line) = none := by
  simp [Spec.valueFor, h]

theorem valueFor_none {sec key : String} {s line : Str} (h : Spec.keyValue line = none) :
    Spec.valueFor sec key (s, line) = none := by
  simp only [Spec.valueFor, h]; split <;> rfl

theorem valueFor_kv {sec key : String} {line k v : Str} (h : Spec.keyValue line = some (k, v)) :
    Spec.valueFor sec key (sec.toList, line) = if k = key.toList then some v else none := by
  simp only [Spec.valueFor, h, if_true]

theorem recordFor_other {sec : String} {s line : Str} (h : s ≠ sec.toList) :
    Spec.recordFor sec (s, line) = none := if_neg h

theorem recordFor_eq {sec : String} {s line : Str} (h : s = sec.toList) :
    Spec.recordFor sec (s, line) = Spec.fields line := if_pos h

theorem recordFor_none {sec : String} {s line : Str} (h : Spec.fields line = none) :
    Spec.recordFor sec (s, line) = none := by
  unfold Spec.recordFor
  rw [h]; exact ite_self _

section
variable [GoLibm D]

/-- Only `key:value` lines of the Difficulty section touch the difficulty. -/
theorem step_difficulty {fuel : Nat} {sec line : Str} {st st' : ParseState S D}
    (h : Step fuel sec line st st') :
    (st'.beatMap.difficulty = st.beatMap.difficulty ∧
      st'.beatMap.arSpecified = st.beatMap.arSpecified ∧
      ∀ key, Spec.valueFor "Difficulty" key (sec, line) = none) ∨
    (sec = "Difficulty".toList ∧ ∃ k v, Spec.keyValue line = some (k, v) ∧
      st'.beatMap = parseDifficulty k v st.beatMap) := by
  cases h with
  | general k v hs hk e =>
    left; subst e
    obtain ⟨_, _, _, _, hf⟩ := parseGeneral_frame k v st.beatMap
    exact ⟨by rw [hf], by rw [hf], fun key => valueFor_other (by rw [hs]; decide)⟩
  | metadata k v hs hk e =>
    left; subst e
    obtain ⟨_, _, _, _, _, _, _, _, _, _, hf⟩ := parseMetadata_frame k v st.beatMap
    exact ⟨by rw [hf], by rw [hf], fun key => valueFor_other (by rw [hs]; decide)⟩
  | difficulty k v hs hk e => right; subst e; exact ⟨hs, k, v, hk, rfl⟩
  | events arr b hs hk hb e =>
    left; subst e
    obtain ⟨_, _, hf⟩ := parseEvents_ok hb
    exact ⟨by rw [hf], by rw [hf], fun key => valueFor_other (by rw [hs]; decide)⟩
  | timing arr b hs hk hb e =>
    left; subst e
    obtain ⟨_, s, _, -, -, -, -, -, hf⟩ := parsePoint_ok hb
    obtain ⟨_, _, hu⟩ := updateBPM_frame st.beatMap (parseFloat s : D)
    rw [hu] at hf
    exact ⟨by rw [hf], by rw [hf], fun key => valueFor_other (by rw [hs]; decide)⟩
  | hit arr b hs hk hb e =>
    left; subst e
    obtain ⟨_, _, _, _, _, hf⟩ := parseHitObjectLine_frame hb
    exact ⟨by rw [hf], by rw [hf], fun key => valueFor_other (by rw [hs]; decide)⟩
  | inert e hk _ =>
    left; subst e
    refine ⟨rfl, rfl, fun key => ?_⟩
    by_cases hs : sec = "Difficulty".toList
    · exact valueFor_none (hk (Or.inr (Or.inr hs)))
    · exact valueFor_other hs

/-- Only `key:value` lines of the Metadata section touch the metadata. -/
theorem step_metadata {fuel : Nat} {sec line : Str} {st st' : ParseState S D}
    (h : Step fuel sec line st st') :
    (st'.beatMap.title = st.beatMap.title ∧ st'.beatMap.artist = st.beatMap.artist ∧
      st'.beatMap.creator = st.beatMap.creator ∧ st'.beatMap.version = st.beatMap.version ∧
      ∀ key, Spec.valueFor "Metadata" key (sec, line) = none) ∨
    (sec = "Metadata".toList ∧ ∃ k v, Spec.keyValue line = some (k, v) ∧
      st'.beatMap = parseMetadata k v st.beatMap) := by
  cases h with
  | general k v hs hk e =>
    left; subst e
    obtain ⟨_, _, _, _, hf⟩ := parseGeneral_frame k v st.beatMap
    exact ⟨by rw [hf], by rw [hf], by rw [hf], by rw [hf],
      fun key => valueFor_other (by rw [hs]; decide)⟩
  | metadata k v hs hk e => right; subst e; exact ⟨hs, k, v, hk, rfl⟩
  | difficulty k v hs hk e =>
    left; subst e
    obtain ⟨_, _, _, _, _, hf⟩ := parseDifficulty_frame k v st.beatMap
    exact ⟨by rw [hf], by rw [hf], by rw [hf], by rw [hf],
      fun key => valueFor_other (by rw [hs]; decide)⟩
  | events arr b hs hk hb e =>
    left; subst e
    obtain ⟨_, _, hf⟩ := parseEvents_ok hb
    exact ⟨by rw [hf], by rw [hf], by rw [hf], by rw [hf],
      fun key => valueFor_other (by rw [hs]; decide)⟩
  | timing arr b hs hk hb e =>
    left; subst e
    obtain ⟨_, s, _, -, -, -, -, -, hf⟩ := parsePoint_ok hb
    obtain ⟨_, _, hu⟩ := updateBPM_frame st.beatMap (parseFloat s : D)
    rw [hu] at hf
    exact ⟨by rw [hf], by rw [hf], by rw [hf], by rw [hf],
      fun key => valueFor_other (by rw [hs]; decide)⟩
  | hit arr b hs hk hb e =>
    left; subst e
    obtain ⟨_, _, _, _, _, hf⟩ := parseHitObjectLine_frame hb
    exact ⟨by rw [hf], by rw [hf], by rw [hf], by rw [hf],
      fun key => valueFor_other (by rw [hs]; decide)⟩
  | inert e hk _ =>
    left; subst e
    refine ⟨rfl, rfl, rfl, rfl, fun key => ?_⟩
    by_cases hs : sec = "Metadata".toList
    · exact valueFor_none (hk (Or.inr (Or.inl hs)))
    · exact valueFor_other hs

/-- A field that is overwritten by the lines giving a value to `key`. -/
theorem overwritten {β : Type} (abs : BeatMap S D → β) (sec key : String) (g : Str → β)
    (hfmt : ∀ line b, abs (parseFormat line b) = abs b) {fuel : Nat}
    (hstep : ∀ s line (st st' : ParseState S D), Step fuel s line st st' →
      abs st'.beatMap = ((Spec.valueFor sec key (s, line)).map g).getD (abs st.beatMap))
    {lines : List Str} {st' : ParseState S D} (h : parseLines fuel lines ParseState.init = .ok st') :
    abs st'.beatMap =
      ((Spec.values sec key lines).getLast?.map g).getD (abs (BeatMap.new : BeatMap S D)) := by
  have := parseLines_fold (fun b _ => abs b)
    (fun a p => ((Spec.valueFor sec key p).map g).getD a) (fun l b _ => hfmt l b) hstep h
  rw [this, foldl_overwrite (fun p => (Spec.valueFor sec key p).map g)]
  show ((List.filterMap _ (Spec.sectioned [] lines)).getLast?).getD (abs BeatMap.new) = _
  rw [← List.getLast?_map, Spec.values, List.map_filterMap]

end

/-! ### single fields -/

section
omit [GoFloat S] [GoConv S D]

theorem parseDifficulty_hp (k v : Str) (b : BeatMap S D) :
    (parseDifficulty k v b).difficulty.hp =
      if k = "HPDrainRate".toList then clampF64 (parseFloat v) (lit 0) (lit 10)
      else b.difficulty.hp := by
  by_cases hk : k = "HPDrainRate".toList
  · subst hk
    rw [if_pos rfl]
    unfold parseDifficulty
    simp only [reduceIte]
    rw [if_neg (by decide), if_neg (by decide), if_neg (by decide), if_neg (by decide)]
    rfl
  · rw [if_neg hk]
    unfold parseDifficulty
    simp only [if_neg hk]
    by_cases h1 : k = "SliderMultiplier".toList
    · rw [if_pos h1]
    rw [if_neg h1]
    by_cases h1 : k = "ApproachRate".toList
    · rw [if_pos h1]; rfl
    rw [if_neg h1]
    by_cases h1 : k = "CircleSize".toList
    · rw [if_pos h1]; rfl
    rw [if_neg h1]
    by_cases h1 : k = "SliderTickRate".toList
    · rw [if_pos h1]
    rw [if_neg h1]
    by_cases h1 : k = "OverallDifficulty".toList
    · rw [if_pos h1]; cases b.arSpecified <;> rfl
    rw [if_neg h1]

theorem parseDifficulty_cs (k v : Str) (b : BeatMap S D) :
    (parseDifficulty k v b).difficulty.cs =
      if k = "CircleSize".toList then clampF64 (parseFloat v) (lit 0) (lit 10)
      else b.difficulty.cs := by
  by_cases hk : k = "CircleSize".toList
  · subst hk
    rw [if_pos rfl]
    unfold parseDifficulty
    simp only [reduceIte]
    rw [if_neg (by decide), if_neg (by decide)]
    rfl
  · rw [if_neg hk]
    unfold parseDifficulty
    simp only [if_neg hk]
    by_cases h1 : k = "SliderMultiplier".toList
    · rw [if_pos h1]
    rw [if_neg h1]
    by_cases h1 : k = "ApproachRate".toList
    · rw [if_pos h1]; rfl
    rw [if_neg h1]
    by_cases h1 : k = "SliderTickRate".toList
    · rw [if_pos h1]
    rw [if_neg h1]
    by_cases h1 : k = "HPDrainRate".toList
    · rw [if_pos h1]; rfl
    rw [if_neg h1]
    by_cases h1 : k = "OverallDifficulty".toList
    · rw [if_pos h1]; cases b.arSpecified <;> rfl
    rw [if_neg h1]

theorem parseDifficulty_od (k v : Str) (b : BeatMap S D) :
    (parseDifficulty k v b).difficulty.od =
      if k = "OverallDifficulty".toList then clampF64 (parseFloat v) (lit 0) (lit 10)
      else b.difficulty.od := by
  by_cases hk : k = "OverallDifficulty".toList
  · subst hk
    rw [if_pos rfl]
    unfold parseDifficulty
    simp only [reduceIte]
    rw [if_neg (by decide), if_neg (by decide), if_neg (by decide), if_neg (by decide),
      if_neg (by decide)]
    cases b.arSpecified <;> rfl
  · rw [if_neg hk]
    unfold parseDifficulty
    simp only [if_neg hk]
    by_cases h1 : k = "SliderMultiplier".toList
    · rw [if_pos h1]
    rw [if_neg h1]
    by_cases h1 : k = "ApproachRate".toList
    · rw [if_pos h1]; rfl
    rw [if_neg h1]
    by_cases h1 : k = "CircleSize".toList
    · rw [if_pos h1]; rfl
    rw [if_neg h1]
    by_cases h1 : k = "SliderTickRate".toList
    · rw [if_pos h1]
    rw [if_neg h1]
    by_cases h1 : k = "HPDrainRate".toList
    · rw [if_pos h1]; rfl
    rw [if_neg h1]

theorem parseDifficulty_ar (k v : Str) (b : BeatMap S D) :
    ((parseDifficulty k v b).difficulty.ar, (parseDifficulty k v b).arSpecified) =
      if k = "ApproachRate".toList then (clampF64 (parseFloat v) (lit 0) (lit 10), true)
      else if k = "OverallDifficulty".toList ∧ b.arSpecified = false then
        (clampF64 (parseFloat v) (lit 0) (lit 10), false)
      else (b.difficulty.ar, b.arSpecified) := by
  by_cases hk : k = "ApproachRate".toList
  · subst hk
    rw [if_pos rfl]
    unfold parseDifficulty
    simp only [reduceIte]
    rw [if_neg (by decide)]
    rfl
  · rw [if_neg hk]
    unfold parseDifficulty
    simp only [if_neg hk]
    by_cases h1 : k = "SliderMultiplier".toList
    · rw [if_pos h1, if_neg (by rintro ⟨h, -⟩; rw [h] at h1; exact absurd h1 (by decide))]
    rw [if_neg h1]
    by_cases h1 : k = "CircleSize".toList
    · rw [if_pos h1, if_neg (by rintro ⟨h, -⟩; rw [h] at h1; exact absurd h1 (by decide))]; rfl
    rw [if_neg h1]
    by_cases h1 : k = "SliderTickRate".toList
    · rw [if_pos h1, if_neg (by rintro ⟨h, -⟩; rw [h] at h1; exact absurd h1 (by decide))]
    rw [if_neg h1]
    by_cases h1 : k = "HPDrainRate".toList
    · rw [if_pos h1, if_neg (by rintro ⟨h, -⟩; rw [h] at h1; exact absurd h1 (by decide))]; rfl
    rw [if_neg h1]
    by_cases h1 : k = "OverallDifficulty".toList
    · rw [if_pos h1]
      cases hs : b.arSpecified with
      | true =>
        simp only [Bool.not_true, reduceIte, Bool.false_eq_true, hs]
        rw [if_neg (by simp)]; rfl
      | false =>
        simp only [Bool.not_false, reduceIte, hs]
        rw [if_pos ⟨h1, trivial⟩]; rfl
    rw [if_neg h1, if_neg (by rintro ⟨h, -⟩; exact h1 h)]

omit [GoFloat D] in
/-- A metadata line `Key:v` sets only its own field. -/
theorem parseMetadata_fields (k v : Str) (b : BeatMap S D) :
    (parseMetadata k v b).title = (if k = "Title".toList then v else b.title) ∧
    (parseMetadata k v b).artist = (if k = "Artist".toList then v else b.artist) ∧
    (parseMetadata k v b).creator = (if k = "Creator".toList then v else b.creator) ∧
    (parseMetadata k v b).version = (if k = "FileVersion".toList then v else b.version) := by
  have key : ∀ (a c : Str), a ≠ c → k = a → k ≠ c := fun a c h h1 h2 => h (h1.symm.trans h2)
  unfold parseMetadata
  by_cases h1 : k = "Title".toList
  · rw [if_pos h1, if_pos h1, if_neg (key _ _ (by decide) h1), if_neg (key _ _ (by decide) h1),
      if_neg (key _ _ (by decide) h1)]
    exact ⟨rfl, rfl, rfl, rfl⟩
  rw [if_neg h1, if_neg h1]
  by_cases h2 : k = "TitleUnicode".toList
  · rw [if_pos h2, if_neg (key _ _ (by decide) h2), if_neg (key _ _ (by decide) h2),
      if_neg (key _ _ (by decide) h2)]
    exact ⟨rfl, rfl, rfl, rfl⟩
  rw [if_neg h2]
  by_cases h2 : k = "Artist".toList
  · rw [if_pos h2, if_pos h2, if_neg (key _ _ (by decide) h2),
      if_neg (key _ _ (by decide) h2)]
    exact ⟨rfl, rfl, rfl, rfl⟩
  rw [if_neg h2, if_neg h2]
  by_cases h2 : k = "ArtistUnicode".toList
  · rw [if_pos h2, if_neg (key _ _ (by decide) h2), if_neg (key _ _ (by decide) h2)]
    exact ⟨rfl, rfl, rfl, rfl⟩
  rw [if_neg h2]
  by_cases h2 : k = "Creator".toList
  · rw [if_pos h2, if_pos h2, if_neg (key _ _ (by decide) h2)]
    exact ⟨rfl, rfl, rfl, rfl⟩
  rw [if_neg h2, if_neg h2]
  by_cases h2 : k = "FileVersion".toList
  · rw [if_pos h2, if_pos h2]
    exact ⟨rfl, rfl, rfl, rfl⟩
  rw [if_neg h2, if_neg h2]
  by_cases h2 : k = "Source".toList
  · rw [if_pos h2]; exact ⟨rfl, rfl, rfl, rfl⟩
  rw [if_neg h2]
  by_cases h2 : k = "Tags".toList
  · rw [if_pos h2]; exact ⟨rfl, rfl, rfl, rfl⟩
  rw [if_neg h2]
  by_cases h2 : k = "BeatmapID".toList
  · rw [if_pos h2]; exact ⟨rfl, rfl, rfl, rfl⟩
  rw [if_neg h2]
  by_cases h2 : k = "BeatmapSetID".toList
  · rw [if_pos h2]; exact ⟨rfl, rfl, rfl, rfl⟩
  rw [if_neg h2]
  exact ⟨rfl, rfl, rfl, rfl⟩

end
end GosuPP
