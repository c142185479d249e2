import Verif.Lemmas.ParserSections
import Verif.Lemmas.ParserFinish
import Verif.Lemmas.ParserObjects
import Verif.Spec.FileValues

/-! Single values of a file. -/

namespace GosuPP
open Go
variable {S D : Type} [GoFloat S] [GoFloat D] [GoConv S D]

section
omit [GoFloat S] [GoConv S D]

theorem general_fields (k v : Str) (b : BeatMap S D) :
    (parseGeneral k v b).mode = (if k = "Mode".toList then parseInt v else b.mode) ∧
    (parseGeneral k v b).stackLeniency = (if k = "StackLeniency".toList then
      (if GoFloat.isNaN (parseFloat v : D) then lit 0 else parseFloat v) else b.stackLeniency) ∧
    (parseGeneral k v b).audio = (if k = "AudioFilename".toList then b.audio ++ v else b.audio) ∧
    (parseGeneral k v b).previewTime = (if k = "PreviewTime".toList then parseInt v else b.previewTime) := by
  by_cases h1 : k = "Mode".toList
  · subst h1; exact ⟨rfl, rfl, rfl, rfl⟩
  by_cases h2 : k = "StackLeniency".toList
  · subst h2; exact ⟨rfl, rfl, rfl, rfl⟩
  by_cases h3 : k = "AudioFilename".toList
  · subst h3; exact ⟨rfl, rfl, rfl, rfl⟩
  by_cases h4 : k = "PreviewTime".toList
  · subst h4; exact ⟨rfl, rfl, rfl, rfl⟩
  unfold parseGeneral
  rw [if_neg h1, if_neg h1, if_neg h2, if_neg h2, if_neg h3, if_neg h3, if_neg h4, if_neg h4]
  exact ⟨rfl, rfl, rfl, rfl⟩

omit [GoFloat D] in
theorem metadata_fields (k v : Str) (b : BeatMap S D) :
    (parseMetadata k v b).title = (if k = "Title".toList then v else b.title) ∧
    (parseMetadata k v b).titleUnicode = (if k = "TitleUnicode".toList then v else b.titleUnicode) ∧
    (parseMetadata k v b).artist = (if k = "Artist".toList then v else b.artist) ∧
    (parseMetadata k v b).artistUnicode = (if k = "ArtistUnicode".toList then v else b.artistUnicode) ∧
    (parseMetadata k v b).creator = (if k = "Creator".toList then v else b.creator) ∧
    (parseMetadata k v b).source = (if k = "Source".toList then v else b.source) ∧
    (parseMetadata k v b).tags = (if k = "Tags".toList then v else b.tags) ∧
    (parseMetadata k v b).mapID = (if k = "BeatmapID".toList then parseInt v else b.mapID) ∧
    (parseMetadata k v b).setID = (if k = "BeatmapSetID".toList then parseInt v else b.setID) := by
  by_cases h1 : k = "Title".toList
  · subst h1; exact ⟨rfl, rfl, rfl, rfl, rfl, rfl, rfl, rfl, rfl⟩
  by_cases h2 : k = "TitleUnicode".toList
  · subst h2; exact ⟨rfl, rfl, rfl, rfl, rfl, rfl, rfl, rfl, rfl⟩
  by_cases h3 : k = "Artist".toList
  · subst h3; exact ⟨rfl, rfl, rfl, rfl, rfl, rfl, rfl, rfl, rfl⟩
  by_cases h4 : k = "ArtistUnicode".toList
  · subst h4; exact ⟨rfl, rfl, rfl, rfl, rfl, rfl, rfl, rfl, rfl⟩
  by_cases h5 : k = "Creator".toList
  · subst h5; exact ⟨rfl, rfl, rfl, rfl, rfl, rfl, rfl, rfl, rfl⟩
  by_cases h6 : k = "FileVersion".toList
  · subst h6; exact ⟨rfl, rfl, rfl, rfl, rfl, rfl, rfl, rfl, rfl⟩
  by_cases h7 : k = "Source".toList
  · subst h7; exact ⟨rfl, rfl, rfl, rfl, rfl, rfl, rfl, rfl, rfl⟩
  by_cases h8 : k = "Tags".toList
  · subst h8; exact ⟨rfl, rfl, rfl, rfl, rfl, rfl, rfl, rfl, rfl⟩
  by_cases h9 : k = "BeatmapID".toList
  · subst h9; exact ⟨rfl, rfl, rfl, rfl, rfl, rfl, rfl, rfl, rfl⟩
  by_cases h10 : k = "BeatmapSetID".toList
  · subst h10; exact ⟨rfl, rfl, rfl, rfl, rfl, rfl, rfl, rfl, rfl⟩
  unfold parseMetadata
  rw [if_neg h1, if_neg h1, if_neg h2, if_neg h2, if_neg h3, if_neg h3, if_neg h4, if_neg h4, if_neg h5, if_neg h5, if_neg h6,
    if_neg h7, if_neg h7, if_neg h8, if_neg h8, if_neg h9, if_neg h9, if_neg h10, if_neg h10]
  exact ⟨rfl, rfl, rfl, rfl, rfl, rfl, rfl, rfl, rfl⟩

theorem difficulty_fields (k v : Str) (b : BeatMap S D) :
    (parseDifficulty k v b).sliderMultiplier = (if k = "SliderMultiplier".toList then parseFloat v else b.sliderMultiplier) ∧
    (parseDifficulty k v b).timings.sliderMult =
      (if k = "SliderMultiplier".toList then parseFloat v else b.timings.sliderMult) ∧
    (parseDifficulty k v b).timings.tickRate = (if k = "SliderTickRate".toList then parseFloat v else b.timings.tickRate) := by
  by_cases h1 : k = "SliderMultiplier".toList
  · subst h1; exact ⟨rfl, rfl, rfl⟩
  by_cases h2 : k = "ApproachRate".toList
  · subst h2; exact ⟨rfl, rfl, rfl⟩
  by_cases h3 : k = "CircleSize".toList
  · subst h3; exact ⟨rfl, rfl, rfl⟩
  by_cases h4 : k = "SliderTickRate".toList
  · subst h4; exact ⟨rfl, rfl, rfl⟩
  by_cases h5 : k = "HPDrainRate".toList
  · subst h5; exact ⟨rfl, rfl, rfl⟩
  unfold parseDifficulty
  simp only
  rw [if_neg h1, if_neg h1, if_neg h1, if_neg h2, if_neg h3, if_neg h4, if_neg h4, if_neg h5]
  by_cases h6 : k = "OverallDifficulty".toList
  · rw [if_pos h6]
    split <;> exact ⟨rfl, rfl, rfl⟩
  · rw [if_neg h6]
    exact ⟨rfl, rfl, rfl⟩

end

section
variable [GoLibm D]

/-- A line of another section changes nothing of section `i`; of the same one either it is no key-value line or it is. -/
theorem step_only {fuel : Nat} {s line : Str} {st st' : ParseState S D} (h : Step fuel s line st st') {i : Sec}
    (hi : s ≠ i.name) : Sec.part st'.beatMap i = Sec.part st.beatMap i := by
  cases h with
  | general k v hs _ e =>
    obtain ⟨_, _, _, _, hf⟩ := parseGeneral_frame k v st.beatMap
    subst e
    rw [hf]
    cases i with
    | general => exact absurd hs hi
    | _ => rfl
  | metadata k v hs _ e =>
    obtain ⟨_, _, _, _, _, _, _, _, _, _, hf⟩ := parseMetadata_frame k v st.beatMap
    subst e
    rw [hf]
    cases i with
    | metadata => exact absurd hs hi
    | _ => rfl
  | difficulty k v hs _ e =>
    obtain ⟨_, _, _, _, _, hf⟩ := parseDifficulty_frame k v st.beatMap
    subst e
    rw [hf]
    cases i with
    | difficulty => exact absurd hs hi
    | _ => rfl
  | events arr b hs _ hb e =>
    obtain ⟨_, _, rfl⟩ := parseEvents_ok hb
    subst e
    cases i with
    | events => exact absurd hs hi
    | _ => rfl
  | timing arr b hs _ hb e =>
    obtain ⟨_, s, _, _, _, _, _, _, rfl⟩ := parsePoint_ok hb
    obtain ⟨_, _, hu⟩ := updateBPM_frame st.beatMap (parseFloat s : D)
    subst e
    rw [hu]
    cases i with
    | timing => exact absurd hs hi
    | _ => rfl
  | hit arr b hs _ hb e =>
    obtain ⟨_, _, _, _, _, rfl⟩ := parseHitObjectLine_frame hb
    subst e
    cases i with
    | hit => exact absurd hs hi
    | _ => rfl
  | inert e => rw [e]

/-- A field of the General section that one key overwrites. -/
theorem general_value {β : Type} (abs : BeatMap S D → β) (hp : ∀ b, abs b = abs (Sec.part b .general)) (key : String)
    (g : Str → β) (hk : ∀ k v b, abs (parseGeneral k v b) = if k = key.toList then g v else abs b) {fuel : Nat}
    {lines : List Str} {st : ParseState S D} (h : parseLines fuel lines ParseState.init = .ok st) :
    abs st.beatMap = Spec.lastOr (Spec.values "General" key lines) g (abs (BeatMap.new : BeatMap S D)) := by
  rw [overwritten abs "General" key g _ _ h]
  · unfold Spec.lastOr
    cases (Spec.values "General" key lines).getLast? <;> rfl
  · intro line b
    obtain ⟨v, hv⟩ := parseFormat_frame line b
    rw [hp, hv, hp b]
    rfl
  · intro s line st st' hs
    by_cases hsec : s = "General".toList
    · cases hs with
      | general k v h1 h2 e => subst e h1; rw [valueFor_kv h2, hk]; split <;> rfl
      | inert e h1 => subst e; rw [valueFor_none (h1 (.inl hsec))]; rfl
      | metadata k v h1 _ _ => rw [h1] at hsec; exact absurd hsec (by decide)
      | difficulty k v h1 _ _ => rw [h1] at hsec; exact absurd hsec (by decide)
      | events arr b h1 _ _ _ => rw [h1] at hsec; exact absurd hsec (by decide)
      | timing arr b h1 _ _ _ => rw [h1] at hsec; exact absurd hsec (by decide)
      | hit arr b h1 _ _ _ => rw [h1] at hsec; exact absurd hsec (by decide)
    · rw [hp, step_only hs (i := .general) hsec, ← hp, valueFor_other hsec]
      rfl

/-- A field of the Metadata section that one key overwrites. -/
theorem metadata_value {β : Type} (abs : BeatMap S D → β) (hp : ∀ b, abs b = abs (Sec.part b .metadata)) (key : String)
    (g : Str → β) (hk : ∀ k v b, abs (parseMetadata k v b) = if k = key.toList then g v else abs b) {fuel : Nat}
    {lines : List Str} {st : ParseState S D} (h : parseLines fuel lines ParseState.init = .ok st) :
    abs st.beatMap = Spec.lastOr (Spec.values "Metadata" key lines) g (abs (BeatMap.new : BeatMap S D)) := by
  rw [overwritten abs "Metadata" key g _ _ h]
  · unfold Spec.lastOr
    cases (Spec.values "Metadata" key lines).getLast? <;> rfl
  · intro line b
    obtain ⟨v, hv⟩ := parseFormat_frame line b
    rw [hp, hv, hp b]
    rfl
  · intro s line st st' hs
    by_cases hsec : s = "Metadata".toList
    · cases hs with
      | metadata k v h1 h2 e => subst e h1; rw [valueFor_kv h2, hk]; split <;> rfl
      | inert e h1 => subst e; rw [valueFor_none (h1 (.inr (.inl hsec)))]; rfl
      | general k v h1 _ _ => rw [h1] at hsec; exact absurd hsec (by decide)
      | difficulty k v h1 _ _ => rw [h1] at hsec; exact absurd hsec (by decide)
      | events arr b h1 _ _ _ => rw [h1] at hsec; exact absurd hsec (by decide)
      | timing arr b h1 _ _ _ => rw [h1] at hsec; exact absurd hsec (by decide)
      | hit arr b h1 _ _ _ => rw [h1] at hsec; exact absurd hsec (by decide)
    · rw [hp, step_only hs (i := .metadata) hsec, ← hp, valueFor_other hsec]
      rfl

/-- A field of the Difficulty section that one key overwrites. -/
theorem difficulty_value {β : Type} (abs : BeatMap S D → β) (hp : ∀ b, abs b = abs (Sec.part b .difficulty)) (key : String)
    (g : Str → β) (hk : ∀ k v b, abs (parseDifficulty k v b) = if k = key.toList then g v else abs b) {fuel : Nat}
    {lines : List Str} {st : ParseState S D} (h : parseLines fuel lines ParseState.init = .ok st) :
    abs st.beatMap = Spec.lastOr (Spec.values "Difficulty" key lines) g (abs (BeatMap.new : BeatMap S D)) := by
  rw [overwritten abs "Difficulty" key g _ _ h]
  · unfold Spec.lastOr
    cases (Spec.values "Difficulty" key lines).getLast? <;> rfl
  · intro line b
    obtain ⟨v, hv⟩ := parseFormat_frame line b
    rw [hp, hv, hp b]
    rfl
  · intro s line st st' hs
    by_cases hsec : s = "Difficulty".toList
    · cases hs with
      | difficulty k v h1 h2 e => subst e h1; rw [valueFor_kv h2, hk]; split <;> rfl
      | inert e h1 => subst e; rw [valueFor_none (h1 (.inr (.inr hsec)))]; rfl
      | general k v h1 _ _ => rw [h1] at hsec; exact absurd hsec (by decide)
      | metadata k v h1 _ _ => rw [h1] at hsec; exact absurd hsec (by decide)
      | events arr b h1 _ _ _ => rw [h1] at hsec; exact absurd hsec (by decide)
      | timing arr b h1 _ _ _ => rw [h1] at hsec; exact absurd hsec (by decide)
      | hit arr b h1 _ _ _ => rw [h1] at hsec; exact absurd hsec (by decide)
    · rw [hp, step_only hs (i := .difficulty) hsec, ← hp, valueFor_other hsec]
      rfl

/-- The audio file name is put together from all its lines. -/
theorem audio_value {fuel : Nat} {lines : List Str} {st : ParseState S D} (h : parseLines fuel lines ParseState.init = .ok st) :
    st.beatMap.audio = (Spec.values "General" "AudioFilename" lines).flatten := by
  have hfold := parseLines_fold (S := S) (D := D) (fun b _ => b.audio)
    (fun a p => a ++ ((Spec.valueFor "General" "AudioFilename" p).getD []))
    (by intro line b n; obtain ⟨v, hv⟩ := parseFormat_frame line b; simp only [hv])
    (by
      intro s line st st' hs
      by_cases hsec : s = "General".toList
      · cases hs with
        | general k v h1 h2 e =>
          subst e h1
          rw [valueFor_kv h2, (general_fields k v _).2.2.1]
          split <;> simp
        | inert e h1 => subst e; rw [valueFor_none (h1 (.inl hsec))]; simp
        | metadata k v h1 _ _ => rw [h1] at hsec; exact absurd hsec (by decide)
        | difficulty k v h1 _ _ => rw [h1] at hsec; exact absurd hsec (by decide)
        | events arr b h1 _ _ _ => rw [h1] at hsec; exact absurd hsec (by decide)
        | timing arr b h1 _ _ _ => rw [h1] at hsec; exact absurd hsec (by decide)
        | hit arr b h1 _ _ _ => rw [h1] at hsec; exact absurd hsec (by decide)
      · have := congrArg BeatMap.audio (step_only hs (i := .general) hsec)
        rw [valueFor_other hsec]
        show st'.beatMap.audio = st.beatMap.audio ++ []
        rw [List.append_nil]
        exact this) h
  rw [hfold]
  show List.foldl _ [] (Spec.sectioned [] lines) = (List.filterMap _ (Spec.sectioned [] lines)).flatten
  generalize Spec.sectioned [] lines = ps
  have key : ∀ (ps : List (Str × Str)) (a : Str), ps.foldl (fun a p => a ++ ((Spec.valueFor "General" "AudioFilename" p).getD [])) a =
      a ++ (ps.filterMap (Spec.valueFor "General" "AudioFilename")).flatten := by
    intro ps
    induction ps with
    | nil => intro a; simp
    | cons p ps ih =>
      intro a
      rw [List.foldl_cons, ih, List.filterMap_cons]
      cases Spec.valueFor "General" "AudioFilename" p <;> simp
  rw [key, List.nil_append]

/-- Background and breaks. -/
theorem events_value {fuel : Nat} {lines : List Str} {st : ParseState S D} (h : parseLines fuel lines ParseState.init = .ok st) :
    st.beatMap.bg = ((((Spec.records "Events" lines).filterMap Spec.background).getLast?).getD []) ∧
    st.beatMap.pauses = (Spec.records "Events" lines).filterMap Spec.break_ := by
  have hfold := parseLines_fold (S := S) (D := D) (fun b _ => (b.bg, b.pauses))
    (fun a p => match Spec.recordFor "Events" p with
      | some arr => (((Spec.background arr).getD a.1), a.2 ++ (Spec.break_ arr).toList)
      | none => a)
    (by intro line b n; obtain ⟨v, hv⟩ := parseFormat_frame line b; simp only [hv])
    (by
      intro s line st st' hs
      by_cases hsec : s = "Events".toList
      · cases hs with
        | events arr b h1 h2 h3 e =>
          subst e
          rw [recordFor_eq h1, h2]
          simp only
          have hlen := fields_length h2
          unfold parseEvents at h3
          obtain ⟨k, hk, h3⟩ := bind_ok h3
          have hk := index_ok (n := 0) hk
          have hb1 : "0".toList = ['0'] := rfl
          have hb2 : "2".toList = ['2'] := rfl
          rcases arr with _ | ⟨a0, _ | ⟨a1, r⟩⟩
          · simp at hlen
          · simp at hlen
          have hk : a0 = k := by simpa using hk
          subst hk
          split at h3
          · rename_i hc
            obtain ⟨f, hf, h3⟩ := bind_ok h3
            have hf := index_ok (n := 2) hf
            rcases r with _ | ⟨a2, r⟩
            · simp at hf
            simp only [List.getElem?_cons_succ, List.getElem?_cons_zero, Option.some.injEq] at hf
            subst hf
            cases h3
            have hne : ¬ (a0 = "Break".toList ∨ a0 = "2".toList) := by
              rintro (h | h) <;> rcases hc with hc | hc <;> rw [h] at hc <;> exact absurd hc (by decide)
            rw [Spec.background, Spec.break_, hb1, if_pos hc, if_neg hne]
            simp
          · rename_i hc
            have hbg : Spec.background (a0 :: a1 :: r) = none := by
              cases r with
              | nil => rfl
              | cons a2 r => rw [Spec.background, hb1, if_neg hc]
            rw [hbg]
            split at h3
            · rename_i hd
              obtain ⟨p, hp, h3⟩ := bind_ok h3
              unfold newPause at hp
              obtain ⟨x, hx, hp⟩ := bind_ok hp
              obtain ⟨y, hy, hp⟩ := bind_ok hp
              have hx := index_ok (n := 1) hx
              have hy := index_ok (n := 2) hy
              rcases r with _ | ⟨a2, r⟩
              · simp at hy
              simp only [List.getElem?_cons_succ, List.getElem?_cons_zero, Option.some.injEq] at hx hy
              subst hx hy
              cases hp
              cases h3
              rw [Spec.break_, hb2, if_pos hd]
              rfl
            · rename_i hd
              cases h3
              have : (Spec.break_ (a0 :: a1 :: r) : Option (Pause D)) = none := by
                cases r with
                | nil => rfl
                | cons a2 r => rw [Spec.break_, hb2, if_neg hd]
              rw [this]
              simp
        | inert e _ h1 => subst e; rw [recordFor_none (h1 (.inl hsec))]
        | general k v h1 _ _ => rw [h1] at hsec; exact absurd hsec (by decide)
        | metadata k v h1 _ _ => rw [h1] at hsec; exact absurd hsec (by decide)
        | difficulty k v h1 _ _ => rw [h1] at hsec; exact absurd hsec (by decide)
        | timing arr b h1 _ _ _ => rw [h1] at hsec; exact absurd hsec (by decide)
        | hit arr b h1 _ _ _ => rw [h1] at hsec; exact absurd hsec (by decide)
      · have h1 := congrArg BeatMap.bg (step_only hs (i := .events) hsec)
        have h2 := congrArg BeatMap.pauses (step_only hs (i := .events) hsec)
        rw [recordFor_other hsec]
        exact Prod.ext h1 h2) h
  have key : ∀ (ps : List (Str × Str)) (a : Str × List (Pause D)), ps.foldl (fun a p => match Spec.recordFor "Events" p with
      | some arr => (((Spec.background arr).getD a.1), a.2 ++ (Spec.break_ arr).toList)
      | none => a) a = (((((ps.filterMap (Spec.recordFor "Events")).filterMap Spec.background).getLast?).getD a.1),
        a.2 ++ (ps.filterMap (Spec.recordFor "Events")).filterMap Spec.break_) := by
    intro ps
    induction ps with
    | nil => intro a; simp
    | cons p ps ih =>
      intro a
      rw [List.foldl_cons, ih, List.filterMap_cons]
      cases Spec.recordFor "Events" p with
      | none => rfl
      | some arr =>
        simp only [List.filterMap_cons]
        cases Spec.background arr <;> cases (Spec.break_ arr : Option (Pause D)) <;>
          simp [List.getLast?_cons]
  rw [key] at hfold
  exact ⟨congrArg Prod.fst hfold, congrArg Prod.snd hfold⟩

omit [GoFloat S] [GoConv S D] [GoLibm D] in
/-- The point that a record adds. -/
theorem parsePoint_point {b b' : BeatMap S D} {line : Str} (h : b.parsePoint line = .ok b') :
    ∃ p, Spec.IsPoint (split ',' line) p ∧ p.beatLengthBase = p.beatLength ∧ b'.timings.points = b.timings.points ++ [p] ∧
      b'.timings.originalPoints = b.timings.originalPoints := by
  unfold BeatMap.parsePoint at h
  simp only at h
  obtain ⟨t, ht, h⟩ := bind_ok h
  obtain ⟨s, hs, h⟩ := bind_ok h
  have ht' := index_ok (n := 0) ht
  have hs' := index_ok (n := 1) hs
  obtain ⟨lo, hi, hu⟩ := updateBPM_frame b (parseFloat s : D)
  cases h
  rw [hu]
  refine ⟨_, ?_, ?_, rfl, rfl⟩
  · generalize split ',' line = fs at *
    constructor
    · show _ = ofInt (Spec.intField fs 0 0); unfold Spec.intField; rw [ht']
    · exact ⟨s, hs', rfl⟩
    · show _ = if Spec.intField fs 2 0 = 0 then _ else _
      unfold Spec.intField
      cases fs[2]? <;> rfl
    · show _ = Spec.intField fs 3 0; unfold Spec.intField; cases fs[3]? <;> rfl
    · show _ = Spec.intField fs 4 1; unfold Spec.intField; cases fs[4]? <;> rfl
    · show _ = if fs.length ≤ 5 then _ else _
      unfold Spec.intField
      by_cases h5 : fs.length ≤ 5
      · rw [if_pos h5, List.getElem?_eq_none h5]
      · rw [if_neg h5, List.getElem?_eq_getElem (show 5 < fs.length by omega)]
    · show _ = true ↔ Spec.intField fs 6 1 = 0; unfold Spec.intField; cases fs[6]? <;> simp
    · show _ = (Spec.intField fs 7 0).testBit 0
      unfold Spec.intField
      cases fs[7]? with
      | none => rfl
      | some x => exact intBit_testBit _ _
    · show _ = (Spec.intField fs 7 0).testBit 3
      unfold Spec.intField
      cases fs[7]? with
      | none => rfl
      | some x => exact intBit_testBit _ _
  · rfl

/-- The points before they are sorted. -/
theorem points_value {fuel : Nat} {lines : List Str} {st : ParseState S D} (h : parseLines fuel lines ParseState.init = .ok st) :
    List.Forall₂ (fun fs (p : ControlPoint D) => Spec.IsPoint fs p ∧ p.beatLengthBase = p.beatLength)
      (Spec.pointFields lines) st.beatMap.timings.points ∧ st.beatMap.timings.originalPoints = [] := by
  have key : ∀ (lines : List Str) (st st' : ParseState S D), parseLines fuel lines st = .ok st' →
      ∃ ps, st'.beatMap.timings.points = st.beatMap.timings.points ++ ps ∧
        st'.beatMap.timings.originalPoints = st.beatMap.timings.originalPoints ∧
        List.Forall₂ (fun fs (p : ControlPoint D) => Spec.IsPoint fs p ∧ p.beatLengthBase = p.beatLength)
          ((Spec.sectioned st.currentSection lines).filterMap
            (fun p => (Spec.recordFor "TimingPoints" p).map (fun _ => split ',' p.2))) ps := by
    intro lines
    induction lines with
    | nil => intro st st' h; cases h; exact ⟨[], by simp, rfl, .nil⟩
    | cons l ls ih =>
      intro st st' h
      obtain ⟨w, hw⟩ := parseFormat_frame l st.beatMap
      rw [parseLines, parseLine_eq] at h
      rw [Spec.sectioned]
      cases hh : Spec.header l with
      | some s =>
        rw [hh] at h
        obtain ⟨ps, h1, h2, h3⟩ := ih _ _ h
        refine ⟨ps, ?_, ?_, h3⟩
        · rw [h1]; show (parseFormat l st.beatMap).timings.points ++ ps = _; rw [hw]
        · rw [h2]; show (parseFormat l st.beatMap).timings.originalPoints = _; rw [hw]
      | none =>
        rw [hh] at h
        obtain ⟨st1, hs1, h⟩ := bind_ok h
        obtain ⟨ps, h1, h2, h3⟩ := ih _ _ h
        have hstep := parseInSection_step hs1
        have hcur := (Sec.step_version hs1).2
        rw [hcur] at h3
        simp only [List.filterMap_cons]
        by_cases hsec : st.currentSection = "TimingPoints".toList
        · cases hstep with
          | timing arr b h4 h5 h6 e =>
            subst e
            obtain ⟨p, hp1, hp2, hp3, hp4⟩ := parsePoint_point h6
            rw [recordFor_eq hsec, h5]
            refine ⟨p :: ps, ?_, ?_, .cons ⟨hp1, hp2⟩ h3⟩
            · rw [h1]
              show b.timings.points ++ ps = _
              rw [hp3]
              show (parseFormat l st.beatMap).timings.points ++ [p] ++ ps = _
              rw [hw]
              simp
            · rw [h2]
              show b.timings.originalPoints = _
              rw [hp4]
              show (parseFormat l st.beatMap).timings.originalPoints = _
              rw [hw]
          | inert e _ h4 =>
            rw [recordFor_none (h4 (.inr (.inl hsec)))]
            refine ⟨ps, ?_, ?_, h3⟩
            · rw [h1, e]; show (parseFormat l st.beatMap).timings.points ++ ps = _; rw [hw]
            · rw [h2, e]; show (parseFormat l st.beatMap).timings.originalPoints = _; rw [hw]
          | general k v h1 _ _ => rw [h1] at hsec; exact absurd hsec (by decide)
          | metadata k v h1 _ _ => rw [h1] at hsec; exact absurd hsec (by decide)
          | difficulty k v h1 _ _ => rw [h1] at hsec; exact absurd hsec (by decide)
          | events arr b h1 _ _ _ => rw [h1] at hsec; exact absurd hsec (by decide)
          | hit arr b h1 _ _ _ => rw [h1] at hsec; exact absurd hsec (by decide)
        · rw [recordFor_other hsec]
          have hk := step_only hstep (i := .timing) hsec
          have k1 := congrArg (fun b => b.timings.points) hk
          have k2 := congrArg (fun b => b.timings.originalPoints) hk
          change st1.beatMap.timings.points = (parseFormat l st.beatMap).timings.points at k1
          change st1.beatMap.timings.originalPoints = (parseFormat l st.beatMap).timings.originalPoints at k2
          rw [hw] at k1 k2
          exact ⟨ps, by rw [h1, k1], by rw [h2, k2], h3⟩
  obtain ⟨ps, h1, h2, h3⟩ := key _ _ _ h
  rw [h1, h2]
  exact ⟨h3, rfl⟩

/-- There are as many points as records. -/
theorem parseLines_points_length {fuel : Nat} {lines : List Str} {st : ParseState S D}
    (h : parseLines fuel lines ParseState.init = .ok st) :
    st.beatMap.timings.points.length = (Spec.records "TimingPoints" lines).length := by
  rw [← (points_value h).1.length_eq]
  unfold Spec.pointFields Spec.records
  generalize Spec.sectioned [] lines = ps
  induction ps with
  | nil => rfl
  | cons p ps ih =>
    rw [List.filterMap_cons, List.filterMap_cons]
    cases Spec.recordFor "TimingPoints" p with
    | none => exact ih
    | some r => simp only [Option.map_some, List.length_cons]; rw [ih]

end
end GosuPP
