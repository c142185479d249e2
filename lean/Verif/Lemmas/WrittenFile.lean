import Verif.Lemmas.Written

/-!
# The lines of a written file
-/

namespace GosuPP
open Go Spec
variable {f : File}

theorem word_plain {s : Str} (h : Simple s) : '\n' ∉ s ∧ '\r' ∉ s := ⟨(simple_props h).2.2.1, (simple_props h).2.2.2⟩

theorem general_good (hf : f.Good) : ∀ p ∈ f.general, goodKey p.1 = true ∧ '\n' ∉ p.2 ∧ '\r' ∉ p.2 := by
  intro p hp
  simp only [File.general, List.mem_cons, List.not_mem_nil, or_false] at hp
  rcases hp with rfl | rfl | rfl | rfl | rfl
  · exact ⟨by dsimp only; decide, hf.audio.1, hf.audio.2.1⟩
  · exact ⟨by dsimp only; decide, by decide, by decide⟩
  · exact ⟨by dsimp only; decide, word_plain (simple_showInt _)⟩
  · exact ⟨by dsimp only; decide, word_plain (simple_show _)⟩
  · exact ⟨by dsimp only; decide, word_plain (simple_showInt _)⟩

theorem metadata_good (hf : f.Good) : ∀ p ∈ f.metadata, goodKey p.1 = true ∧ '\n' ∉ p.2 ∧ '\r' ∉ p.2 := by
  intro p hp
  simp only [File.metadata, List.mem_cons, List.not_mem_nil, or_false] at hp
  rcases hp with rfl | rfl | rfl | rfl | rfl | rfl | rfl | rfl | rfl | rfl
  · exact ⟨by dsimp only; decide, hf.title.1, hf.title.2.1⟩
  · exact ⟨by dsimp only; decide, hf.titleUnicode.1, hf.titleUnicode.2.1⟩
  · exact ⟨by dsimp only; decide, hf.artist.1, hf.artist.2.1⟩
  · exact ⟨by dsimp only; decide, hf.artistUnicode.1, hf.artistUnicode.2.1⟩
  · exact ⟨by dsimp only; decide, hf.creator.1, hf.creator.2.1⟩
  · exact ⟨by dsimp only; decide, by decide, by decide⟩
  · exact ⟨by dsimp only; decide, hf.source.1, hf.source.2.1⟩
  · exact ⟨by dsimp only; decide, hf.tags.1, hf.tags.2.1⟩
  · exact ⟨by dsimp only; decide, word_plain (simple_showInt _)⟩
  · exact ⟨by dsimp only; decide, word_plain (simple_showInt _)⟩

theorem difficulty_good : ∀ p ∈ f.difficulty, goodKey p.1 = true ∧ '\n' ∉ p.2 ∧ '\r' ∉ p.2 := by
  intro p hp
  simp only [File.difficulty, List.mem_cons, List.not_mem_nil, or_false] at hp
  rcases hp with rfl | rfl | rfl | rfl | rfl | rfl <;> exact ⟨by dsimp only; decide, word_plain (simple_show _)⟩

/-- What is known of every line below a header. -/
structure BodyLine (l : Str) : Prop where
  header : header l = none
  noNewline : '\n' ∉ l
  noReturn : '\r' ∉ l
  format : isFormatLine l = false

theorem pair_body {k : String} {v : Str} (hk : goodKey k = true) (hv : '\n' ∉ v ∧ '\r' ∉ v) : BodyLine (File.pair (k, v)) := by
  obtain ⟨h1, -, h3, h4, h5⟩ := pair_props hk hv
  exact ⟨h1, h3, h4, h5⟩

theorem background_line (hf : f.Good) :
    let r := [['0'], ['0'], '"' :: f.background ++ ['"'], ['0'], ['0']]
    fields (join ',' r) = some r ∧ BodyLine (join ',' r) := by
  obtain ⟨h1, h2, h3, h4⟩ := hf.background
  intro r
  have hq : ∀ x, x ∈ '"' :: f.background ++ ['"'] → x = '"' ∨ x ∈ f.background := by
    intro x hx
    simp at hx
    tauto
  have hall : ∀ (x : Char), x ≠ '"' → x ≠ '0' → x ∉ f.background → ∀ p ∈ r, x ∉ p := by
    intro x hx hx0 hxb p hp hxp
    simp only [r, List.mem_cons, List.not_mem_nil, or_false] at hp
    rcases hp with rfl | rfl | rfl | rfl | rfl
    · simp at hxp; exact hx0 hxp
    · simp at hxp; exact hx0 hxp
    · rcases hq x hxp with h | h
      · exact hx h
      · exact hxb h
    · simp at hxp; exact hx0 hxp
    · simp at hxp; exact hx0 hxp
  have hcomma := hall ',' (by decide) (by decide) h3
  have htrim : trimSpace ('"' :: f.background ++ ['"']) = '"' :: f.background ++ ['"'] := by
    unfold trimSpace trimRightBy
    rw [List.cons_append, List.dropWhile_cons_of_neg (by decide), List.reverse_cons, List.reverse_append]
    show (List.dropWhile isSpace ('"' :: (f.background.reverse ++ ['"']))).reverse = _
    rw [List.dropWhile_cons_of_neg (by decide)]
    simp
  refine ⟨?_, ?_, ?_, ?_, ?_⟩
  · rw [show r = ('0' :: []) :: ['0'] :: [ '"' :: f.background ++ ['"'], ['0'], ['0']] from rfl, fields_join (by decide) hcomma]
    simp only [List.map_cons, List.map_nil, htrim, show trimSpace ['0'] = ['0'] by decide]
  · obtain ⟨t, ht⟩ := join_head ',' '0' [] [['0'], '"' :: f.background ++ ['"'], ['0'], ['0']]
    rw [show join ',' r = '0' :: t from ht]
    exact header_none (by decide) (by decide)
  · intro hx
    rcases mem_join hx with hx | ⟨p, hp, hx⟩
    · exact absurd hx (by decide)
    · exact hall '\n' (by decide) (by decide) h1 p hp hx
  · intro hx
    rcases mem_join hx with hx | ⟨p, hp, hx⟩
    · exact absurd hx (by decide)
    · exact hall '\r' (by decide) (by decide) h2 p hp hx
  · obtain ⟨t, ht⟩ := join_head ',' '0' [] [['0'], '"' :: f.background ++ ['"'], ['0'], ['0']]
    rw [show join ',' r = '0' :: t from ht]
    exact format_head (by decide)

theorem record_body {a b : Str} {r : List Str} (hn : ∃ c s, a = c :: s ∧ numChar c) (h : ∀ s ∈ a :: b :: r, Simple s) :
    BodyLine (join ',' (a :: b :: r)) := by
  obtain ⟨-, h2, -, h4, h5, h6⟩ := record_simple hn h
  exact ⟨h2, h4, h5, h6⟩

theorem break_simple (b : Dec × Dec) : ∀ s ∈ [['2'], b.1.show, b.2.show], Simple s := by
  intro s hs
  simp only [List.mem_cons, List.not_mem_nil, or_false] at hs
  rcases hs with rfl | rfl | rfl
  · intro c hc
    simp only [List.mem_singleton] at hc
    subst hc
    exact .inl (.inl (by decide))
  · exact simple_show _
  · exact simple_show _

theorem two_num : ∃ c s, (['2'] : Str) = c :: s ∧ numChar c := ⟨'2', [], rfl, .inl (by decide)⟩

theorem body_lines (hf : f.Good) : ∀ b ∈ f.sections, ∀ l ∈ b.2, BodyLine l := by
  intro b hb l hl
  simp only [File.sections, List.mem_cons, List.not_mem_nil, or_false] at hb
  rcases hb with rfl | rfl | rfl | rfl | rfl | rfl
  · obtain ⟨p, hp, rfl⟩ := List.mem_map.mp hl
    exact pair_body (general_good hf p hp).1 (general_good hf p hp).2
  · obtain ⟨p, hp, rfl⟩ := List.mem_map.mp hl
    exact pair_body (metadata_good hf p hp).1 (metadata_good hf p hp).2
  · obtain ⟨p, hp, rfl⟩ := List.mem_map.mp hl
    exact pair_body (difficulty_good p hp).1 (difficulty_good p hp).2
  · obtain ⟨p, hp, rfl⟩ := List.mem_map.mp hl
    rcases List.mem_cons.mp hp with rfl | hp
    · exact (background_line hf).2
    · obtain ⟨x, -, rfl⟩ := List.mem_map.mp hp
      exact record_body two_num (break_simple x)
  · obtain ⟨p, hp, rfl⟩ := List.mem_map.mp hl
    obtain ⟨r, hr⟩ := timing_record p
    have := timing_simple p
    rw [hr] at this ⊢
    exact record_body (showInt_cons _) this
  · obtain ⟨p, hp, rfl⟩ := List.mem_map.mp hl
    obtain ⟨r, hr⟩ := object_record p
    have := object_simple (hf.objects p hp)
    rw [hr] at this ⊢
    exact record_body (show_cons _) this

theorem section_names : ∀ b ∈ f.sections, header ('[' :: b.1.toList ++ [']']) = some b.1.toList ∧
    isFormatLine ('[' :: b.1.toList ++ [']']) = false ∧ '\n' ∉ ('[' :: b.1.toList ++ [']']) ∧ '\r' ∉ ('[' :: b.1.toList ++ [']']) := by
  intro b hb
  simp only [File.sections, List.mem_cons, List.not_mem_nil, or_false] at hb
  rcases hb with rfl | rfl | rfl | rfl | rfl | rfl <;> dsimp only <;> refine ⟨?_, format_head (by decide), ?_, ?_⟩ <;> decide

theorem sectioned_file (hf : f.Good) : sectioned [] f.lines =
    ([], "osu file format v".toList ++ showInt f.version) :: f.sections.flatMap fun b => b.2.map (b.1.toList, ·) := by
  unfold File.lines
  rw [sectioned]
  have : header ("osu file format v".toList ++ showInt f.version) = none := by
    rw [show "osu file format v".toList = 'o' :: "su file format v".toList by decide, List.cons_append]
    exact header_none (by decide) (by decide)
  rw [this]
  simp only
  rw [sectioned_sections _ _ (fun b hb => (section_names b hb).1) (fun b hb l hl => (body_lines hf b hb l hl).header)]

/-- What a section of the file contributes. -/
theorem file_filterMap {β : Type} (hf : f.Good) (g : Str × Str → Option β) (sec : String) (hs : sec.toList ≠ [])
    (hg : ∀ s l, s ≠ sec.toList → g (s, l) = none) :
    (sectioned [] f.lines).filterMap g =
      ((f.sections.filter (fun b => b.1 = sec)).flatMap (·.2)).filterMap (fun l => g (sec.toList, l)) := by
  rw [sectioned_file hf, List.filterMap_cons, hg _ _ hs.symm, sections_filterMap g sec hg]

/-- The lines of the text are the lines of the file. -/
theorem lines_text (hf : f.Good) : scanLines bufferSize f.text = f.lines := by
  have hall : ∀ l ∈ f.lines, '\n' ∉ l ∧ '\r' ∉ l ∧ byteLen l < bufferSize := by
    intro l hl
    refine ⟨?_, ?_, hf.short l hl⟩
    all_goals
      unfold File.lines at hl
      rcases List.mem_cons.mp hl with rfl | hl
      · intro hx
        rcases List.mem_append.mp hx with hx | hx
        · exact absurd hx (by decide)
        · first
            | exact (word_plain (simple_showInt _)).1 hx
            | exact (word_plain (simple_showInt _)).2 hx
      · obtain ⟨b, hb, hl⟩ := List.mem_flatMap.mp hl
        rcases List.mem_cons.mp hl with rfl | hl
        · first
            | exact (section_names b hb).2.2.1
            | exact (section_names b hb).2.2.2
        · first
            | exact (body_lines hf b hb l hl).noNewline
            | exact (body_lines hf b hb l hl).noReturn
  unfold File.text
  generalize f.lines = ls at hall
  induction ls with
  | nil => rfl
  | cons l ls ih =>
    obtain ⟨h1, h2, h3⟩ := hall l (by simp)
    rw [List.flatMap_cons, List.append_assoc, List.singleton_append, scanLines_cons _ _ _ h1 h3,
      ih (fun x hx => hall x (by simp [hx]))]
    congr 1
    unfold dropCR
    split
    · rename_i r hr
      exact absurd (List.mem_reverse.mp (by rw [hr]; simp)) h2
    · rfl

theorem format_lines (hf : f.Good) :
    f.lines.filter isFormatLine = ["osu file format v".toList ++ showInt f.version] := by
  unfold File.lines
  rw [List.filter_cons_of_pos]
  · congr 1
    rw [List.filter_eq_nil_iff]
    intro l hl
    obtain ⟨b, hb, hl⟩ := List.mem_flatMap.mp hl
    rcases List.mem_cons.mp hl with rfl | hl
    · rw [(section_names b hb).2.1]; decide
    · rw [(body_lines hf b hb l hl).format]; decide
  · unfold isFormatLine
    simp [List.isPrefixOf_iff_prefix]

/-! ### Values and records -/

/-- The values of a key, by the pairs of its section. -/
theorem pairs_values {sec key : String} {ps : List (String × Str)}
    (hp : ∀ p ∈ ps, goodKey p.1 = true ∧ '\n' ∉ p.2 ∧ '\r' ∉ p.2) :
    (ps.map File.pair).filterMap (fun l => valueFor sec key (sec.toList, l)) =
      (ps.filter (fun p => p.1 = key)).map (fun p => trimSpace p.2) := by
  induction ps with
  | nil => rfl
  | cons p ps ih =>
    obtain ⟨h1, h2⟩ := hp p (by simp)
    obtain ⟨-, hk, -⟩ := pair_props h1 h2
    rw [List.map_cons, List.filterMap_cons, ih (fun q hq => hp q (by simp [hq])), valueFor_kv (sec := sec) hk]
    by_cases h : p.1 = key
    · rw [if_pos (by rw [h]), List.filter_cons_of_pos (by simpa using h)]
      rfl
    · rw [if_neg (fun e => h (String.toList_inj.mp e)), List.filter_cons_of_neg (by simpa using h)]

theorem values_general (hf : f.Good) (key : String) : values "General" key f.lines =
    (f.general.filter (fun p => p.1 = key)).map (fun p => trimSpace p.2) := by
  have hs : (f.sections.filter (fun b => b.1 = "General")).flatMap (·.2) = f.general.map File.pair := by
    simp [File.sections]
  unfold values
  rw [file_filterMap hf _ "General" (by decide) (fun s l h => valueFor_other h), hs, pairs_values (general_good hf)]

theorem values_metadata (hf : f.Good) (key : String) : values "Metadata" key f.lines =
    (f.metadata.filter (fun p => p.1 = key)).map (fun p => trimSpace p.2) := by
  have hs : (f.sections.filter (fun b => b.1 = "Metadata")).flatMap (·.2) = f.metadata.map File.pair := by
    simp [File.sections]
  unfold values
  rw [file_filterMap hf _ "Metadata" (by decide) (fun s l h => valueFor_other h), hs, pairs_values (metadata_good hf)]

theorem values_difficulty (hf : f.Good) (key : String) : values "Difficulty" key f.lines =
    (f.difficulty.filter (fun p => p.1 = key)).map (fun p => trimSpace p.2) := by
  have hs : (f.sections.filter (fun b => b.1 = "Difficulty")).flatMap (·.2) = f.difficulty.map File.pair := by
    simp [File.sections]
  unfold values
  rw [file_filterMap hf _ "Difficulty" (by decide) (fun s l h => valueFor_other h), hs, pairs_values difficulty_good]

theorem filterMap_some {α β : Type} {l : List α} {g : α → Option β} {h : α → β} (e : ∀ a ∈ l, g a = some (h a)) :
    l.filterMap g = l.map h := by
  induction l with
  | nil => rfl
  | cons a l ih => rw [List.filterMap_cons, e a (by simp), ih (fun b hb => e b (by simp [hb])), List.map_cons]

theorem records_events (hf : f.Good) : records "Events" f.lines = f.events := by
  unfold records
  rw [file_filterMap hf _ "Events" (by decide) (fun s l h => recordFor_other h)]
  have : (f.sections.filter (fun b => b.1 = "Events")).flatMap (·.2) = f.events.map (join ',') := by
    simp [File.sections]
  rw [this, List.filterMap_map]
  conv_rhs => rw [← List.map_id f.events]
  apply filterMap_some
  intro r hr
  rw [Function.comp, recordFor_eq rfl]
  rcases List.mem_cons.mp hr with rfl | hr
  · exact (background_line hf).1
  · obtain ⟨x, -, rfl⟩ := List.mem_map.mp hr
    exact (record_simple two_num (break_simple x)).1

theorem records_timing (hf : f.Good) : records "TimingPoints" f.lines = f.points.map TimingLine.fields ∧
    pointFields f.lines = f.points.map TimingLine.fields := by
  have hs : (f.sections.filter (fun b => b.1 = "TimingPoints")).flatMap (·.2) =
      f.points.map (fun p => join ',' p.fields) := by
    simp [File.sections]
  have key : ∀ p : TimingLine, fields (join ',' p.fields) = some p.fields ∧ split ',' (join ',' p.fields) = p.fields := by
    intro p
    obtain ⟨r, hr⟩ := timing_record p
    have := timing_simple p
    rw [hr] at this ⊢
    obtain ⟨h1, -, h3, -⟩ := record_simple (showInt_cons _) this
    exact ⟨h1, h3⟩
  constructor
  · unfold records
    rw [file_filterMap hf _ "TimingPoints" (by decide) (fun s l h => recordFor_other h), hs, List.filterMap_map]
    apply filterMap_some
    intro p _
    rw [Function.comp, recordFor_eq rfl]
    exact (key p).1
  · unfold pointFields
    rw [file_filterMap hf _ "TimingPoints" (by decide) (fun s l h => by rw [recordFor_other h]; rfl), hs, List.filterMap_map]
    apply filterMap_some
    intro p _
    simp only [Function.comp]
    rw [recordFor_eq rfl, (key p).1, (key p).2]
    rfl

theorem records_objects (hf : f.Good) : records "HitObjects" f.lines = f.objects.map ObjectLine.fields := by
  have hs : (f.sections.filter (fun b => b.1 = "HitObjects")).flatMap (·.2) =
      f.objects.map (fun p => join ',' p.fields) := by
    simp [File.sections]
  unfold records
  rw [file_filterMap hf _ "HitObjects" (by decide) (fun s l h => recordFor_other h), hs, List.filterMap_map]
  apply filterMap_some
  intro p hp
  rw [Function.comp, recordFor_eq rfl]
  obtain ⟨r, hr⟩ := object_record p
  have := object_simple (hf.objects p hp)
  rw [hr] at this ⊢
  exact (record_simple (show_cons _) this).1

end GosuPP
