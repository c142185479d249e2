import Verif.Lemmas.Numbers
import Verif.Lemmas.FileValues
import Verif.Lemmas.ParserLines
import Verif.Lemmas.Malformed

/-!
# The sections, values and records of a written file
-/

namespace GosuPP
open Go Spec

/-! ### Joined fields -/

theorem split_join (c : Char) : ∀ {ps : List Str}, ps ≠ [] → (∀ p ∈ ps, c ∉ p) → split c (join c ps) = ps
  | [], h, _ => absurd rfl h
  | [a], _, h => split_none (h a (by simp))
  | a :: b :: r, _, h => by
    rw [join, split_append, split_none (h a (by simp)), split_join c (by simp) (fun p hp => h p (by simp [hp]))]
    rfl

theorem mem_join {c x : Char} : ∀ {ps : List Str}, x ∈ join c ps → x = c ∨ ∃ p ∈ ps, x ∈ p
  | [], h => by cases h
  | [a], h => .inr ⟨a, by simp, h⟩
  | a :: b :: r, h => by
    rw [join] at h
    rcases List.mem_append.mp h with h | h
    · exact .inr ⟨a, by simp, h⟩
    · rcases List.mem_cons.mp h with h | h
      · exact .inl h
      · rcases mem_join h with h | ⟨p, hp, h⟩
        · exact .inl h
        · exact .inr ⟨p, by simp [hp], h⟩

theorem join_head (c : Char) (x : Char) (s : Str) (r : List Str) : ∃ t, join c ((x :: s) :: r) = x :: t := by
  cases r with
  | nil => exact ⟨s, rfl⟩
  | cons b r => exact ⟨s ++ c :: join c (b :: r), rfl⟩

theorem trimSpace_plain {s : Str} (h : ∀ c ∈ s, isSpace c = false) : trimSpace s = s := by
  have e : ∀ l : Str, (∀ c ∈ l, isSpace c = false) → l.dropWhile isSpace = l := by
    intro l hl
    cases l with
    | nil => rfl
    | cons c l => rw [List.dropWhile_cons_of_neg (by simp [hl c (by simp)])]
  unfold trimSpace trimRightBy
  rw [e s h, e s.reverse (fun c hc => h c (by simpa using hc)), List.reverse_reverse]

theorem trimSpace_blank (s : Str) : trimSpace (' ' :: s) = trimSpace s := by
  unfold trimSpace
  rw [List.dropWhile_cons_of_pos (by decide)]

theorem header_none {c : Char} {s : Str} (h : isSpace c = false) (hc : c ≠ '[') : header (c :: s) = none := by
  unfold header
  simp only
  rw [if_neg]
  unfold trimSpace
  rw [List.dropWhile_cons_of_neg (by simp [h]), trimRightBy_head _ _ _ h]
  simpa using hc

theorem fields_join {c : Char} {s : Str} {b : Str} {r : List Str} (hc : c ≠ '/')
    (h : ∀ p ∈ (c :: s) :: b :: r, ',' ∉ p) :
    fields (join ',' ((c :: s) :: b :: r)) = some (((c :: s) :: b :: r).map trimSpace) := by
  unfold fields
  rw [split_join ',' (by simp) h, if_neg]
  simp only [Bool.or_eq_true, Bool.not_eq_true', not_or]
  constructor
  · intro hcm
    obtain ⟨t, ht⟩ := (isComment_iff _).mp hcm
    rw [join] at ht
    exact hc (List.cons.inj ht).1
  · rw [join]
    simp

/-! ### Numbers have no special characters -/

theorem numChar_props {c : Char} (h : numChar c) :
    isSpace c = false ∧ c ≠ ',' ∧ c ≠ '\n' ∧ c ≠ '\r' ∧ c ≠ '/' ∧ c ≠ '[' ∧ c ≠ ':' ∧ c ≠ '|' ∧ c ≠ 'o' := by
  rcases h with h | rfl | rfl
  · refine ⟨?_, ?_, ?_, ?_, ?_, ?_, ?_, ?_, ?_⟩
    · simp only [isDigit, Bool.and_eq_true, decide_eq_true_eq] at h
      unfold isSpace
      simp only [Bool.or_eq_false_iff, Bool.and_eq_false_iff, decide_eq_false_iff_not, beq_eq_false_iff_ne]
      and_intros <;> omega
    all_goals rintro rfl; exact absurd h (by decide)
  · decide
  · decide

theorem trimSpace_show (d : Dec) : trimSpace d.show = d.show :=
  trimSpace_plain fun c hc => (numChar_props (show_chars d c hc)).1

theorem trimSpace_showInt (n : Int) : trimSpace (showInt n) = showInt n :=
  trimSpace_plain fun c hc => (numChar_props (showInt_chars n c hc)).1

theorem show_cons (d : Dec) : ∃ c s, d.show = c :: s ∧ numChar c := by
  cases h : d.show with
  | nil => exact absurd h (show_ne d)
  | cons c s => exact ⟨c, s, rfl, show_chars d c (by rw [h]; simp)⟩

theorem showInt_cons (n : Int) : ∃ c s, showInt n = c :: s ∧ numChar c := by
  rw [showInt_dec]; exact show_cons _

/-- Fields made of characters of numbers and the given others. -/
def Simple (s : Str) : Prop := ∀ c ∈ s, numChar c ∨ c = ':' ∨ c = '|' ∨ c = 'L' ∨ c = 'P' ∨ c = 'B' ∨ c = 'C'

theorem simple_show (d : Dec) : Simple d.show := fun c hc => .inl (show_chars d c hc)
theorem simple_showInt (n : Int) : Simple (showInt n) := fun c hc => .inl (showInt_chars n c hc)

theorem simple_props {s : Str} (h : Simple s) : trimSpace s = s ∧ ',' ∉ s ∧ '\n' ∉ s ∧ '\r' ∉ s := by
  have key : ∀ c ∈ s, isSpace c = false ∧ c ≠ ',' ∧ c ≠ '\n' ∧ c ≠ '\r' := by
    intro c hc
    rcases h c hc with h | rfl | rfl | rfl | rfl | rfl | rfl
    · obtain ⟨h1, h2, h3, h4, -⟩ := numChar_props h
      exact ⟨h1, h2, h3, h4⟩
    all_goals decide
  exact ⟨trimSpace_plain fun c hc => (key c hc).1, fun hc => (key _ hc).2.1 rfl, fun hc => (key _ hc).2.2.1 rfl,
    fun hc => (key _ hc).2.2.2 rfl⟩

theorem timing_simple (p : TimingLine) : ∀ s ∈ p.fields, Simple s := by
  intro s hs
  simp only [TimingLine.fields, List.mem_cons, List.not_mem_nil, or_false] at hs
  rcases hs with rfl | rfl | rfl | rfl | rfl | rfl | rfl | rfl
  case inr.inl => exact simple_show _
  case inr.inr.inr.inr.inr.inr.inl =>
    intro c hc
    cases hi : p.inherited <;> simp [hi] at hc <;> subst hc <;> exact .inl (.inl (by decide))
  all_goals exact simple_showInt _

theorem head_simple (h : Head) (k : Int) : ∀ s ∈ h.fields k, Simple s := by
  intro s hs
  simp only [Head.fields, List.mem_cons, List.not_mem_nil, or_false] at hs
  rcases hs with rfl | rfl | rfl | rfl | rfl
  · exact simple_show _
  · exact simple_show _
  all_goals exact simple_showInt _

theorem path_simple (c : Char) (hc : c ∈ ['L', 'P', 'B', 'C']) (ps : List (Dec × Dec)) :
    Simple (join '|' ([c] :: ps.map (fun p => p.1.show ++ ':' :: p.2.show))) := by
  intro x hx
  rcases mem_join hx with rfl | ⟨p, hp, hxp⟩
  · simp
  · rcases List.mem_cons.mp hp with rfl | hp
    · simp only [List.mem_singleton] at hxp
      subst hxp
      simp only [List.mem_cons, List.not_mem_nil, or_false] at hc
      exact .inr (.inr (.inr hc))
    · obtain ⟨q, -, rfl⟩ := List.mem_map.mp hp
      rcases List.mem_append.mp hxp with h | h
      · exact .inl (show_chars _ x h)
      · rcases List.mem_cons.mp h with h | h
        · exact .inr (.inl h)
        · exact .inl (show_chars _ x h)

theorem object_simple {o : ObjectLine} (h : File.GoodObject o) : ∀ s ∈ o.fields, Simple s := by
  intro s hs
  cases o with
  | circle hd => exact head_simple hd 1 s hs
  | spinner hd e =>
    rcases List.mem_append.mp hs with hs | hs
    · exact head_simple hd 8 s hs
    · simp only [List.mem_singleton] at hs
      subst hs
      exact simple_showInt _
  | slider hd c ps r l =>
    rcases List.mem_append.mp hs with hs | hs
    · exact head_simple hd 2 s hs
    · simp only [List.mem_cons, List.not_mem_nil, or_false] at hs
      rcases hs with rfl | rfl | rfl
      · exact path_simple c h.2.2.1 ps
      · exact simple_showInt _
      · exact simple_show _

theorem format_head {c : Char} {t : Str} (h : c ≠ 'o') : isFormatLine (c :: t) = false := by
  unfold isFormatLine
  have e : "osu file format v".toList = 'o' :: "su file format v".toList := by decide
  rw [e]
  generalize "su file format v".toList = u
  rw [List.isPrefixOf_cons_cons]
  simp only [Bool.and_eq_false_iff, beq_eq_false_iff_ne, ne_eq]
  exact .inl fun e => h e.symm

/-- A record that starts with a number and has simple fields. -/
theorem record_simple {a b : Str} {r : List Str} (hn : ∃ c s, a = c :: s ∧ numChar c) (h : ∀ s ∈ a :: b :: r, Simple s) :
    fields (join ',' (a :: b :: r)) = some (a :: b :: r) ∧ header (join ',' (a :: b :: r)) = none ∧
    split ',' (join ',' (a :: b :: r)) = a :: b :: r ∧ '\n' ∉ join ',' (a :: b :: r) ∧ '\r' ∉ join ',' (a :: b :: r) ∧
    isFormatLine (join ',' (a :: b :: r)) = false := by
  obtain ⟨c, s, rfl, hc⟩ := hn
  obtain ⟨h1, -, -, -, h5, h6, -, -, h9⟩ := numChar_props hc
  have hcomma : ∀ p ∈ (c :: s) :: b :: r, ',' ∉ p := fun p hp => (simple_props (h p hp)).2.1
  obtain ⟨t, ht⟩ := join_head ',' c s (b :: r)
  refine ⟨?_, ?_, split_join _ (by simp) hcomma, ?_, ?_, ?_⟩
  · rw [fields_join h5 hcomma]
    congr 1
    conv_rhs => rw [← List.map_id ((c :: s) :: b :: r)]
    exact List.map_congr_left fun p hp => (simple_props (h p hp)).1
  · rw [ht]
    exact header_none h1 h6
  · intro hx
    rcases mem_join hx with hx | ⟨p, hp, hx⟩
    · exact absurd hx (by decide)
    · exact (simple_props (h p hp)).2.2.1 hx
  · intro hx
    rcases mem_join hx with hx | ⟨p, hp, hx⟩
    · exact absurd hx (by decide)
    · exact (simple_props (h p hp)).2.2.2 hx
  · rw [ht]
    exact format_head h9

theorem timing_record (p : TimingLine) : ∃ r, p.fields = showInt p.time :: p.beatLength.show :: r := ⟨_, rfl⟩

theorem object_record (o : ObjectLine) : ∃ r, o.fields = o.head.x.show :: o.head.y.show :: r := by
  cases o <;> exact ⟨_, rfl⟩

/-! ### Keys -/

/-- A key that can stand at the beginning of a line. -/
def goodKey (k : String) : Bool :=
  (match k.toList with
    | c :: _ => c != 'o' && c != '/' && c != '[' && !isSpace c
    | [] => false) && !k.toList.contains ':' && decide (trimSpace k.toList = k.toList) &&
    !k.toList.contains '\n' && !k.toList.contains '\r'

theorem pair_props {k : String} {v : Str} (hk : goodKey k = true) (hv : '\n' ∉ v ∧ '\r' ∉ v) :
    header (File.pair (k, v)) = none ∧ keyValue (File.pair (k, v)) = some (k.toList, trimSpace v) ∧
    '\n' ∉ File.pair (k, v) ∧ '\r' ∉ File.pair (k, v) ∧ isFormatLine (File.pair (k, v)) = false := by
  unfold goodKey at hk
  simp only [Bool.and_eq_true, Bool.not_eq_true', decide_eq_true_eq] at hk
  obtain ⟨⟨⟨⟨h1, h2⟩, h3⟩, h4⟩, h5⟩ := hk
  have h2' : ':' ∉ k.toList := by simpa using h2
  have h4' : '\n' ∉ k.toList := by simpa using h4
  have h5' : '\r' ∉ k.toList := by simpa using h5
  have hmem : ∀ x, x ∈ File.pair (k, v) → x ∈ k.toList ∨ x = ':' ∨ x = ' ' ∨ x ∈ v := by
    intro x hx
    unfold File.pair at hx
    simpa using hx
  refine ⟨?_, ?_, ?_, ?_, ?_⟩
  · unfold File.pair
    cases e : k.toList with
    | nil => rw [e] at h1; cases h1
    | cons c s =>
      rw [e] at h1
      simp only [Bool.and_eq_true, bne_iff_ne, ne_eq, Bool.not_eq_true'] at h1
      exact header_none h1.2 h1.1.2
  · unfold keyValue
    have hcm : isComment (File.pair (k, v)) = false := by
      rw [Bool.eq_false_iff]
      intro hc
      obtain ⟨t, ht⟩ := (isComment_iff _).mp hc
      unfold File.pair at ht
      cases e : k.toList with
      | nil => rw [e] at h1; cases h1
      | cons c s =>
        rw [e] at h1
        simp only [Bool.and_eq_true, bne_iff_ne, ne_eq, Bool.not_eq_true'] at h1
        simp only [e] at ht
        exact h1.1.1.2 (List.cons.inj ht).1
    rw [if_neg (by simp [hcm])]
    have hd : (File.pair (k, v)).dropWhile (· != ':') = ':' :: ' ' :: v := by
      unfold File.pair
      rw [List.dropWhile_append_of_pos (by intro x hx; simp only [bne_iff_ne, ne_eq]; rintro rfl; exact h2' hx)]
      rfl
    have ht : (File.pair (k, v)).takeWhile (· != ':') = k.toList := by
      unfold File.pair
      rw [List.takeWhile_append_of_pos (by intro x hx; simp only [bne_iff_ne, ne_eq]; rintro rfl; exact h2' hx)]
      simp
    rw [hd, ht]
    simp only [h3, trimSpace_blank]
  · intro hx
    rcases hmem _ hx with h | h | h | h
    · exact h4' h
    · exact absurd h (by decide)
    · exact absurd h (by decide)
    · exact hv.1 h
  · intro hx
    rcases hmem _ hx with h | h | h | h
    · exact h5' h
    · exact absurd h (by decide)
    · exact absurd h (by decide)
    · exact hv.2 h
  · unfold File.pair
    cases e : k.toList with
    | nil => rw [e] at h1; cases h1
    | cons c s =>
      rw [e] at h1
      simp only [Bool.and_eq_true, bne_iff_ne, ne_eq, Bool.not_eq_true'] at h1
      exact format_head h1.1.1.1

/-! ### Sections -/

theorem sectioned_body' (cur : Str) (body rest : List Str) (h : ∀ l ∈ body, header l = none) :
    sectioned cur (body ++ rest) = body.map (cur, ·) ++ sectioned cur rest := by
  induction body with
  | nil => rfl
  | cons l ls ih =>
    rw [List.cons_append, sectioned, h l (by simp)]
    simp only [List.map_cons, List.cons_append]
    rw [ih fun x hx => h x (by simp [hx])]

theorem sectioned_sections (cur : Str) (bs : List (String × List Str))
    (hn : ∀ b ∈ bs, header ('[' :: b.1.toList ++ [']']) = some b.1.toList) (h : ∀ b ∈ bs, ∀ l ∈ b.2, header l = none) :
    sectioned cur (bs.flatMap (fun s => ('[' :: s.1.toList ++ [']']) :: s.2)) =
      bs.flatMap fun b => b.2.map (b.1.toList, ·) := by
  induction bs generalizing cur with
  | nil => rfl
  | cons b bs ih =>
    rw [List.flatMap_cons, List.cons_append, sectioned, hn b (by simp)]
    simp only
    rw [sectioned_body' _ _ _ (h b (by simp)), ih _ (fun x hx => hn x (by simp [hx])) (fun x hx => h x (by simp [hx])),
      List.flatMap_cons]

/-- What a section contributes. -/
theorem sections_filterMap {β : Type} (g : Str × Str → Option β) (sec : String)
    (hg : ∀ s l, s ≠ sec.toList → g (s, l) = none) (bs : List (String × List Str)) :
    (bs.flatMap fun b => b.2.map (b.1.toList, ·)).filterMap g =
      ((bs.filter (fun b => b.1 = sec)).flatMap (·.2)).filterMap (fun l => g (sec.toList, l)) := by
  induction bs with
  | nil => rfl
  | cons b bs ih =>
    rw [List.flatMap_cons, List.filterMap_append, ih]
    by_cases hb : b.1 = sec
    · rw [List.filter_cons_of_pos (by simpa using hb), List.flatMap_cons, List.filterMap_append, List.filterMap_map, hb]
      rfl
    · rw [List.filter_cons_of_neg (by simpa using hb)]
      have : (b.2.map (b.1.toList, ·)).filterMap g = [] := by
        rw [List.filterMap_eq_nil_iff]
        intro x hx
        obtain ⟨l, -, rfl⟩ := List.mem_map.mp hx
        exact hg _ _ (fun e => hb (String.toList_inj.mp e))
      rw [this, List.nil_append]

end GosuPP
