import Verif.Lemmas.ParserFinish

/-! Lines that do nothing; lines of a concatenated text. -/

namespace Go

theorem split_append (c : Char) (a b : Str) : split c (a ++ c :: b) = split c a ++ split c b := by
  induction a with
  | nil => simp [split]
  | cons x xs ih =>
    rw [List.cons_append, split, split]
    split
    · rw [ih]; rfl
    · rw [ih]
      have := GosuPP.split_length c xs
      cases h : split c xs with
      | nil => rw [h] at this; cases this
      | cons p ps => rfl

theorem split_none {c : Char} {s : Str} (h : c ∉ s) : split c s = [s] := by
  induction s with
  | nil => rfl
  | cons x xs ih =>
    rw [split, if_neg (by rintro rfl; simp at h), ih (by intro hc; exact h (List.mem_cons_of_mem _ hc))]

theorem scanPieces_append (max : Nat) (ps qs : List Str) (h : qs ≠ []) :
    scanPieces max (ps ++ qs) = (ps.takeWhile (fun p => decide (byteLen p < max))).map dropCR ++
      (if ps.all (fun p => decide (byteLen p < max)) then scanPieces max qs else []) := by
  induction ps with
  | nil => simp
  | cons p ps ih =>
    have hne : ps ++ qs ≠ [] := by simp [h]
    rw [List.cons_append]
    rw [scanPieces.eq_3 _ _ _ (by intro hc; exact absurd hc hne)]
    by_cases hp : byteLen p < max
    · rw [if_neg (by omega), ih, List.takeWhile_cons_of_pos (by simpa using hp)]
      simp [hp]
    · rw [if_pos (by omega), List.takeWhile_cons_of_neg (by simpa using hp)]
      simp [hp]

theorem split_ne_nil (c : Char) (s : Str) : split c s ≠ [] := by
  have := GosuPP.split_length c s
  intro h; rw [h] at this; cases this

/-- The lines of a text that starts with complete lines `a`. -/
theorem scanLines_append (max : Nat) (a b : Str) :
    scanLines max (a ++ '\n' :: b) = scanLines max (a ++ ['\n']) ++
      (if (split '\n' a).all (fun p => decide (byteLen p < max)) then scanLines max b else []) := by
  unfold scanLines
  rw [split_append, split_append, scanPieces_append _ _ _ (split_ne_nil _ _),
    scanPieces_append _ _ _ (split_ne_nil _ _)]
  have : scanPieces max (split '\n' []) = [] := rfl
  rw [this]
  simp

theorem scanLines_cons (max : Nat) (c b : Str) (hn : '\n' ∉ c) (hl : byteLen c < max) :
    scanLines max (c ++ '\n' :: b) = dropCR c :: scanLines max b := by
  rw [scanLines_append]
  unfold scanLines
  rw [split_append, split_none hn, scanPieces_append _ _ _ (split_ne_nil _ _)]
  have : scanPieces max (split '\n' []) = [] := rfl
  simp [hl, this]

theorem trimRightBy_head (p : Char → Bool) (c : Char) (s : Str) (h : p c = false) :
    (trimRightBy p (c :: s)).head? = some c := by
  unfold trimRightBy
  rw [List.reverse_cons]
  generalize s.reverse = r
  induction r with
  | nil => simp [h]
  | cons x xs ih =>
    rw [List.cons_append, List.dropWhile_cons]
    split
    · exact ih
    · simp

theorem dropCR_cons (a b : Char) (s : Str) (hb : b ≠ '\r') :
    ∃ s', dropCR (a :: b :: s) = a :: b :: s' := by
  unfold dropCR
  split
  · rename_i r hr
    have e : a :: b :: s = r.reverse ++ ['\r'] := by
      have := congrArg List.reverse hr
      simpa using this
    cases hrev : r.reverse with
    | nil => rw [hrev] at e; simp at e
    | cons x xs =>
      rw [hrev] at e
      cases xs with
      | nil => simp at e; exact absurd e.2.1 hb
      | cons y ys => simp at e; exact ⟨ys, by rw [e.1, e.2.1]⟩
  · exact ⟨s, rfl⟩

end Go

namespace GosuPP
open Go

theorem isComment_iff (line : Str) : Spec.isComment line = true ↔ ∃ s, line = '/' :: '/' :: s := by
  unfold Spec.isComment
  split
  · simp
  · rename_i h
    simp only [Bool.false_eq_true, false_iff, not_exists]
    intro s hs
    exact h s hs

theorem header_comment {line : Str} (h : Spec.isComment line = true) : Spec.header line = none := by
  obtain ⟨s, rfl⟩ := (isComment_iff _).mp h
  unfold Spec.header
  simp only
  rw [if_neg]
  unfold trimSpace
  rw [List.dropWhile_cons_of_neg (by decide), trimRightBy_head _ _ _ (by decide)]
  decide

theorem dropCR_comment {c : Str} (h : Spec.isComment c = true) : Spec.isComment (dropCR c) = true := by
  obtain ⟨s, rfl⟩ := (isComment_iff _).mp h
  obtain ⟨s', hs⟩ := dropCR_cons '/' '/' s (by decide)
  rw [hs]; rfl

variable {S D : Type} [GoFloat S] [GoFloat D] [GoConv S D] [GoLibm D]

theorem parseInSection_inert (fuel : Nat) {sec line : Str} (st : ParseState S D)
    (hk : kvSection sec → Spec.keyValue line = none)
    (hr : recSection sec → Spec.fields line = none) :
    parseInSection fuel sec line st = .ok st := by
  unfold parseInSection
  simp only [tokenize2_eq, tokenize_eq]
  by_cases h1 : sec = "General".toList
  · rw [if_pos h1, hk (Or.inl h1)]; rfl
  rw [if_neg h1]
  by_cases h2 : sec = "Metadata".toList
  · rw [if_pos h2, hk (Or.inr (Or.inl h2))]; rfl
  rw [if_neg h2]
  by_cases h3 : sec = "Difficulty".toList
  · rw [if_pos h3, hk (Or.inr (Or.inr h3))]; rfl
  rw [if_neg h3]
  by_cases h4 : sec = "Events".toList
  · rw [if_pos h4, hr (Or.inl h4)]; rfl
  rw [if_neg h4]
  by_cases h5 : sec = "TimingPoints".toList
  · rw [if_pos h5, hr (Or.inr (Or.inl h5))]; rfl
  rw [if_neg h5]
  by_cases h6 : sec = "HitObjects".toList
  · rw [if_pos h6, hr (Or.inr (Or.inr h6))]; rfl
  rw [if_neg h6]
  rfl

theorem parseLine_comment (fuel : Nat) (st : ParseState S D) {c : Str}
    (h : Spec.isComment c = true) : parseLine fuel st c = .ok st := by
  rw [parseLine_eq, header_comment h]
  have hf : parseFormat c st.beatMap = st.beatMap := by
    obtain ⟨s, rfl⟩ := (isComment_iff _).mp h
    unfold parseFormat
    rw [if_neg]
    have : hasPrefix ('/' :: '/' :: s) formatPrefix = false := rfl
    rw [this]; decide
  simp only [hf]
  refine parseInSection_inert fuel st (fun _ => ?_) (fun _ => ?_)
  · unfold Spec.keyValue; rw [h]; rfl
  · unfold Spec.fields; rw [h]; rfl

theorem parseLines_append (fuel : Nat) (l1 l2 : List Str) (st : ParseState S D) :
    parseLines fuel (l1 ++ l2) st = (parseLines fuel l1 st >>= parseLines fuel l2) := by
  induction l1 generalizing st with
  | nil => rfl
  | cons l ls ih =>
    rw [List.cons_append, parseLines, parseLines]
    cases parseLine fuel st l with
    | error e => rfl
    | ok st1 => exact ih st1

/-- The section a line of text would be in after the given lines. -/
theorem parseLines_section {fuel : Nat} {lines : List Str} {st st' : ParseState S D}
    (h : parseLines fuel lines st = .ok st') :
    st'.currentSection = (lines.filterMap Spec.header).getLast?.getD st.currentSection := by
  induction lines generalizing st with
  | nil => cases h; rfl
  | cons l ls ih =>
    rw [parseLines, parseLine_eq] at h
    rw [List.filterMap_cons]
    cases hh : Spec.header l with
    | some s =>
      rw [hh] at h
      have := ih h
      simp only at this ⊢
      rw [this, List.getLast?_cons]
      rfl
    | none =>
      rw [hh] at h
      obtain ⟨st1, hp, h⟩ := bind_ok h
      have hs := parseInSection_step hp
      have hsec : st1.currentSection = st.currentSection := by
        cases hs <;> rename_i e <;> subst_vars <;> rfl
      rw [ih h, hsec]

end GosuPP
