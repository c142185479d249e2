import Verif.Lemmas.ParserLines
import Verif.Props.Sample

/-!
# C61: line endings and blank lines
-/

namespace GosuPP
open Go

/-- The text with Windows line endings instead of Unix ones. -/
def Spec.crlf (s : Str) : Str := s.flatMap fun c => if c = '\n' then ['\r', '\n'] else [c]

/-- White space other than a line feed. -/
def Spec.isBlank (s : Str) : Prop := ∀ c ∈ s, isSpace c = true ∧ c ≠ '\n'

private theorem dropCR_cr (p : Str) : dropCR (p ++ ['\r']) = p := by
  unfold dropCR
  simp

private theorem dropCR_none {p : Str} (h : '\r' ∉ p) : dropCR p = p := by
  unfold dropCR
  split
  · rename_i r hr
    exact absurd (List.mem_reverse.mp (hr ▸ List.mem_cons_self)) h
  · rfl

private theorem crlf_append (a b : Str) : Spec.crlf (a ++ b) = Spec.crlf a ++ Spec.crlf b := by
  simp [Spec.crlf]

private theorem crlf_none {p : Str} (h : '\n' ∉ p) : Spec.crlf p = p := by
  induction p with
  | nil => rfl
  | cons c p ih =>
    have : c ≠ '\n' := by rintro rfl; simp at h
    have e : Spec.crlf (c :: p) = c :: Spec.crlf p := by simp [Spec.crlf, this]
    rw [e, ih (by intro hc; exact h (by simp [hc]))]

private theorem dropWhile_all {p : Char → Bool} {l : Str} (h : ∀ x ∈ l, p x = true) : l.dropWhile p = [] := by
  induction l with
  | nil => rfl
  | cons a l ih =>
    rw [List.dropWhile_cons_of_pos (h a (by simp)), ih fun x hx => h x (by simp [hx])]

/-- Induction over the lines of a text. -/
private theorem line_induction {P : Str → Prop} (last : ∀ p, '\n' ∉ p → P p) (step : ∀ p s, '\n' ∉ p → P s → P (p ++ '\n' :: s)) (s : Str) : P s := by
  have key : ∀ (n : Nat) (s : Str), s.length ≤ n → P s := by
    intro n
    induction n with
    | zero =>
      intro s hs
      have : s = [] := List.length_eq_zero_iff.mp (by omega)
      subst this
      exact last [] (by simp)
    | succ n ih =>
      intro s hs
      by_cases h : '\n' ∈ s
      · obtain ⟨p, q, rfl, hp⟩ := List.eq_append_cons_of_mem h
        refine step p q hp (ih q ?_)
        simp at hs
        omega
      · exact last s h
  exact key s.length s le_rfl

private theorem scan_crlf (max : Nat) (s : Str) (hr : '\r' ∉ s) (hl : ∀ p ∈ split '\n' s, byteLen p + 1 < max) :
    scanLines max (Spec.crlf s) = scanLines max s := by
  revert hr hl
  refine line_induction (P := fun s => '\r' ∉ s → (∀ p ∈ split '\n' s, byteLen p + 1 < max) →
    scanLines max (Spec.crlf s) = scanLines max s) ?_ ?_ s
  · intro p hp hr hl
    rw [crlf_none hp]
  · intro p s hp ih hr hl
    rw [split_append, split_none hp] at hl
    have h1 : byteLen p + 1 < max := hl p (by simp)
    have hr1 : '\r' ∉ p := by intro h; exact hr (by simp [h])
    have e : Spec.crlf (p ++ '\n' :: s) = (p ++ ['\r']) ++ '\n' :: Spec.crlf s := by
      rw [crlf_append, crlf_none hp]
      simp [Spec.crlf]
    have hb : byteLen (p ++ ['\r']) = byteLen p + 1 := by
      unfold byteLen
      simp
      decide
    rw [e, scanLines_cons _ _ _ (by simpa using hp) (by omega), scanLines_cons _ _ _ hp (by omega), dropCR_cr, dropCR_none hr1,
      ih (by intro h; exact hr (by simp [h])) (fun q hq => hl q (by simp [hq]))]

variable {S D : Type} [GoFloat S] [GoFloat D] [GoConv S D] [GoSort] [GoLibm D]

/-- C61. A file without carriage returns is read in the same way after its line endings are changed to those of Windows,
as long as no line comes close to 10 MiB. -/
theorem C61_crlf (fuel : Nat) (s : Str) (hr : '\r' ∉ s) (hl : ∀ p ∈ split '\n' s, byteLen p + 1 < bufferSize) :
    (parseText fuel (Spec.crlf s) : Result (Option (BeatMap S D))) = parseText fuel s := by
  unfold parseText
  rw [scan_crlf _ _ hr hl]

omit [GoSort] in
private theorem parseLine_plain (fuel : Nat) (st : ParseState S D) {l : Str} (hh : Spec.header l = none) (hf : Spec.isFormatLine l = false)
    (h1 : ':' ∉ l) (h2 : ',' ∉ l) : parseLine fuel st l = .ok st := by
  rw [parseLine_eq, hh]
  have e : parseFormat l st.beatMap = st.beatMap := by
    unfold parseFormat
    have : hasPrefix l formatPrefix = Spec.isFormatLine l := rfl
    rw [this, hf]; rfl
  simp only [e]
  refine parseInSection_inert fuel st (fun _ => ?_) (fun _ => ?_)
  · unfold Spec.keyValue
    have : l.dropWhile (· != ':') = [] := by
      refine dropWhile_all ?_
      intro c hc
      simp only [bne_iff_ne, ne_eq]
      rintro rfl
      exact h1 hc
    rw [this]
    split <;> rfl
  · unfold Spec.fields
    have : l.contains ',' = false := by simpa using h2
    rw [this]
    simp

omit [GoSort] in
private theorem parseLines_plain (fuel : Nat) (st : ParseState S D) {l : Str} (hh : Spec.header l = none) (hf : Spec.isFormatLine l = false)
    (h1 : ':' ∉ l) (h2 : ',' ∉ l) (ls : List Str) : parseLines fuel (l :: ls) st = parseLines fuel ls st := by
  rw [parseLines, parseLine_plain fuel st hh hf h1 h2]
  rfl

/-- C61. Text without colons and commas that is neither a section header nor a format line can be inserted as a
line anywhere. -/
theorem C61_plain (fuel : Nat) (a b c : Str) (hn : '\n' ∉ c) (hl : byteLen c < bufferSize) (hh : Spec.header (dropCR c) = none)
    (hf : Spec.isFormatLine (dropCR c) = false) (h1 : ':' ∉ c) (h2 : ',' ∉ c) :
    (parseText fuel (a ++ '\n' :: (c ++ '\n' :: b)) : Result (Option (BeatMap S D))) = parseText fuel (a ++ '\n' :: b) ∧
    (parseText fuel (c ++ '\n' :: b) : Result (Option (BeatMap S D))) = parseText fuel b := by
  have hsub : ∀ x ∈ dropCR c, x ∈ c := by
    intro x hx
    unfold dropCR at hx
    split at hx
    · rename_i r hr
      rw [← List.mem_reverse, hr]
      exact List.mem_cons_of_mem _ (List.mem_reverse.mp hx)
    · exact hx
  have skip : ∀ (ls : List Str) (st : ParseState S D), parseLines fuel (dropCR c :: ls) st = parseLines fuel ls st :=
    fun ls st => parseLines_plain fuel st hh hf (fun h => h1 (hsub _ h)) (fun h => h2 (hsub _ h)) ls
  constructor
  · unfold parseText parseFromLines
    rw [scanLines_append, scanLines_append _ a b, scanLines_cons _ _ _ hn hl]
    split
    · rw [parseLines_append, parseLines_append]
      cases parseLines fuel (scanLines bufferSize (a ++ ['\n'])) (ParseState.init : ParseState S D) with
      | error e => rfl
      | ok st =>
        show (parseLines fuel _ st >>= _) = (parseLines fuel _ st >>= _)
        rw [skip]
    · rfl
  · unfold parseText parseFromLines
    rw [scanLines_cons _ _ _ hn hl, skip]

private theorem blank_trim {c : Str} (h : ∀ x ∈ c, isSpace x = true) : trimSpace c = [] := by
  unfold trimSpace
  rw [dropWhile_all h]
  rfl

private theorem blank_plain {c : Str} (h : Spec.isBlank c) :
    '\n' ∉ c ∧ Spec.header (dropCR c) = none ∧ Spec.isFormatLine (dropCR c) = false ∧ ':' ∉ c ∧ ',' ∉ c := by
  have hsub : ∀ x ∈ dropCR c, x ∈ c := by
    intro x hx
    unfold dropCR at hx
    split at hx
    · rename_i r hr
      rw [← List.mem_reverse, hr]
      exact List.mem_cons_of_mem _ (List.mem_reverse.mp hx)
    · exact hx
  refine ⟨fun hc => (h _ hc).2 rfl, ?_, ?_, fun hc => absurd (h _ hc).1 (by decide), fun hc => absurd (h _ hc).1 (by decide)⟩
  · unfold Spec.header
    rw [blank_trim fun x hx => (h x (hsub x hx)).1]
    rfl
  · unfold Spec.isFormatLine
    cases hd : dropCR c with
    | nil => rfl
    | cons x xs =>
      have hx := (h x (hsub x (by rw [hd]; simp))).1
      have : 'o' ≠ x := by rintro rfl; exact absurd hx (by decide)
      have e : "osu file format v".toList = 'o' :: "su file format v".toList := by decide
      rw [e, List.isPrefixOf_cons₂]
      simp [this]

/-- C61. Blank lines can be inserted anywhere. -/
theorem C61_blank (fuel : Nat) (a b c : Str) (hc : Spec.isBlank c) (hl : byteLen c < bufferSize) :
    (parseText fuel (a ++ '\n' :: (c ++ '\n' :: b)) : Result (Option (BeatMap S D))) = parseText fuel (a ++ '\n' :: b) ∧
    (parseText fuel (c ++ '\n' :: b) : Result (Option (BeatMap S D))) = parseText fuel b := by
  obtain ⟨h1, h2, h3, h4, h5⟩ := blank_plain hc
  exact C61_plain fuel a b c h1 hl h2 h3 h4 h5

/-- C61. A line feed at the end of the file makes no difference. -/
theorem C61_final (fuel : Nat) (s : Str) : (parseText fuel (s ++ ['\n']) : Result (Option (BeatMap S D))) = parseText fuel s := by
  have key : ∀ s : Str, scanLines bufferSize (s ++ ['\n']) = scanLines bufferSize s ∨
      scanLines bufferSize (s ++ ['\n']) = scanLines bufferSize s ++ [[]] := by
    intro s
    refine line_induction (P := fun s => scanLines bufferSize (s ++ ['\n']) = scanLines bufferSize s ∨
      scanLines bufferSize (s ++ ['\n']) = scanLines bufferSize s ++ [[]]) ?_ ?_ s
    · intro p hp
      unfold scanLines
      rw [split_append, split_none hp]
      show scanPieces bufferSize (p :: [[]]) = _ ∨ scanPieces bufferSize (p :: [[]]) = _
      rw [scanPieces.eq_3 _ _ _ (by simp)]
      have e : scanPieces bufferSize [[]] = [] := rfl
      rw [e, scanPieces.eq_2]
      cases p with
      | nil => right; decide
      | cons c p => left; simp
    · intro p s hp ih
      have e : (p ++ '\n' :: s) ++ ['\n'] = p ++ '\n' :: (s ++ ['\n']) := by simp
      rw [e]
      by_cases hb : byteLen p < bufferSize
      · rw [scanLines_cons _ _ _ hp hb, scanLines_cons _ _ _ hp hb]
        rcases ih with ih | ih
        · left; rw [ih]
        · right; rw [ih]; rfl
      · left
        rw [scanLines_append, scanLines_append _ p s, split_none hp]
        simp [hb]
  unfold parseText parseFromLines
  rcases key s with h | h
  · rw [h]
  · rw [h, parseLines_append]
    cases parseLines fuel (scanLines bufferSize s) (ParseState.init : ParseState S D) with
    | error e => rfl
    | ok st =>
      show (parseLines fuel [[]] st >>= _) = _
      rw [parseLines_plain fuel st (by decide) (by decide) (by simp) (by simp)]
      rfl

/-! ### Concrete cases -/

/-- C61: the sample file meets the hypotheses, and conversion changes it. -/
example : ('\r' ∉ Sample.text ∧ ∀ p ∈ split '\n' Sample.text, byteLen p + 1 < bufferSize) ∧
    Sample.text.length < (Spec.crlf Sample.text).length := by decide +kernel

/-- C61: a tab, a space and a carriage return are blank; a title without a colon is plain. -/
example : Spec.isBlank "\t \r".toList ∧ Spec.header (dropCR "no title".toList) = none ∧ Spec.isFormatLine "no title".toList = false := by
  refine ⟨?_, by decide, by decide⟩
  unfold Spec.isBlank
  decide

end GosuPP
