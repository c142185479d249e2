import Verif.Lemmas.ParserLines
import Verif.Props.Sample

/-!
# Lines without effect: C25
-/

namespace GosuPP.Props
open Go GosuPP
variable {S D : Type} [GoFloat S] [GoFloat D] [GoConv S D] [GoLibm D] [GoSort]

/-- C25. Inserting a comment line anywhere (first, in the middle, last without a newline) does
not change what parsing does, be it a map, an error, a panic or a hang. The line must be shorter
than the buffer of the scanner, as any line must. -/
theorem C25_comment (fuel : Nat) (a b c : Str) (hc : Spec.isComment c = true) (hn : '\n' ∉ c)
    (hl : byteLen c < bufferSize) :
    (parseText fuel (a ++ '\n' :: (c ++ '\n' :: b)) : Result (Option (BeatMap S D))) =
      parseText fuel (a ++ '\n' :: b) ∧
    (parseText fuel (c ++ '\n' :: b) : Result (Option (BeatMap S D))) = parseText fuel b ∧
    (parseText fuel (a ++ '\n' :: c) : Result (Option (BeatMap S D))) = parseText fuel (a ++ ['\n']) := by
  have hd := dropCR_comment hc
  have skip : ∀ (ls : List Str) (st : ParseState S D),
      parseLines fuel (dropCR c :: ls) st = parseLines fuel ls st := by
    intro ls st
    rw [parseLines, parseLine_comment fuel st hd]
    rfl
  refine ⟨?_, ?_, ?_⟩
  · unfold parseText parseFromLines
    rw [scanLines_append, scanLines_append _ a b, scanLines_cons _ _ _ hn hl, parseLines_append,
      parseLines_append]
    split
    · congr 2
      funext st
      rw [skip]
    · rfl
  · unfold parseText parseFromLines
    rw [scanLines_cons _ _ _ hn hl, skip]
  · unfold parseText parseFromLines
    rw [scanLines_append]
    have h1 : scanLines bufferSize c = [dropCR c] := by
      unfold scanLines
      rw [split_none hn]
      have hne : c.isEmpty = false := by
        obtain ⟨s, rfl⟩ := (isComment_iff _).mp hc
        rfl
      rw [scanPieces, hne, if_neg (by decide), if_neg (by omega)]
    rw [h1, parseLines_append]
    congr 1
    split
    · have : ∀ st : ParseState S D, parseLines fuel [dropCR c] st = .ok st := by
        intro st; rw [skip]; rfl
      cases parseLines fuel (scanLines bufferSize (a ++ ['\n'])) (ParseState.init : ParseState S D) with
      | error e => rfl
      | ok st => exact this st
    · cases parseLines fuel (scanLines bufferSize (a ++ ['\n'])) (ParseState.init : ParseState S D) <;> rfl

omit [GoSort] in
/-- Lines of an unknown section. -/
theorem unknown_inert (fuel : Nat) {sec : Str} (hs : sec ∉ Spec.knownSections) (ls : List Str)
    (hh : ∀ l ∈ ls, Spec.header l = none) (hf : ∀ l ∈ ls, Spec.isFormatLine l = false)
    (st : ParseState S D) (hst : st.currentSection = sec) : parseLines fuel ls st = .ok st := by
  induction ls with
  | nil => rfl
  | cons l ls ih =>
    have e : parseFormat l st.beatMap = st.beatMap := by
      unfold parseFormat
      rw [if_neg]
      intro hc
      have := hf l (by simp)
      unfold Spec.isFormatLine at this
      unfold hasPrefix formatPrefix at hc
      rw [this] at hc; cases hc
    rw [parseLines, parseLine_eq, hh l (by simp)]
    simp only [e]
    subst hst
    show (parseInSection fuel st.currentSection l st >>= parseLines fuel ls) = _
    rw [parseInSection_inert fuel st]
    · exact ih (fun l h => hh l (by simp [h])) (fun l h => hf l (by simp [h]))
    · intro hk
      exfalso; apply hs
      rcases hk with h | h | h <;> rw [h] <;> decide
    · intro hk
      exfalso; apply hs
      rcases hk with h | h | h <;> rw [h] <;> decide

/-- C25. Text inserted after the complete lines `a` while an unknown section (or none) is in
force, none of whose lines is a header, a format line or too long, does not change what parsing
does. -/
theorem C25_unknown_section (fuel : Nat) (a x b : Str)
    (hs : Spec.sectionAfter (scanLines bufferSize (a ++ ['\n'])) ∉ Spec.knownSections)
    (hx : ∀ l ∈ split '\n' x, byteLen l < bufferSize)
    (hh : ∀ l ∈ scanLines bufferSize (x ++ ['\n']), Spec.header l = none ∧ Spec.isFormatLine l = false) :
    (parseText fuel (a ++ '\n' :: (x ++ '\n' :: b)) : Result (Option (BeatMap S D))) =
      parseText fuel (a ++ '\n' :: b) := by
  unfold parseText parseFromLines
  rw [scanLines_append, scanLines_append _ a b, scanLines_append _ x b, parseLines_append,
    parseLines_append]
  split
  · have hall : ((split '\n' x).all fun p => decide (byteLen p < bufferSize)) = true := by
      simpa using hx
    rw [if_pos hall]
    congr 1
    cases h : parseLines fuel (scanLines bufferSize (a ++ ['\n'])) (ParseState.init : ParseState S D) with
    | error e => rfl
    | ok st =>
      show parseLines fuel _ st = parseLines fuel _ st
      rw [parseLines_append, unknown_inert fuel hs _ (fun l h => (hh l h).1) (fun l h => (hh l h).2) st]
      · rfl
      · rw [parseLines_section h]; rfl
  · rfl

/-- The sample has an unknown section `[Extra]` with a line in it, and a comment. A format line
there is not inert: it counts in every section. -/
example : Spec.header "[Extra]".toList = some "Extra".toList ∧
    "Extra".toList ∉ Spec.knownSections ∧
    Spec.sectionAfter (scanLines bufferSize "[Extra]\n".toList) = "Extra".toList ∧
    Spec.isComment "// a comment".toList = true := by
  refine ⟨by decide +kernel, by decide +kernel, by decide +kernel, by decide +kernel⟩

example :
    Sample.observe "[Metadata]\nTitle:a\n[Extra]\nosu file format v3\n[TimingPoints]\n0,500\n".toList
      (fun m => m.fileVersion) = some 3 ∧
    Sample.observe "[Metadata]\nTitle:a\n[Extra]\n[TimingPoints]\n0,500\n".toList
      (fun m => m.fileVersion) = some 0 := by
  refine ⟨by decide +kernel, by decide +kernel⟩

end GosuPP.Props
