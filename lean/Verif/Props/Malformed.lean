import Verif.Lemmas.MalformedFile
import Verif.Props.Sample

/-!
# C24: files that make `ParseFromReader` panic

In any arithmetic. `.error .panic` is a Go panic out of `ParseFromReader`, `.ok none` its error
value.
-/

namespace GosuPP
open Go
variable {S D : Type} [GoFloat S] [GoFloat D] [GoConv S D] [GoSort] [GoLibm D]

/-- A file with a malformed record never yields a map, and never the error value either: whatever
else is in the file, the call panics or does not return. -/
theorem C24_malformed (fuel : Nat) (text : Str) (h : Spec.Malformed (scanLines bufferSize text)) :
    ∃ e, parseText (S := S) (D := D) fuel text = .error e := by
  obtain ⟨p, hp, hb⟩ := (malformed_iff _).mp h
  obtain ⟨e, he⟩ := parseLines_bad (S := S) (D := D) (fuel := fuel) (st := ParseState.init) hp hb
  refine ⟨e, ?_⟩
  unfold parseText parseFromLines
  rw [he]
  rfl

/-- Four files with one malformed record each: a hit object of three fields, a slider with a point
without a colon, a slider with too many end sounds and a background event of two fields. -/
def malformedTexts : List Str :=
  ["[Metadata]\nTitle:a\n[TimingPoints]\n0,500\n[HitObjects]\n1,2,3\n".toList,
   "[Metadata]\nTitle:a\n[TimingPoints]\n0,500\n[HitObjects]\n10,10,1000,2,0,L|20,1,100\n".toList,
   "[Metadata]\nTitle:a\n[TimingPoints]\n0,500\n[HitObjects]\n10,10,1000,2,0,L|20:20,1,100,0|0|0\n".toList,
   "[Events]\n0,0\n".toList]

/-- Whether reading the text panics, in IEEE arithmetic. -/
def panics (text : Str) : Bool :=
  match Sample.parse text with
  | .error .panic => true
  | _ => false

example : malformedTexts.map panics = [true, true, true, true] := by decide +kernel

example : Spec.Malformed (scanLines bufferSize (malformedTexts[0]'(by decide))) := by
  refine .inr ⟨["1".toList, "2".toList, "3".toList], ?_, .inl (.inl ?_)⟩
  · decide +kernel
  · decide

example : Spec.Malformed (scanLines bufferSize (malformedTexts[2]'(by decide))) := by
  refine .inr ⟨["10", "10", "1000", "2", "0", "L|20:20", "1", "100", "0|0|0"].map String.toList, ?_,
    .inr ⟨?_, .inr (.inr ⟨?_, ?_⟩)⟩⟩ <;> decide +kernel

/-- When no slider is an arc or a Bézier curve, malformed records are exactly what makes the call
panic. -/
theorem C24_iff (fuel : Nat) (text : Str)
    (hc : ∀ f ∈ Spec.records "HitObjects" (scanLines bufferSize text), ¬ Spec.CurveRecord f) :
    parseText (S := S) (D := D) fuel text = .error .panic ↔ Spec.Malformed (scanLines bufferSize text) := by
  have hc' : ∀ p ∈ Spec.sectioned [] (scanLines bufferSize text), ¬ SliderLine Spec.CurveRecord p := by
    intro p hp h
    obtain ⟨f, h1, h2⟩ := (sliderLine_iff _ _).mpr ⟨p, hp, h⟩
    exact hc f h1 h2
  rw [malformed_iff]
  unfold parseText parseFromLines
  constructor
  · intro h
    cases hl : parseLines (S := S) (D := D) fuel (scanLines bufferSize text) ParseState.init with
    | ok st =>
      rw [hl] at h
      exact absurd h (finishParse_no_panic hl)
    | error e =>
      rw [hl] at h
      have h : (Except.error e : Result (Option (BeatMap S D))) = .error .panic := h
      cases h
      obtain ⟨p, hp, h | h | h⟩ := parseLines_panic hl
      · exact ⟨p, hp, .inl h⟩
      · exact ⟨p, hp, .inr h⟩
      · obtain ⟨f, h1, h2, h3, h4, -⟩ := h
        exact absurd ⟨f, h1, h2, h3, .inl h4⟩ (hc' p hp)
  · rintro ⟨p, hp, hb⟩
    obtain ⟨e, he⟩ := parseLines_bad (S := S) (D := D) (fuel := fuel) (st := ParseState.init) hp hb
    rcases parseLines_plain (S := S) (D := D) (fuel := fuel) (st := ParseState.init) hc' with ⟨st, h⟩ | h
    · rw [he] at h; cases h
    · rw [h]; rfl

/-- The sample file meets the hypothesis: it has one slider, a straight one. It does not panic, so
it has no malformed record. -/
example : (∀ f ∈ Spec.records "HitObjects" (scanLines bufferSize Sample.text), ¬ Spec.CurveRecord f) ∧
    ¬ Spec.Malformed (scanLines bufferSize Sample.text) := by
  have hc : ∀ f ∈ Spec.records "HitObjects" (scanLines bufferSize Sample.text), ¬ Spec.CurveRecord f := by
    unfold Spec.CurveRecord
    decide +kernel
  refine ⟨hc, fun hm => ?_⟩
  have := (@C24_iff F32 F64 _ _ _ insertionGoSort Sample.libm 100 Sample.text hc).mpr hm
  have hp : panics Sample.text = true := by
    unfold panics Sample.parse
    rw [this]
  revert hp
  decide +kernel

/-- In any file, when the call panics there is a malformed record or a circular arc through three
points. -/
theorem C24_only (fuel : Nat) (text : Str) (h : parseText (S := S) (D := D) fuel text = .error .panic) :
    Spec.Malformed (scanLines bufferSize text) ∨
    ∃ f ∈ Spec.records "HitObjects" (scanLines bufferSize text), Spec.ArcRecord f := by
  rw [malformed_iff, sliderLine_iff]
  unfold parseText parseFromLines at h
  cases hl : parseLines (S := S) (D := D) fuel (scanLines bufferSize text) ParseState.init with
  | ok st =>
    rw [hl] at h
    exact absurd h (finishParse_no_panic hl)
  | error e =>
    rw [hl] at h
    have h : (Except.error e : Result (Option (BeatMap S D))) = .error .panic := h
    cases h
    obtain ⟨p, hp, h | h | h⟩ := parseLines_panic hl
    · exact .inl ⟨p, hp, .inl h⟩
    · exact .inl ⟨p, hp, .inr h⟩
    · exact .inr ⟨p, hp, h⟩

/-- The hypothesis of `C24_only` holds for the second file above. -/
example : Sample.parse (malformedTexts[1]'(by decide)) = .error .panic := by
  have h : panics (malformedTexts[1]'(by decide)) = true := by decide +kernel
  unfold panics at h
  split at h
  · assumption
  · cases h

end GosuPP
