import Verif.Lemmas.Unicode
import Verif.Props.Reader

/-!
# C115: the encoding of a file does not matter

In any arithmetic. `sc` is what the decoder hands on to the scanner: it delivers the decoded file, in whatever portions.
-/

namespace GosuPP
open Go
variable {S D : Type} [GoFloat S] [GoFloat D] [GoConv S D] [GoSort] [GoLibm D]

/-- A file that holds the text `s` in UTF-8 with or without byte order mark or in UTF-16 of either byte order has the effect of the
text. -/
theorem C115_encodings (fuel : Nat) {s : Str} {b : Bytes} (hb : Spec.Encodes s b) (sc : Script)
    (hs : Spec.delivered 0 sc = decodeFile b)
    (h : Spec.ErrorsAlone sc ∨ byteLen ((split '\n' s).getLastD []) ≠ bufferSize) :
    parseReader (S := S) (D := D) fuel sc = parseText fuel s :=
  C27_reader fuel sc s (hs.trans (Unicode.decode_encodes hb)) h

/-- Bytes that are not part of a UTF-8 sequence, as in files of an older encoding, are replaced where they are, and nothing else
changes. -/
theorem C115_garbled (fuel : Nat) {s : Str} {b : Bytes} (hb : Spec.Garbled s b) (hm : ¬ Spec.Marked b) (sc : Script)
    (hs : Spec.delivered 0 sc = decodeFile b)
    (h : Spec.ErrorsAlone sc ∨ byteLen ((split '\n' s).getLastD []) ≠ bufferSize) :
    parseReader (S := S) (D := D) fuel sc = parseText fuel s :=
  C27_reader fuel sc s (hs.trans ((Unicode.decode_unmarked hm).trans (Unicode.decode_garbled hb))) h

/-- Whatever the bytes of a file are, it has the effect of some text; so what holds for all texts holds for all files. -/
theorem C115_total {b : Bytes} (hb : ¬ [0xEF, 0xBB, 0xBF] <+: b) : ∃ s : Str, Spec.utf8 s = decodeFile b ∧
    ∀ (fuel : Nat) (sc : Script), Spec.delivered 0 sc = decodeFile b →
      Spec.ErrorsAlone sc ∨ byteLen ((split '\n' s).getLastD []) ≠ bufferSize →
      parseReader (S := S) (D := D) fuel sc = parseText fuel s := by
  obtain ⟨s, hs⟩ := Unicode.decodeFile_some hb
  exact ⟨s, hs.symm, fun fuel sc hsc h => C27_reader fuel sc s (hsc.trans hs) h⟩

/-- A text with characters of one to four bytes, and its encodings. -/
def mixed : Str := ['a', 'é', '譜', Char.ofNat 0x1D11E]

example : Spec.utf16 false (Char.ofNat 0xFEFF :: mixed) =
    [0xFF, 0xFE, 0x61, 0, 0xE9, 0, 0x5C, 0x8B, 0x34, 0xD8, 0x1E, 0xDD] ∧
    Spec.utf16 true (Char.ofNat 0xFEFF :: mixed) = [0xFE, 0xFF, 0, 0x61, 0, 0xE9, 0x8B, 0x5C, 0xD8, 0x34, 0xDD, 0x1E] ∧
    Spec.utf8 mixed = [0x61, 0xC3, 0xA9, 0xE8, 0xAD, 0x9C, 0xF0, 0x9D, 0x84, 0x9E] := by decide

/-- The sample map in the four encodings, read at once and without a final error. -/
example : Spec.Encodes Sample.text (Spec.utf8 Sample.text) ∧
    Spec.Encodes Sample.text (Spec.utf8 (Char.ofNat 0xFEFF :: Sample.text)) ∧
    (∀ big, Spec.Encodes Sample.text (Spec.utf16 big (Char.ofNat 0xFEFF :: Sample.text))) ∧
    ∀ b, b ≠ [] → Spec.delivered 0 [(decodeFile b, none)] = decodeFile b ∧ Spec.ErrorsAlone [(decodeFile b, none)] := by
  refine ⟨.plain (by decide +kernel), .utf8, .utf16, fun b _ => ⟨?_, ?_⟩⟩
  · unfold Spec.delivered
    simp [Spec.delivered]
  · simp [Spec.ErrorsAlone]

/-- A title in Latin-1: the bytes of é and of the superscript two become replacement characters. -/
example : Spec.Garbled ("Caf".toList ++ [Char.ofNat 0xFFFD, '\n', Char.ofNat 0xFFFD]) [0x43, 0x61, 0x66, 0xE9, 0x0A, 0xB2] ∧
    ¬ Spec.Marked [0x43, 0x61, 0x66, 0xE9, 0x0A, 0xB2] :=
  ⟨.char 'C' (.char 'a' (.char 'f' (.stray (b := [0x0A, 0xB2]) (.inr (.inr (by decide)))
      (.char '\n' (.stray (.inl (by decide)) .nil))))), by
    rintro (⟨_, h⟩ | ⟨_, h⟩ | ⟨_, h⟩) <;> cases h⟩

/-- Halves of pairs, odd bytes and broken sequences. -/
example : decodeFile [0xFF, 0xFE, 0x34, 0xD8, 0x61, 0, 0x62] = runeError ++ [0x61] ++ runeError ∧
    decodeFile [0xE8, 0xAD, 0x61, 0xF0, 0x9D] = runeError ++ [0x61] ++ runeError := by decide

/-- The byte order mark of UTF-8 is the exception in `C115_total`: an invalid byte after it is handed on. -/
example : ¬ ∃ s, decodeFile [0xEF, 0xBB, 0xBF, 0xFF] = Spec.utf8 s := by
  rintro ⟨s, h⟩
  have h' : UTF8.decode [0xFF] = [0xFF] := by
    have h2 := Unicode.decode_utf8 s
    rw [← h] at h2
    exact h2
  revert h'
  decide

end GosuPP
