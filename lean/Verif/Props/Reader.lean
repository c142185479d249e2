import Verif.Lemmas.Scanner
import Verif.Lemmas.ParserLines
import Verif.Model.Reader
import Verif.Props.Sample

/-!
# C27: failing readers and lines that are too long

In any arithmetic.
-/

namespace GosuPP
open Go
variable {S D : Type} [GoFloat S] [GoFloat D] [GoConv S D] [GoSort] [GoLibm D]

/-- A reader that delivers the text `s` up to its first error, in whatever portions and whatever
the error is, has the same effect as the whole file `s`. The exception is a last line of exactly
the size of the buffer that arrives along with the error. -/
theorem C27_reader (fuel : Nat) (sc : Script) (s : Str) (hs : Spec.delivered 0 sc = Spec.utf8 s)
    (h : Spec.ErrorsAlone sc ∨ byteLen ((split '\n' s).getLastD []) ≠ bufferSize) :
    parseReader (S := S) (D := D) fuel sc = parseText fuel s := by
  have hlast : (lastPiece (Spec.delivered 0 sc)).length = byteLen ((split '\n' s).getLastD []) := by
    unfold lastPiece
    simp only [hs, splitB_utf8]
    rw [List.getLast_map, byteLen_utf8, List.getLastD_eq_getLast?, List.getLast?_eq_some_getLast]
    rfl
  unfold parseReader parseText
  rw [scan_eq (by decide) sc (by rw [hlast]; exact h), hs, splitB_utf8, piecesB_utf8]
  rfl

/-- Two readers that deliver the same bytes, be they valid or not, have the same effect: neither
the portions nor the errors can be told from the outcome. -/
theorem C27_same (fuel : Nat) (sc sc' : Script) (hs : Spec.delivered 0 sc = Spec.delivered 0 sc')
    (h : Spec.ErrorsAlone sc) (h' : Spec.ErrorsAlone sc') :
    parseReader (S := S) (D := D) fuel sc = parseReader fuel sc' := by
  unfold parseReader
  rw [scan_eq (by decide) sc (.inl h), scan_eq (by decide) sc' (.inl h'), hs]

/-- A file with a line of 10 MiB or more is read as if it ended before that line. -/
theorem C27_too_long (fuel : Nat) (pre long rest : Str) (hp : pre = [] ∨ pre.getLast? = some '\n')
    (hn : '\n' ∉ long) (hl : bufferSize ≤ byteLen long) (hr : rest = [] ∨ rest.head? = some '\n') :
    parseText (S := S) (D := D) fuel (pre ++ long ++ rest) = parseText fuel pre := by
  unfold parseText
  congr 1
  have hlong : scanLines bufferSize (long ++ rest) = [] := by
    unfold scanLines
    rcases hr with rfl | hr
    · rw [List.append_nil, split_none hn, scanPieces, if_pos hl]
      simp
    · cases rest with
      | nil => cases hr
      | cons c r =>
        cases hr
        rw [split_append, split_none hn, List.singleton_append,
          scanPieces.eq_3 _ _ _ (by intro hc; exact absurd hc (split_ne_nil _ _)), if_pos hl]
  rw [List.append_assoc]
  rcases hp with rfl | hp
  · rw [List.nil_append, hlong]
    rfl
  · obtain ⟨p, rfl⟩ := List.getLast?_eq_some_iff.mp hp
    rw [List.append_assoc, List.singleton_append, scanLines_append, hlong]
    simp

/-! The samples have a buffer of 4 bytes. -/

/-- Two portions, an error in the middle of a line and further data that is never asked for; the
lines are `ab` and `c`. -/
def failing : Script := [([97], none), ([98, 13, 10, 99], none), ([], some (.failed 5)), ([100], none)]

example : Scanner.scan 4 failing = [[97, 98], [99]] ∧ Spec.ErrorsAlone failing ∧
    Spec.delivered 0 failing = Spec.utf8 "ab\r\nc".toList := by
  refine ⟨by decide, ?_, by decide⟩
  unfold Spec.ErrorsAlone failing
  simp

/-- The exception in `C27_reader` is there: a last line of the size of the buffer is a line if it comes
along with the error, and too long otherwise. -/
example : Scanner.scan 4 [([97, 97, 97, 97], some .eof)] = [[97, 97, 97, 97]] ∧
    Scanner.scan 4 [([97, 97, 97, 97], none)] = [] := by decide

/-- A reader that never delivers anything. -/
example (n : Nat) : Spec.delivered 0 (List.replicate 101 ([], none) ++ [(List.replicate n 97, none)]) = [] := by
  simp [List.replicate, Spec.delivered]

/-- A file that is one line of 10 MiB followed by a complete map. -/
example : '\n' ∉ List.replicate bufferSize 'a' ∧ bufferSize ≤ byteLen (List.replicate bufferSize 'a') ∧
    ('\n' :: Sample.text).head? = some '\n' := by
  refine ⟨fun h => ?_, ?_, rfl⟩
  · have := List.eq_of_mem_replicate h
    revert this
    decide
  · unfold byteLen
    rw [List.map_replicate, List.sum_replicate]
    have : Char.utf8Size 'a' = 1 := by decide
    simp [this]

end GosuPP
