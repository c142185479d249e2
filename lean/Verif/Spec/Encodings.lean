import Verif.Spec.Reader
import Mathlib.Data.Nat.Notation

/-! Texts in the encodings of Unicode. -/

namespace GosuPP.Spec
open Go

/-- The 16 bit units of a character. -/
def units (c : Char) : List ℕ :=
  if c.toNat < 0x10000 then [c.toNat] else [0xD800 + (c.toNat - 0x10000) / 0x400, 0xDC00 + (c.toNat - 0x10000) % 0x400]

/-- The two bytes of a unit, most or least significant first. -/
def unitBytes (big : Bool) (u : ℕ) : Bytes :=
  if big then [UInt8.ofNat (u / 256), UInt8.ofNat (u % 256)] else [UInt8.ofNat (u % 256), UInt8.ofNat (u / 256)]

/-- The text in UTF-16. -/
def utf16 (big : Bool) (s : Str) : Bytes := s.flatMap fun c => (units c).flatMap (unitBytes big)

/-- The bytes of a file with a given text. -/
inductive Encodes (s : Str) : Bytes → Prop where
  /-- UTF-8 without byte order mark; the text must not begin with one -/
  | plain (h : s.head? ≠ some (Char.ofNat 0xFEFF)) : Encodes s (utf8 s)
  | utf8 : Encodes s (utf8 (Char.ofNat 0xFEFF :: s))
  | utf16 (big : Bool) : Encodes s (utf16 big (Char.ofNat 0xFEFF :: s))

/-- The byte occurs in no UTF-8 sequence or only after another byte, or it begins a sequence and what follows does not go on with it. -/
def Stray (x : UInt8) (next : Option UInt8) : Prop :=
  (0x80 ≤ x.toNat ∧ x.toNat ≤ 0xC1) ∨ 0xF5 ≤ x.toNat ∨ (0xC0 ≤ x.toNat ∧ ∀ y ∈ next, y.toNat < 0x80 ∨ 0xC0 ≤ y.toNat)

/-- The bytes are characters in UTF-8 with stray bytes in between; in the text each of these is the replacement character. -/
inductive Garbled : Str → Bytes → Prop where
  | nil : Garbled [] []
  | char (c : Char) {s : Str} {b : Bytes} (h : Garbled s b) : Garbled (c :: s) (String.utf8EncodeChar c ++ b)
  | stray {x : UInt8} {s : Str} {b : Bytes} (hx : Stray x b.head?) (h : Garbled s b) : Garbled (Char.ofNat 0xFFFD :: s) (x :: b)

/-- The bytes begin with a byte order mark of UTF-8 or UTF-16. -/
def Marked (b : Bytes) : Prop := [0xEF, 0xBB, 0xBF] <+: b ∨ [0xFF, 0xFE] <+: b ∨ [0xFE, 0xFF] <+: b

end GosuPP.Spec
