import Verif.Go.Scanner

/-!
# The decoder in front of the scanner

`unicode.BOMOverride(unicode.UTF8.NewDecoder())` of `golang.org/x/text` v0.3.7 (`encoding/unicode/override.go` and `unicode.go`), used in
`/repo/files/utf.go:10-12`. A decoder works on portions of the data; here it is a function of the whole data, which is what
`transform.NewReader` makes of it.
-/

namespace Go

/-- `utf8.RuneError` in UTF-8 -/
def runeError : Bytes := [0xEF, 0xBF, 0xBD]

namespace UTF16

/-- The unit of two bytes. -/
def unit (big : Bool) (a b : UInt8) : Nat := if big then 256 * a.toNat + b.toNat else 256 * b.toNat + a.toNat

/-- `utf16.IsSurrogate` -/
def isSurrogate (r : Nat) : Bool := decide (0xD800 ≤ r ∧ r < 0xE000)

/-- `isHighSurrogate` of x/text: the second half of a pair -/
def isSecond (r : Nat) : Bool := decide (0xDC00 ≤ r ∧ r ≤ 0xDFFF)

/-- `utf16.DecodeRune` -/
def decodeRune (r1 r2 : Nat) : Nat :=
  if 0xD800 ≤ r1 ∧ r1 < 0xDC00 ∧ 0xDC00 ≤ r2 ∧ r2 < 0xE000 then (r1 - 0xD800) * 1024 + (r2 - 0xDC00) + 0x10000 else 0xFFFD

/-- `utf8.EncodeRune`, where a number that is no rune becomes `utf8.RuneError` -/
def encodeRune (r : Nat) : Bytes := if r.isValidChar then String.utf8EncodeChar (Char.ofNat r) else runeError

/-- `utf16Decoder.Transform` without a byte order mark -/
def decode (big : Bool) : Bytes → Bytes
  | [] => []
  | [_] => runeError
  | a :: b :: rest =>
    let r := unit big a b
    if isSurrogate r then
      match rest with
      | c :: d :: rest' =>
        if isSecond (unit big c d) then encodeRune (decodeRune r (unit big c d)) ++ decode big rest'
        else encodeRune r ++ decode big (c :: d :: rest')
      | [c] => encodeRune r ++ decode big [c]
      | [] => encodeRune r
    else encodeRune r ++ decode big rest

end UTF16

namespace UTF8

/-- The table of first bytes: the length of the sequence and the range of the second byte. -/
def first (c : Nat) : Option (Nat × Nat × Nat) :=
  if 0xC2 ≤ c ∧ c ≤ 0xDF then some (2, 0x80, 0xBF)
  else if c = 0xE0 then some (3, 0xA0, 0xBF)
  else if c = 0xED then some (3, 0x80, 0x9F)
  else if 0xE1 ≤ c ∧ c ≤ 0xEF then some (3, 0x80, 0xBF)
  else if c = 0xF0 then some (4, 0x90, 0xBF)
  else if 0xF1 ≤ c ∧ c ≤ 0xF3 then some (4, 0x80, 0xBF)
  else if c = 0xF4 then some (4, 0x80, 0x8F)
  else none

/-- `utf8Decoder.Transform`: the longest beginning of a sequence that goes wrong is replaced. -/
def decode : Bytes → Bytes
  | [] => []
  | c :: rest =>
    if c.toNat < 0x80 then c :: decode rest
    else match first c.toNat with
      | none => runeError ++ decode rest
      | some (size, lo, hi) =>
        match rest with
        | [] => runeError
        | c1 :: r1 =>
          if c1.toNat < lo ∨ hi < c1.toNat then runeError ++ decode (c1 :: r1)
          else if size = 2 then c :: c1 :: decode r1
          else match r1 with
            | [] => runeError
            | c2 :: r2 =>
              if c2.toNat < 0x80 ∨ 0xBF < c2.toNat then runeError ++ decode (c2 :: r2)
              else if size = 3 then c :: c1 :: c2 :: decode r2
              else match r2 with
                | [] => runeError
                | c3 :: r3 =>
                  if c3.toNat < 0x80 ∨ 0xBF < c3.toNat then runeError ++ decode (c3 :: r3)
                  else c :: c1 :: c2 :: c3 :: decode r3

end UTF8

/-- `bomOverride.Transform`: a byte order mark chooses the decoder; after the one of UTF-8 the data are handed on unchanged. -/
def decodeFile (b : Bytes) : Bytes :=
  match b with
  | 0xFF :: 0xFE :: rest => UTF16.decode false rest
  | 0xFE :: 0xFF :: rest => UTF16.decode true rest
  | 0xEF :: 0xBB :: 0xBF :: rest => rest
  | b => UTF8.decode b

end Go
