import Verif.Go.Float

/-!
# Strings, and the parts of `strings`, `strconv` and `bufio` that the parser uses

A Go string is modelled by its list of characters (the input is decoded to valid UTF-8 by
`files/utf.go` before it reaches the parser).
-/

namespace Go

/-- A Go string holding valid UTF-8. -/
abbrev Str := List Char

/-- `len(s)`: the number of bytes of the UTF-8 encoding. -/
def byteLen (s : Str) : Nat := (s.map Char.utf8Size).sum

/-- `strings.HasPrefix` -/
def hasPrefix (s pre : Str) : Bool := pre.isPrefixOf s

/-- `strings.Split(s, c)` for a one-character separator. -/
def split (c : Char) : Str → List Str
  | [] => [[]]
  | x :: xs =>
    if x = c then [] :: split c xs
    else match split c xs with
      | [] => [[x]]
      | p :: ps => (x :: p) :: ps

/-- `strings.SplitN(s, c, 2)` for a one-character separator. -/
def split2 (c : Char) : Str → List Str
  | [] => [[]]
  | x :: xs =>
    if x = c then [[], xs]
    else match split2 c xs with
      | [] => [[x]]
      | p :: ps => (x :: p) :: ps

/-- `unicode.IsSpace` -/
def isSpace (c : Char) : Bool :=
  let n := c.toNat
  (9 ≤ n && n ≤ 13) || n == 32 || n == 0x85 || n == 0xA0 || n == 0x1680 ||
  (0x2000 ≤ n && n ≤ 0x200a) || n == 0x2028 || n == 0x2029 || n == 0x202f || n == 0x205f ||
  n == 0x3000

/-- Trailing elements satisfying `p` removed. -/
def trimRightBy (p : Char → Bool) (s : Str) : Str := (s.reverse.dropWhile p).reverse

/-- `strings.TrimSpace` -/
def trimSpace (s : Str) : Str := trimRightBy isSpace (s.dropWhile isSpace)

def isDigit (c : Char) : Bool := 48 ≤ c.toNat && c.toNat ≤ 57

def digitVal (c : Char) : Nat := c.toNat - 48

/-- Outcome of `strconv.ParseUint(s, 10, 64)` -/
inductive UintRes where
  | ok (n : Nat)
  | range
  | syntaxErr

/-- The digit loop of `strconv.ParseUint` with base 10: the first offending character or the
first overflow decides. -/
def parseUintLoop : Str → Nat → UintRes
  | [], n => .ok n
  | c :: cs, n =>
    if isDigit c then
      let n' := 10 * n + digitVal c
      if n' > 18446744073709551615 then .range else parseUintLoop cs n'
    else .syntaxErr

def parseUint (s : Str) : UintRes :=
  if s.isEmpty then .syntaxErr else parseUintLoop s 0

/-- The sign and the rest, as in `strconv.ParseInt`. -/
def splitSign : Str → Bool × Str
  | '+' :: s => (false, s)
  | '-' :: s => (true, s)
  | s => (false, s)

/-- The value (first result) of `strconv.ParseInt(s, 10, 64)` and of `strconv.Atoi(s)`: 0 on a
syntax error, saturated on a range error. All callers discard the error. -/
def parseInt (s : Str) : Int :=
  let (neg, ds) := splitSign s
  match parseUint ds with
  | .syntaxErr => 0
  | .range => if neg then -9223372036854775808 else 9223372036854775807
  | .ok n =>
    if neg then (if n > 9223372036854775808 then -9223372036854775808 else -(n : Int))
    else (if n ≥ 9223372036854775808 then 9223372036854775807 else (n : Int))

/-- ASCII lower case, `strconv`'s `lower` on letters. -/
def lowerAscii (c : Char) : Char :=
  if 65 ≤ c.toNat && c.toNat ≤ 90 then Char.ofNat (c.toNat + 32) else c

def isHexLetter (c : Char) : Bool :=
  let l := lowerAscii c
  97 ≤ l.toNat && l.toNat ≤ 102

def hexVal (c : Char) : Nat := if isDigit c then digitVal c else (lowerAscii c).toNat - 87

/-- State of the mantissa loop of `strconv.readFloat`. -/
structure MantState where
  mant : Nat := 0
  /-- digits after the point -/
  frac : Nat := 0
  sawDot : Bool := false
  sawDigits : Bool := false
  underscores : Bool := false

/-- The mantissa loop of `strconv.readFloat`; returns the rest of the input. -/
def readMant (hex : Bool) : Str → MantState → MantState × Str
  | [], st => (st, [])
  | c :: cs, st =>
    if c = '_' then readMant hex cs { st with underscores := true }
    else if c = '.' then
      if st.sawDot then (st, c :: cs) else readMant hex cs { st with sawDot := true }
    else if isDigit c || (hex && isHexLetter c) then
      readMant hex cs { st with
        mant := (if hex then 16 else 10) * st.mant + hexVal c
        frac := if st.sawDot then st.frac + 1 else st.frac
        sawDigits := true }
    else (st, c :: cs)

/-- The exponent digit loop of `strconv.readFloat`: value (capped as in Go), whether an
underscore was seen, the rest. -/
def readExp : Str → Nat → Bool → Nat × Bool × Str
  | [], e, u => (e, u, [])
  | c :: cs, e, u =>
    if c = '_' then readExp cs e true
    else if isDigit c then readExp cs (if e < 10000 then 10 * e + digitVal c else e) u
    else (e, u, c :: cs)

/-- The loop of `strconv.underscoreOK` after sign and base prefix; `prev` is `'0'` after a
digit, `'_'` after an underscore, `'!'` after something else, `'^'` at the beginning. -/
def underscoreLoop (hex : Bool) : Str → Char → Bool
  | [], prev => prev != '_'
  | c :: cs, prev =>
    if isDigit c || (hex && isHexLetter c) then underscoreLoop hex cs '0'
    else if c = '_' then (if prev != '0' then false else underscoreLoop hex cs '_')
    else if prev = '_' then false
    else underscoreLoop hex cs '!'

/-- `strconv.underscoreOK` -/
def underscoreOK (s : Str) : Bool :=
  let s := (splitSign s).2
  match s with
  | '0' :: b :: rest =>
    if lowerAscii b = 'x' then underscoreLoop true rest '0'
    else if lowerAscii b = 'b' || lowerAscii b = 'o' then underscoreLoop false rest '0'
    else underscoreLoop false s '^'
  | _ => underscoreLoop false s '^'

/-- `10 ^ e` resp. `2 ^ e` as a rational. -/
def ratPow (b : Nat) : Int → ℚ
  | .ofNat n => ((b ^ n : Nat) : ℚ)
  | .negSucc n => 1 / ((b ^ (n + 1) : Nat) : ℚ)

/-- `strconv.readFloat` on the whole string: sign and exact absolute value, or `none` for a
syntax error. -/
def readFloat (s : Str) : Option (Bool × ℚ) :=
  let (neg, body) := splitSign s
  let (hex, body') := match body with
    | '0' :: x :: c :: rest => if lowerAscii x = 'x' then (true, c :: rest) else (false, body)
    | _ => (false, body)
  let (st, rest) := readMant hex body' {}
  if !st.sawDigits then none
  else
    let fin (e : Int) (u : Bool) : Option (Bool × ℚ) :=
      if (st.underscores || u) && !underscoreOK s then none
      else if hex then some (neg, (st.mant : ℚ) * ratPow 2 (e - 4 * (st.frac : Int)))
      else some (neg, (st.mant : ℚ) * ratPow 10 (e - (st.frac : Int)))
    match rest with
    | [] => if hex then none else fin 0 false
    | x :: rest' =>
      if lowerAscii x = (if hex then 'p' else 'e') then
        let (eneg, ds) := splitSign rest'
        match ds with
        | [] => none
        | d :: _ =>
          if !isDigit d then none
          else
            let (e, u, rest'') := readExp ds 0 false
            if rest''.isEmpty then fin (if eneg then -(e : Int) else (e : Int)) u else none
      else none

/-- The strings that `strconv.special` accepts in full. -/
def special (s : Str) : Option (Option Bool) :=
  let l := s.map lowerAscii
  if l = "nan".toList then some none
  else if l = "inf".toList || l = "infinity".toList || l = "+inf".toList || l = "+infinity".toList
    then some (some false)
  else if l = "-inf".toList || l = "-infinity".toList then some (some true)
  else none

/-- The value (first result) of `strconv.ParseFloat`: 0 on a syntax error, an infinity on
overflow. `strconv.ParseFloat(s, 32)` followed by `float32(..)` is `parseFloat` at the
`float32` type. -/
def parseFloat {F : Type} [GoFloat F] (s : Str) : F :=
  match special s with
  | some none => GoFloat.nan
  | some (some neg) => GoFloat.inf neg
  | none =>
    match readFloat s with
    | none => lit 0
    | some (neg, q) => if neg then fneg (lit q) else lit q

/-- `bufio.ScanLines`' treatment of a line: one trailing carriage return is dropped. -/
def dropCR (s : Str) : Str :=
  match s.reverse with
  | '\r' :: r => r.reverse
  | _ => s

/-- The lines that a `bufio.Scanner` with a buffer of `max` bytes delivers for the decoded
input `s`: split at `'\n'`, the empty piece after a final `'\n'` is not a line, and the scan
stops (silently, as the parser does not look at `scanner.Err()`) at a line of `max` bytes or
more. -/
def scanPieces (max : Nat) : List Str → List Str
  | [] => []
  | [p] => if p.isEmpty then [] else if byteLen p ≥ max then [] else [dropCR p]
  | p :: ps => if byteLen p ≥ max then [] else dropCR p :: scanPieces max ps

def scanLines (max : Nat) (s : Str) : List Str := scanPieces max (split '\n' s)

end Go
