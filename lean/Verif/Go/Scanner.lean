import Verif.Go.Str

/-!
# `bufio.Scanner` on an `io.Reader`

Go's `bufio/scan.go` (Go standard library), for the line splitter `bufio.ScanLines` and a buffer
of `max` bytes given by `Scanner.Buffer(buf, cap(buf))`, so that the buffer never grows.
-/

namespace Go

abbrev Bytes := List UInt8

/-- The errors a `Read` can come with; `io.EOF` is one of them. -/
inductive ReadErr where
  | eof
  | failed (code : Nat)
  | noProgress

/-- What an `io.Reader` is going to return: for each `Read` the bytes and the error that comes
with them. A `Read` into a buffer with too little room returns what fits and keeps the rest for the
next one. After the last entry every `Read` returns `0, io.EOF`. -/
abbrev Script := List (Bytes × Option ReadErr)

structure Scanner where
  /-- number of bytes in front of `data` in the buffer -/
  start : Nat
  /-- the bytes `buf[start:end]` -/
  data : Bytes
  err : Option ReadErr
  script : Script

namespace Scanner

/-- The inner loop of `Scan`: reads until there is data or an error; after more than 100 empty
reads the error is `io.ErrNoProgress`. Returns the bytes, the error and what the reader still has. -/
def fill (space : Nat) : Nat → Script → Bytes × Option ReadErr × Script
  | _, [] => ([], some .eof, [])
  | loop, (c, e) :: rest =>
    if space < c.length then (c.take space, none, (c.drop space, e) :: rest)
    else match e with
      | some e => (c, some e, rest)
      | none =>
        if c ≠ [] then (c, none, rest)
        else if loop + 1 > 100 then ([], some .noProgress, rest)
        else fill space (loop + 1) rest

/-- `dropCR` on bytes -/
def dropCR (b : Bytes) : Bytes := if b.getLast? = some 13 then b.dropLast else b

/-- `bufio.ScanLines`: how far to advance and the token, if any. -/
def splitLine (data : Bytes) (atEOF : Bool) : Option (Nat × Bytes) :=
  if atEOF && data.isEmpty then none
  else match data.idxOf? 10 with
    | some i => some (i + 1, dropCR (data.take i))
    | none => if atEOF then some (data.length, dropCR data) else none

/-- What one round of the loop in `Scan` does. -/
inductive Round where
  /-- `Scan` returns true -/
  | token (t : Bytes) (s : Scanner)
  /-- the loop goes on -/
  | more (s : Scanner)
  /-- `Scan` returns false -/
  | stop

/-- The second half of a round: there is no token in the data, more has to be read. -/
def refill (max : Nat) (s : Scanner) : Round :=
  if s.err.isSome then .stop
  else
    -- bytes are moved to the start of the buffer
    let start := if s.start > 0 ∧ (s.start + s.data.length = max ∨ s.start > max / 2) then 0 else s.start
    -- `ErrTooLong`
    if start + s.data.length = max then .stop
    else
      let r := fill (max - (start + s.data.length)) 0 s.script
      .more { start, data := s.data ++ r.1, err := r.2.1, script := r.2.2 }

/-- One round of the loop in `Scan`. -/
def step (max : Nat) (s : Scanner) : Round :=
  match (if !s.data.isEmpty || s.err.isSome then splitLine s.data s.err.isSome else none) with
  | some (advance, t) => .token t { s with start := s.start + advance, data := s.data.drop advance }
  | none => refill max s

/-- The tokens of all calls of `Scan` until the first that returns false, in at most `fuel` rounds. -/
def tokens (max : Nat) : Nat → Scanner → List Bytes
  | 0, _ => []
  | fuel + 1, s =>
    match step max s with
    | .token t s => t :: tokens max fuel s
    | .more s => tokens max fuel s
    | .stop => []

/-- All that the reader has. -/
def size (sc : Script) : Nat := (sc.map (fun p => 2 * p.1.length + 1)).sum

/-- The number of rounds is enough, see `Verif/Lemmas/Scanner.lean`. -/
def scan (max : Nat) (sc : Script) : List Bytes :=
  tokens max (size sc + 2) { start := 0, data := [], err := none, script := sc }

/-- `scanner.Text()`. The reader below the scanner only returns valid UTF-8. -/
def text (b : Bytes) : Str := ((b.toByteArray.utf8Decode?).getD #[]).toList

end Scanner
end Go
