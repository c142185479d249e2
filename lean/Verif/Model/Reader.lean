import Verif.Go.Scanner
import Verif.Model.Parser

/-!
# `ParseFromReader` on a reader

`/repo/beatmap/parser.go`, `/repo/files/utf.go`.
-/

namespace GosuPP
open Go
variable {S D : Type} [GoFloat S] [GoFloat D] [GoConv S D] [GoSort] [GoLibm D]

/-- parser.go:146-263 and utf.go:18-25, for a reader that does as `sc` says. `sc` is what the transcoding
reader of utf.go:10-12 (`Go/Unicode.lean`) hands on to the scanner. That is valid UTF-8, as the decoder replaces invalid bytes,
except for invalid bytes in a file with a UTF-8 byte order mark, which are handed on unchanged; lines
with such bytes are outside of the model.
`scanner.Err()` is not looked at, so the lines are all there is. -/
def parseReader (fuel : Nat) (sc : Script) : Result (Option (BeatMap S D)) :=
  parseFromLines fuel ((Scanner.scan bufferSize sc).map Scanner.text)

end GosuPP
