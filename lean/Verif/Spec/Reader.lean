import Verif.Go.Scanner

/-!
# Specification of what a reader delivers
-/

namespace GosuPP.Spec
open Go

/-- The bytes a reader delivers before its first error, or before giving up after 101 reads in a
row that return nothing; `k` such reads came before. Bytes that come along with the error count. -/
def delivered : Nat → Script → Bytes
  | _, [] => []
  | k, (c, e) :: rest =>
    match e with
    | some _ => c
    | none =>
      if c ≠ [] then c ++ delivered 0 rest
      else if k = 100 then []
      else delivered (k + 1) rest

/-- Errors come alone, not along with data; this is how files and byte slices are read. -/
def ErrorsAlone (sc : Script) : Prop := ∀ p ∈ sc, p.2.isSome → p.1 = []

/-- The text in UTF-8. -/
def utf8 (s : Str) : Bytes := s.flatMap String.utf8EncodeChar

end GosuPP.Spec
