import Verif.Model.Vector

/-!
# Specification of Bezier flattening: de Casteljau's triangle and recursive subdivision
-/

namespace GosuPP.Spec
open Go GosuPP
variable {S : Type} [GoFloat S]

/-- Point `j` of level `i` of de Casteljau's triangle at parameter 1/2. -/
def triangle (cps : List (Vec S)) : Nat → Nat → Vec S
  | 0, j => cps.getD j Vec.zero
  | i + 1, j => ((triangle cps i j).add (triangle cps i (j + 1))).scl (lit 0.5)

/-- Control points of the first half: the left edge of the triangle. -/
def leftHalf (cps : List (Vec S)) : List (Vec S) :=
  (List.range cps.length).map (fun i => triangle cps i 0)

/-- Control points of the second half: the right edge of the triangle. -/
def rightHalf (cps : List (Vec S)) : List (Vec S) :=
  (List.range cps.length).map (fun j => triangle cps (cps.length - 1 - j) j)

/-- The curve is flat: all second differences are at most 1/2 long. -/
def flat (cps : List (Vec S)) : Prop :=
  ∀ i a b c, cps[i]? = some a → cps[i + 1]? = some b → cps[i + 2]? = some c →
    (((a.sub (b.scl (lit 2))).add c).lenSq >. lit 0.25) = false

/-- Points put out for a flat piece: its start and weighted averages of the control points
of both halves. -/
def pieces (cps : List (Vec S)) : List (Vec S) :=
  let l := leftHalf cps ++ (rightHalf cps).tail
  let at' := fun i => l.getD i Vec.zero
  cps.take 1 ++ (List.range (cps.length - 2)).map (fun i =>
    (((at' (2 * i + 1)).add ((at' (2 * i + 2)).scl (lit 2))).add (at' (2 * i + 3))).scl (lit 0.25))

/-- Recursive subdivision: a flat curve is put out, another one is split into halves. There is a
derivation exactly if the recursion terminates. -/
inductive Flattens : List (Vec S) → List (Vec S) → Prop
  | flat {cps : List (Vec S)} : flat cps → Flattens cps (pieces cps)
  | split {cps l r : List (Vec S)} : ¬ flat cps → Flattens (leftHalf cps) l →
      Flattens (rightHalf cps) r → Flattens cps (l ++ r)

end GosuPP.Spec
