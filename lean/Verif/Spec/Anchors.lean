import Verif.Spec.Path
import Verif.Spec.Bezier

/-!
# Specification: the control points that a slider path goes through
-/

namespace GosuPP.Spec
open Go GosuPP

/-- The polyline from `start` consists of one part for every `(d, q)`, in order: `d` long and ending at `q`. -/
def Visits : Vec ℝ → List (Linear ℝ) → List (ℝ × Vec ℝ) → Prop
  | _, ls, [] => ls = []
  | start, ls, (d, q) :: vs =>
    ∃ part rest, ls = part ++ rest ∧ pathLength part = d ∧ pathEnd start part = q ∧ Visits q rest vs

/-- Straight from point to point. -/
noncomputable def hops (a : Vec ℝ) : List (Vec ℝ) → List (ℝ × Vec ℝ)
  | [] => []
  | b :: l => (len ⟨a, b⟩, b) :: hops b l

section
variable {S : Type} [GoFloat S]

/-- From position `skip` on, no point equals the next one. -/
def Quiet (skip : Nat) (w : List (Vec S)) : Prop :=
  ∀ i p q, skip ≤ i → w[i]? = some p → w[i + 1]? = some q → p.eq q = false

/-- The control points of a Bezier slider cut into parts at its red points: a part ends where the next one starts, at
a point that is given twice. The first two points of a part after the first one, and the last two points of the last
part, may be equal without being a cut. -/
inductive RedParts : Nat → List (List (Vec S)) → Prop
  | last {skip : Nat} {w : List (Vec S)} : skip < w.length → Quiet skip w.dropLast → RedParts skip [w]
  | cons {skip : Nat} {w v : List (Vec S)} {p q : Vec S} {ws : List (List (Vec S))} : skip ≤ w.length →
      Quiet skip (w ++ [p]) → p.eq q = true → RedParts 1 ((q :: v) :: ws) →
      RedParts skip ((w ++ [p]) :: (q :: v) :: ws)

/-- The lines of one part: a line for two points, else the flattened Bezier curve with these control points. -/
inductive PartLines : List (Vec S) → List (Linear S) → Prop
  | line (a b : Vec S) : PartLines [a, b] [⟨a, b⟩]
  | curve {w l : List (Vec S)} {z : Vec S} : w.length ≠ 2 → w.getLast? = some z → Flattens w l →
      PartLines w (List.zipWith Linear.mk (l ++ [z]) (l ++ [z]).tail)

end
end GosuPP.Spec
