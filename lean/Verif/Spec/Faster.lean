import Verif.Spec.Notes
import Verif.Spec.Order
import Verif.Spec.Mods

/-!
# Playing a map faster
-/

namespace GosuPP.Spec
open Go

/-- Note `n` starts at least 25 ms after the one before when played at speed `r`. -/
def Unhurried (r : ℝ) (x : ℕ → Note) (n : ℕ) : Prop := 25 ≤ (x n).time / r - (x (n - 1)).time / r

/-- Each object of the map starts at least `g` ms after the one before. -/
def SpacedOut (g : ℝ) (objs : List (Obj (Option ℝ) (Option ℝ))) : Prop :=
  ∀ (i : ℕ) o o' (t t' : ℝ), objs[i]? = some o → objs[i + 1]? = some o' → o.base.startTime = some t → o'.base.startTime = some t' →
    g ≤ t' - t

/-- Each entry of the first list is at most some entry of the second one. In particular its highest entry is. -/
def Outdone (l l' : List (Option ℝ)) : Prop := ∀ p ∈ l, ∃ q ∈ l', NoMore p q

/-- How much faster the mods alone play a map: DoubleTime wins over HalfTime. -/
noncomputable def modRate (m : Modifier) : ℝ := if has m Mod.DoubleTime then 1.5 else if has m Mod.HalfTime then 0.75 else 1

end GosuPP.Spec
