import Verif.Model.Difficulty

/-!
# Specification of `Difficulty` histories

A history is a list of setter calls; what should matter is the last value given to each setter.
-/

namespace GosuPP.Spec
open Go GosuPP

/-- A setter call on a `*Difficulty`. -/
inductive DiffOp (D : Type) where
  | setHP (v : D)
  | setCS (v : D)
  | setOD (v : D)
  | setAR (v : D)
  | setMods (m : Modifier)
  | setCustomSpeed (v : D)

/-- What the user asked for so far. -/
structure DiffInput (D : Type) where
  hp : D
  cs : D
  od : D
  ar : D
  mods : Modifier
  speed : D

/-- The effect of a call on what the user asked for. -/
def DiffInput.apply {D : Type} (i : DiffInput D) : DiffOp D → DiffInput D
  | .setHP v => { i with hp := v }
  | .setCS v => { i with cs := v }
  | .setOD v => { i with od := v }
  | .setAR v => { i with ar := v }
  | .setMods m => { i with mods := m }
  | .setCustomSpeed v => { i with speed := v }

/-- The call performed on the model. -/
def runDiffOp {D : Type} [GoFloat D] (d : Difficulty D) : DiffOp D → Difficulty D
  | .setHP v => d.setHP v
  | .setCS v => d.setCS v
  | .setOD v => d.setOD v
  | .setAR v => d.setAR v
  | .setMods m => d.setMods m
  | .setCustomSpeed v => d.setCustomSpeed v

/-- A fresh `Difficulty` for the given values. -/
def DiffInput.fresh {D : Type} [GoFloat D] (i : DiffInput D) : Difficulty D :=
  ((Difficulty.new i.hp i.cs i.od i.ar).setMods i.mods).setCustomSpeed i.speed

end GosuPP.Spec
