import Verif.Model.Mods

/-!
# Specification of mod strings

Which string names which mod, and which mods imply which.
-/

namespace GosuPP.Spec
open Go GosuPP

/-- The acronym of every mod. -/
def modTable : List (String × Modifier) :=
  [("NF", Mod.NoFail), ("EZ", Mod.Easy), ("TD", Mod.TouchDevice), ("HD", Mod.Hidden),
   ("HR", Mod.HardRock), ("SD", Mod.SuddenDeath), ("DT", Mod.DoubleTime), ("RX", Mod.Relax),
   ("HT", Mod.HalfTime), ("NC", Mod.Nightcore), ("FL", Mod.Flashlight), ("AT", Mod.Autoplay),
   ("SO", Mod.SpunOut), ("AP", Mod.Relax2), ("PF", Mod.Perfect), ("K4", Mod.Key4),
   ("K5", Mod.Key5), ("K6", Mod.Key6), ("K7", Mod.Key7), ("K8", Mod.Key8), ("FI", Mod.FadeIn),
   ("RN", Mod.Random), ("CN", Mod.Cinema), ("TG", Mod.Target), ("K9", Mod.Key9),
   ("K0", Mod.KeyCoop), ("K1", Mod.Key1), ("K3", Mod.Key3), ("K2", Mod.Key2),
   ("V2", Mod.ScoreV2), ("LM", Mod.LastMod), ("DC", Mod.Daycore)]

/-- The union of the mods named by a collection of strings. -/
def namedUnion (chunks : List Str) : Modifier :=
  modTable.foldr (fun p m => if p.1.toList ∈ chunks then p.2 ||| m else m) 0

/-- `m` contains the mod `a` -/
def has (m a : Modifier) : Prop := m &&& a ≠ 0

instance (m a : Modifier) : Decidable (has m a) := inferInstanceAs (Decidable (_ ≠ _))

/-- Nightcore, Perfect and Daycore switch on DoubleTime, SuddenDeath and HalfTime. -/
def closure (m : Modifier) : Modifier :=
  m ||| (if has m Mod.Nightcore then Mod.DoubleTime else 0)
    ||| (if has m Mod.Perfect then Mod.SuddenDeath else 0)
    ||| (if has m Mod.Daycore then Mod.HalfTime else 0)

/-- The union of all named mods. -/
def allNamed : Modifier := modTable.foldr (fun p m => p.2 ||| m) 0

/-- Pairs of mods that exclude each other. -/
def conflicts : List (Modifier × Modifier) :=
  [(Mod.HardRock, Mod.Easy),
   (Mod.Nightcore, Mod.HalfTime), (Mod.Nightcore, Mod.Daycore),
   (Mod.DoubleTime, Mod.HalfTime), (Mod.DoubleTime, Mod.Daycore),
   (Mod.Perfect, Mod.NoFail), (Mod.SuddenDeath, Mod.NoFail),
   (Mod.Relax, Mod.Relax2),
   (Mod.Relax, Mod.SuddenDeath), (Mod.Relax, Mod.Perfect), (Mod.Relax, Mod.Autoplay),
   (Mod.Relax, Mod.NoFail),
   (Mod.Relax2, Mod.SuddenDeath), (Mod.Relax2, Mod.Perfect), (Mod.Relax2, Mod.Autoplay),
   (Mod.Relax2, Mod.NoFail), (Mod.Relax2, Mod.SpunOut)]

/-- The mods that matter for the score multiplier. -/
def scoreMods : Modifier :=
  Mod.NoFail ||| Mod.Easy ||| Mod.HalfTime ||| Mod.Hidden ||| Mod.HardRock ||| Mod.DoubleTime |||
  Mod.Flashlight ||| Mod.Relax ||| Mod.Relax2 ||| Mod.SpunOut ||| Mod.ScoreV2

/-- By what each mod multiplies the score, `v2` with the ScoreV2 mod. -/
def scoreFactors (v2 : Bool) : List (Modifier × ℚ) :=
  [(Mod.NoFail, if v2 then 1 else 0.5), (Mod.Easy, 0.5), (Mod.HalfTime, 0.3), (Mod.Hidden, 1.06),
   (Mod.HardRock, if v2 then 1.1 else 1.06), (Mod.DoubleTime, if v2 then 1.2 else 1.12),
   (Mod.Flashlight, 1.12), (Mod.Relax, 0), (Mod.Relax2, 0), (Mod.SpunOut, 0.9)]

/-- A two-character ASCII string. -/
def IsChunk (c : Str) : Prop := c.length = 2 ∧ ∀ x ∈ c, x.toNat < 128

end GosuPP.Spec
