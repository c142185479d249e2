import Verif.Spec.Mods

/-! Specification of the names under which mods are listed. -/

namespace GosuPP.Spec
open Go GosuPP

/-- The full name of every mod, in the order in which mods are listed. -/
def fullNames : List (String × Modifier) :=
  [("NoFail", Mod.NoFail), ("Easy", Mod.Easy), ("TouchDevice", Mod.TouchDevice), ("Hidden", Mod.Hidden),
   ("HardRock", Mod.HardRock), ("SuddenDeath", Mod.SuddenDeath), ("DoubleTime", Mod.DoubleTime), ("Relax", Mod.Relax),
   ("HalfTime", Mod.HalfTime), ("Nightcore", Mod.Nightcore), ("Flashlight", Mod.Flashlight), ("Autoplay", Mod.Autoplay),
   ("SpunOut", Mod.SpunOut), ("Relax2", Mod.Relax2), ("Perfect", Mod.Perfect), ("Key4", Mod.Key4),
   ("Key5", Mod.Key5), ("Key6", Mod.Key6), ("Key7", Mod.Key7), ("Key8", Mod.Key8), ("FadeIn", Mod.FadeIn),
   ("Random", Mod.Random), ("Cinema", Mod.Cinema), ("Target", Mod.Target), ("Key9", Mod.Key9),
   ("KeyCoop", Mod.KeyCoop), ("Key1", Mod.Key1), ("Key3", Mod.Key3), ("Key2", Mod.Key2),
   ("ScoreV2", Mod.ScoreV2), ("LastMod", Mod.LastMod), ("Daycore", Mod.Daycore)]

/-- `m` contains `a`, and no other mod of `m` stands for it as well. -/
def listed (m a : Modifier) : Bool :=
  decide (has m a) && !(decide (a = Mod.DoubleTime) && decide (has m Mod.Nightcore)) &&
    !(decide (a = Mod.HalfTime) && decide (has m Mod.Daycore)) &&
    !(decide (a = Mod.SuddenDeath) && decide (has m Mod.Perfect))

end GosuPP.Spec
