import Verif.Model.Mods
import Verif.Model.Utils

/-!
# `beatmap/difficulty/difficulty.go`
-/

namespace GosuPP
open Go

/-- difficulty.go:5-22 -/
structure Difficulty (D : Type) where
  hp : D
  cs : D
  od : D
  ar : D
  preempt : D
  circleRadius : D
  mods : Modifier
  hit50 : D
  hit100 : D
  hit300 : D
  hpMod : D
  spinnerRatio : D
  speed : D
  arReal : D
  odReal : D
  customSpeed : D

variable {D : Type} [GoFloat D]

/-- difficulty.go:129-139 -/
def difficultyRate (diff min mid max : D) : D :=
  if diff >. lit 5 then mid +. (max -. mid) *. (diff -. lit 5) /. lit 5
  else if diff <. lit 5 then mid -. (mid -. min) *. (lit 5 -. diff) /. lit 5
  else mid

/-- difficulty.go:141-150 -/
def diffFromRate (rate min mid max : D) : D :=
  let minStep := (min -. mid) /. lit 5
  let maxStep := (mid -. max) /. lit 5
  if rate >. mid then fneg (rate -. min) /. minStep
  else lit 5 -. (rate -. mid) /. maxStep

namespace Difficulty

/-- difficulty.go:74-76 -/
def checkModActive (d : Difficulty D) (mods : Modifier) : Bool := Modifier.active d.mods mods

/-- difficulty.go:78-86, with the receiver's two fields as arguments -/
def modifiedTime (mods : Modifier) (customSpeed time : D) : D :=
  if Modifier.active mods Mod.DoubleTime then time /. (lit 1.5 *. customSpeed)
  else if Modifier.active mods Mod.HalfTime then time /. (lit 0.75 *. customSpeed)
  else time /. customSpeed

/-- difficulty.go:78-86 -/
def getModifiedTime (d : Difficulty D) (time : D) : D := modifiedTime d.mods d.customSpeed time

/-- difficulty.go:38-43 and 45-50, the effect of HardRock and Easy on one stat; `k` is the
HardRock factor -/
def adjust (mods : Modifier) (k : ℚ) (x : D) : D :=
  let x := if Modifier.active mods Mod.HardRock then fmin (x *. lit k) (lit 10) else x
  if Modifier.active mods Mod.Easy then x /. lit 2 else x

/-- difficulty.go:35-67 -/
def calculate (d : Difficulty D) : Difficulty D :=
  let ar := adjust d.mods 1.4 d.ar
  let cs := adjust d.mods 1.3 d.cs
  let od := adjust d.mods 1.4 d.od
  let hp := adjust d.mods 1.4 d.hp
  let preempt := difficultyRate ar (lit 1800) (lit 1200) (lit 450)
  let hit300 := difficultyRate od (lit 80) (lit 50) (lit 20)
  { d with
    hpMod := hp
    circleRadius := difficultyRate cs (lit 54.4) (lit 32) (lit 9.6)
    preempt := preempt
    hit50 := difficultyRate od (lit 200) (lit 150) (lit 100)
    hit100 := difficultyRate od (lit 140) (lit 100) (lit 60)
    hit300 := hit300
    spinnerRatio := difficultyRate od (lit 3) (lit 5) (lit 7.5)
    speed := lit 1 /. d.getModifiedTime (lit 1)
    arReal := diffFromRate (d.getModifiedTime preempt) (lit 1800) (lit 1200) (lit 450)
    odReal := diffFromRate (d.getModifiedTime hit300) (lit 80) (lit 50) (lit 20) }

/-- difficulty.go:24-33; fields that Go zero-initialises are overwritten by `calculate` -/
def new (hp cs od ar : D) : Difficulty D :=
  calculate
    { hp, cs, od, ar, customSpeed := lit 1, mods := 0
      preempt := lit 0, circleRadius := lit 0, hit50 := lit 0, hit100 := lit 0, hit300 := lit 0
      hpMod := lit 0, spinnerRatio := lit 0, speed := lit 0, arReal := lit 0, odReal := lit 0 }

/-- difficulty.go:69-72 -/
def setMods (d : Difficulty D) (mods : Modifier) : Difficulty D := calculate { d with mods }
/-- difficulty.go:92-95 -/
def setHP (d : Difficulty D) (hp : D) : Difficulty D := calculate { d with hp }
/-- difficulty.go:101-104 -/
def setCS (d : Difficulty D) (cs : D) : Difficulty D := calculate { d with cs }
/-- difficulty.go:110-113 -/
def setOD (d : Difficulty D) (od : D) : Difficulty D := calculate { d with od }
/-- difficulty.go:119-122 -/
def setAR (d : Difficulty D) (ar : D) : Difficulty D := calculate { d with ar }
/-- difficulty.go:124-127 -/
def setCustomSpeed (d : Difficulty D) (customSpeed : D) : Difficulty D :=
  calculate { d with customSpeed }
/-- difficulty.go:88-90 -/
def getHP (d : Difficulty D) : D := d.hp
/-- difficulty.go:97-99 -/
def getCS (d : Difficulty D) : D := d.cs
/-- difficulty.go:106-108 -/
def getOD (d : Difficulty D) : D := d.od
/-- difficulty.go:115-117 -/
def getAR (d : Difficulty D) : D := d.ar

end Difficulty
end GosuPP
