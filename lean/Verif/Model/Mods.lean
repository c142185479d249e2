import Verif.Go.Str

/-!
# `beatmap/difficulty/mods.go`
-/

namespace GosuPP
open Go

/-- mods.go:3 `type Modifier int64` -/
abbrev Modifier := BitVec 64

namespace Mod
/- mods.go:5-40: `None = 0`, then one bit per mod in order. -/
def None : Modifier := 0
def bit (i : Nat) : Modifier := 1#64 <<< i
def NoFail := bit 0
def Easy := bit 1
def TouchDevice := bit 2
def Hidden := bit 3
def HardRock := bit 4
def SuddenDeath := bit 5
def DoubleTime := bit 6
def Relax := bit 7
def HalfTime := bit 8
def Nightcore := bit 9
def Flashlight := bit 10
def Autoplay := bit 11
def SpunOut := bit 12
def Relax2 := bit 13
def Perfect := bit 14
def Key4 := bit 15
def Key5 := bit 16
def Key6 := bit 17
def Key7 := bit 18
def Key8 := bit 19
def FadeIn := bit 20
def Random := bit 21
def Cinema := bit 22
def Target := bit 23
def Key9 := bit 24
def KeyCoop := bit 25
def Key1 := bit 26
def Key3 := bit 27
def Key2 := bit 28
def ScoreV2 := bit 29
def LastMod := bit 30
def Daycore := bit 31
/-- mods.go:39 -/
def DifficultyAdjustMask : Modifier :=
  HardRock ||| Easy ||| DoubleTime ||| Nightcore ||| HalfTime ||| Daycore ||| Flashlight ||| Relax
end Mod

/-- mods.go:42-75 -/
def modsString : List Str :=
  ["NF", "EZ", "TD", "HD", "HR", "SD", "DT", "RX", "HT", "NC", "FL", "AT", "SO", "AP", "PF",
   "K4", "K5", "K6", "K7", "K8", "FI", "RN", "CN", "TG", "K9", "K0", "K1", "K3", "K2", "V2",
   "LM", "DC"].map String.toList

/-- mods.go:77-110 -/
def modsStringFull : List Str :=
  ["NoFail", "Easy", "TouchDevice", "Hidden", "HardRock", "SuddenDeath", "DoubleTime", "Relax",
   "HalfTime", "Nightcore", "Flashlight", "Autoplay", "SpunOut", "Relax2", "Perfect", "Key4",
   "Key5", "Key6", "Key7", "Key8", "FadeIn", "Random", "Cinema", "Target", "Key9", "KeyCoop",
   "Key1", "Key3", "Key2", "ScoreV2", "LastMod", "Daycore"].map String.toList

namespace Modifier

/-- The Go expression `x > 0` on an `int64`. -/
def pos (x : BitVec 64) : Bool := decide (0 < x.toInt)

/-- mods.go:242-244 `Active`; also the inlined `mods&mod > 0` used everywhere. -/
def active (mods mod : Modifier) : Bool := pos (mods &&& mod)

/-- mods.go:112-160 -/
def getScoreMultiplier {D : Type} [GoFloat D] (mods : Modifier) : D :=
  let m : D := lit 1
  let m := if active mods Mod.NoFail && (mods &&& Mod.ScoreV2) == 0 then m *. lit 0.5 else m
  let m := if active mods Mod.Easy then m *. lit 0.5 else m
  let m := if active mods Mod.HalfTime then m *. lit 0.3 else m
  let m := if active mods Mod.Hidden then m *. lit 1.06 else m
  let m := if active mods Mod.HardRock then
      (if active mods Mod.ScoreV2 then m *. lit 1.10 else m *. lit 1.06) else m
  let m := if active mods Mod.DoubleTime then
      (if active mods Mod.ScoreV2 then m *. lit 1.20 else m *. lit 1.12) else m
  let m := if active mods Mod.Flashlight then m *. lit 1.12 else m
  let m := if pos ((mods &&& Mod.Relax) ||| (mods &&& Mod.Relax2)) then lit 0 else m
  let m := if active mods Mod.SpunOut then m *. lit 0.9 else m
  m

/-- mods.go:163-173 (and 188-198): mods implied by another one are not printed. -/
def dropImplied (mods : Modifier) : Modifier :=
  let mods := if active mods Mod.Nightcore then mods &&& ~~~Mod.DoubleTime else mods
  let mods := if active mods Mod.Daycore then mods &&& ~~~Mod.HalfTime else mods
  if active mods Mod.Perfect then mods &&& ~~~Mod.SuddenDeath else mods

/-- mods.go:175-182 the loop over the name table; `mods >>= 1` is an arithmetic shift. -/
def stringLoop : List Str → Modifier → Str
  | [], _ => []
  | name :: rest, mods =>
    (if mods &&& 1 == 1 then name else []) ++ stringLoop rest (mods.sshiftRight 1)

/-- mods.go:162-185 -/
def string (mods : Modifier) : Str := stringLoop modsString (dropImplied mods)

/-- mods.go:200-207 -/
def stringFullLoop : List Str → Modifier → List Str
  | [], _ => []
  | name :: rest, mods =>
    (if mods &&& 1 == 1 then [name] else []) ++ stringFullLoop rest (mods.sshiftRight 1)

/-- mods.go:187-210 -/
def stringFull (mods : Modifier) : List Str := stringFullLoop modsStringFull (dropImplied mods)

/-- mods.go:214-216: `for n, modPart := range mods { modsSl[n/2] += string(modPart) }`, where
`n` is the byte index of the character. -/
def scatter : Str → Nat → List Str → Result (List Str)
  | [], _, sl => .ok sl
  | c :: cs, n, sl =>
    match sl[n / 2]? with
    | none => .error .panic
    | some part => scatter cs (n + c.utf8Size) (sl.set (n / 2) (part ++ [c]))

/-- mods.go:219-224: the index of the first equal name. -/
def lookup (name : Str) : List Str → Nat → Option Nat
  | [], _ => none
  | a :: rest, i => if a = name then some i else lookup name rest (i + 1)

/-- mods.go:218-225 -/
def collect : List Str → Modifier → Modifier
  | [], m => m
  | s :: rest, m =>
    match lookup s modsString 0 with
    | some i => collect rest (m ||| Mod.bit i)
    | none => collect rest m

/-- mods.go:227-237 -/
def addImplied (m : Modifier) : Modifier :=
  let m := if active m Mod.Nightcore then m ||| Mod.DoubleTime else m
  let m := if active m Mod.Perfect then m ||| Mod.SuddenDeath else m
  if active m Mod.Daycore then m ||| Mod.HalfTime else m

/-- mods.go:212-240 -/
def parseMods (mods : Str) : Result Modifier := do
  let sl ← scatter mods 0 (List.replicate (byteLen mods / 2) [])
  return addImplied (collect sl 0)

/-- mods.go:246-262 -/
def compatible (mods : Modifier) : Bool :=
  if mods == Mod.None then true
  else if active mods Mod.Target ||
      (active mods Mod.HardRock && active mods Mod.Easy) ||
      ((active mods Mod.Nightcore || active mods Mod.DoubleTime) &&
        (active mods Mod.HalfTime || active mods Mod.Daycore)) ||
      ((active mods Mod.Perfect || active mods Mod.SuddenDeath) && active mods Mod.NoFail) ||
      (active mods Mod.Relax && active mods Mod.Relax2) ||
      ((active mods Mod.Relax || active mods Mod.Relax2) &&
        (active mods Mod.SuddenDeath || active mods Mod.Perfect || active mods Mod.Autoplay ||
          active mods Mod.NoFail)) ||
      (active mods Mod.Relax2 && active mods Mod.SpunOut) then false
  else true

end Modifier
end GosuPP
