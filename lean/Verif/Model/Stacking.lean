import Verif.Model.Objects

/-!
# `beatmap/stackleniency.go`

The slice of hit objects is a list, `objectI`/`objectN` are indices into it, and the functions
return the updated list. Loops that count down carry the number of iterations left.
-/

namespace GosuPP
open Go

variable {S D : Type} [GoFloat S]

namespace Obj
/-- hitobject.go:179-188 through the interface -/
def setStackIndex (o : Obj S D) (index : Int) (m : Modifier) : Obj S D :=
  { o with base := o.base.setStackIndex index m }
/-- hitobject.go:190-199 through the interface -/
def setStackOffset (o : Obj S D) (offset : S) (m : Modifier) : Obj S D :=
  { o with base := o.base.setStackOffset offset m }
end Obj

namespace Stacking

/-- `hitObjects[i].GetStackIndex(m)`, for an index in range -/
def getIdx (objs : List (Obj S D)) (i : Nat) (m : Modifier) : Int :=
  match objs[i]? with
  | some o => o.base.getStackIndex m
  | none => 0

/-- `hitObjects[i].SetStackIndex(v, m)`, for an index in range -/
def setIdx (objs : List (Obj S D)) (i : Nat) (v : Int) (m : Modifier) : List (Obj S D) :=
  objs.modify i (fun o => o.setStackIndex v m)

variable [GoFloat D] [GoConv S D]

/-- `a.Dst(b) < stackDistance`, stackleniency.go:11 -/
def near (a b : Vec S) : Bool := a.dst b <. lit 3

/-- stackleniency.go:66-86, at index `n` with `k` iterations left; returns the objects and the
final `stackBaseIndex` -/
def baseLoop (m : Modifier) (thr : D) : Nat → Nat → Nat → List (Obj S D) → List (Obj S D) × Nat
  | 0, _, base, objs => (objs, base)
  | k + 1, n, base, objs =>
    match objs[base]?, objs[n]? with
    | some oB, some oN =>
      if oB.isSpinner then (objs, base)
      else if oN.isSpinner then baseLoop m thr k (n + 1) base objs
      else if oN.base.startTime -. oB.base.endTime >. thr then (objs, base)
      else if near oB.base.startPosRaw oN.base.startPosRaw ||
          (oB.isSlider && near oB.base.endPosRaw oN.base.startPosRaw) then
        baseLoop m thr k (n + 1) n (setIdx objs n 0 m)
      else baseLoop m thr k (n + 1) base objs
    | _, _ => (objs, base)

/-- stackleniency.go:63-95; the argument is `i + 1`, `ext` is `extendedEndIndex` -/
def extendLoop (m : Modifier) (thr : D) : Nat → Int → List (Obj S D) → List (Obj S D) × Int
  | 0, ext, objs => (objs, ext)
  | i + 1, ext, objs =>
    let (objs, base) := baseLoop m thr (objs.length - (i + 1)) (i + 1) i objs
    if (base : Int) > ext then
      if (base : Int) = (objs.length : Int) - 1 then (objs, (base : Int))
      else extendLoop m thr i base objs
    else extendLoop m thr i ext objs

/-- stackleniency.go:126-131; every iteration changes only its own object -/
def shift (m : Modifier) (endPos : Vec S) (lo hi : Nat) (offset : Int) (objs : List (Obj S D)) :
    List (Obj S D) :=
  objs.mapIdx fun j o =>
    if lo ≤ j ∧ j ≤ hi ∧ near endPos o.base.startPosRaw = true then
      o.setStackIndex (o.base.getStackIndex m - offset) m
    else o

/-- stackleniency.go:108-140; the first argument after `i` is `n + 1`, `cur` is the index of
`objectI` and `es` is `extendedStartIndex` -/
def circleLoop (m : Modifier) (thr : D) (i : Nat) :
    Nat → Nat → Nat → List (Obj S D) → List (Obj S D) × Nat
  | 0, _, es, objs => (objs, es)
  | n + 1, cur, es, objs =>
    match objs[cur]?, objs[n]? with
    | some oI, some oN =>
      if oN.isSpinner then circleLoop m thr i n cur es objs
      else if oI.base.startTime -. oN.base.endTime >. thr then (objs, es)
      else
        let (objs, es) := if n < es then (setIdx objs n 0 m, n) else (objs, es)
        if oN.isSlider && near oN.base.endPosRaw oI.base.startPosRaw then
          let offset := getIdx objs cur m - getIdx objs n m + 1
          (shift m oN.base.endPosRaw (n + 1) i offset objs, es)
        else if near oN.base.startPosRaw oI.base.startPosRaw then
          circleLoop m thr i n n es (setIdx objs n (getIdx objs cur m + 1) m)
        else circleLoop m thr i n cur es objs
    | _, _ => (objs, es)

/-- stackleniency.go:143-159; the first numeric argument is `n + 1` -/
def sliderLoop (m : Modifier) (thr : D) : Nat → Nat → List (Obj S D) → List (Obj S D)
  | 0, _, objs => objs
  | n + 1, cur, objs =>
    match objs[cur]?, objs[n]? with
    | some oI, some oN =>
      if oN.isSpinner then sliderLoop m thr n cur objs
      else if oI.base.startTime -. oN.base.startTime >. thr then objs
      else if near oN.base.endPosRaw oI.base.startPosRaw then
        sliderLoop m thr n n (setIdx objs n (getIdx objs cur m + 1) m)
      else sliderLoop m thr n cur objs
    | _, _ => objs

/-- stackleniency.go:98-161; the first numeric argument is `i` -/
def mainLoop (m : Modifier) (thr : D) : Nat → Nat → List (Obj S D) → List (Obj S D)
  | 0, _, objs => objs
  | i + 1, es, objs =>
    match objs[i + 1]? with
    | some oI =>
      if oI.base.getStackIndex m ≠ 0 ∨ oI.isSpinner = true then mainLoop m thr i es objs
      else if !oI.isSlider && !oI.isSpinner then
        let (objs, es) := circleLoop m thr (i + 1) (i + 1) (i + 1) es objs
        mainLoop m thr i es objs
      else if oI.isSlider then mainLoop m thr i es (sliderLoop m thr (i + 1) (i + 1) objs)
      else mainLoop m thr i es objs
    | none => objs

/-- stackleniency.go:61-162 -/
def applyNew (m : Modifier) (thr : D) (objs : List (Obj S D)) : List (Obj S D) :=
  let (objs, ext) := extendLoop m thr objs.length ((objs.length : Int) - 1) objs
  mainLoop m thr ext.toNat 0 objs

/-- stackleniency.go:173-188, at index `n` with `k` iterations left -/
def oldInner (m : Modifier) (thr : D) (i : Nat) :
    Nat → Nat → D → Int → List (Obj S D) → List (Obj S D)
  | 0, _, _, _, objs => objs
  | k + 1, n, startTime, sliderStack, objs =>
    match objs[i]?, objs[n]? with
    | some oI, some oN =>
      if oN.base.startTime -. thr >. startTime then objs
      else if near oN.base.startPosRaw oI.base.startPosRaw then
        oldInner m thr i k (n + 1) oN.base.endTime sliderStack
          (setIdx objs i (getIdx objs i m + 1) m)
      else if near oN.base.startPosRaw oI.base.endPosRaw then
        oldInner m thr i k (n + 1) oN.base.endTime (sliderStack + 1)
          (setIdx objs n (getIdx objs n m - (sliderStack + 1)) m)
      else oldInner m thr i k (n + 1) startTime sliderStack objs
    | _, _ => objs

/-- stackleniency.go:165-190, at index `i` with `k` iterations left -/
def oldLoop (m : Modifier) (thr : D) : Nat → Nat → List (Obj S D) → List (Obj S D)
  | 0, _, objs => objs
  | k + 1, i, objs =>
    match objs[i]? with
    | some oI =>
      if oI.base.getStackIndex m = 0 ∨ oI.isSlider = true then
        oldLoop m thr k (i + 1)
          (oldInner m thr i (objs.length - (i + 1)) (i + 1) oI.base.endTime 0 objs)
      else oldLoop m thr k (i + 1) objs
    | none => objs

/-- stackleniency.go:164-191 -/
def applyOld (m : Modifier) (thr : D) (objs : List (Obj S D)) : List (Obj S D) :=
  oldLoop m thr objs.length 0 objs

/-- stackleniency.go:50-58, one object -/
def finish (diff : Difficulty D) (o : Obj S D) : Obj S D :=
  if o.isSpinner then
    ((o.setStackIndex 0 Mod.None).setStackIndex 0 Mod.Easy).setStackIndex 0 Mod.HardRock
  else
    o.setStackOffset
      (fneg (ofInt (o.base.getStackIndex diff.mods)) *. down diff.circleRadius /. lit 10) diff.mods

/-- stackleniency.go:36-59 -/
def process (version : Int) (diff : Difficulty D) (stackLeniency : D) (objs : List (Obj S D)) :
    List (Obj S D) :=
  let thr := GoFloat.floor (diff.preempt *. stackLeniency)
  let objs := objs.map (fun o => o.setStackIndex 0 diff.mods)
  let objs := if version ≥ 6 then applyNew diff.mods thr objs else applyOld diff.mods thr objs
  objs.map (finish diff)

/-- stackleniency.go:23-34 -/
def calculate (version : Int) (d : Difficulty D) (stackLeniency : D) (objs : List (Obj S D)) :
    List (Obj S D) :=
  let fresh := Difficulty.new d.getHP d.getCS d.getOD d.getAR
  let objs := process version fresh stackLeniency objs
  let objs := process version (fresh.setMods Mod.Easy) stackLeniency objs
  process version (fresh.setMods Mod.HardRock) stackLeniency objs

end Stacking
end GosuPP
