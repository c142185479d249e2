import Verif.Exec.Native
import Verif.Go.SortInst
import Verif.Model.Parser
import Verif.Model.PP

/-!
# Running the model on the test maps of `/repo/test`

`lake env lean --run Verif/Exec/Main.lean MAP.osu` prints what the tests of the repository
check. This is a fidelity check of the model, not a proof.
-/

open Go GosuPP Go.Native

instance : GoSort := insertionGoSort

def runOne (objs : List (Obj Float32 Float)) (d : Difficulty Float) : IO Unit := do
  match calculateSingle 100000 objs d with
  | .error e => IO.println s!"fault {repr e}"
  | .ok a =>
    IO.println s!"  stars aim {a.aim} speed {a.speed} total {a.total} fl {a.flashlight} sf {a.sliderFactor} combo {a.maxCombo} objs {a.objectCount} c {a.circles} s {a.sliders} sp {a.spinners}"
    let z : PPv2 Float :=
      { results := ⟨0, 0, 0, 0, 0⟩, attribs := Attributes.zero, scoreMaxCombo := 0, countGreat := 0
        countOk := 0, countMeh := 0, countMiss := 0, effectiveMissCount := 0, diff := d
        totalHits := 0, accuracy := 0, amountHitObjectsWithAccuracy := 0 }
    let r := (z.ppv2x a (-1) (-1) 0 0 0 d).results
    IO.println s!"  pp aim {r.aim} speed {r.speed} acc {r.acc} fl {r.flashlight} total {r.total}"

def main (args : List String) : IO Unit := do
  for f in args do
    IO.println f
    let text ← IO.FS.readFile f
    let text := if text.startsWith "﻿" then text.drop 1 |>.toString else text
    match (parseText 1000000 text.toList : Result (Option (BeatMap Float32 Float))) with
    | .error e => IO.println s!"fault {repr e}"
    | .ok none => IO.println "corrupted file"
    | .ok (some b) =>
      IO.println s!"{String.ofList b.title} objects {b.hitObjects.length} length {b.length} bpm {b.minBPM}-{b.maxBPM}"
      for (name, m) in [("NM", Mod.None), ("DT", Mod.DoubleTime), ("HR", Mod.HardRock), ("FL", Mod.Flashlight)] do
        IO.println name
        runOne b.hitObjects (b.difficulty.setMods m)
