import Verif.Go.IEEE
import Verif.Go.SortInst
import Verif.Model.Parser

/-!
# A sample file, for the concrete cases beside the theorems
-/

namespace GosuPP.Sample
open Go

/-- Some library functions; the sample does not call them. -/
@[instance_reducible] def libm : GoLibm F64 :=
  { pow := fun _ _ => lit 0, sin := fun _ => lit 0, cos := fun _ => lit 0, acos := fun _ => lit 0
    atan2 := fun _ _ => lit 0, log10 := fun _ => lit 0, cbrt := fun _ => lit 0 }

/-- `ParseFromReader` in IEEE arithmetic -/
def parse (text : Str) : Result (Option (BeatMap F32 F64)) :=
  @parseText F32 F64 _ _ _ insertionGoSort libm 100 text

/-- What a test observes of a parsed map. -/
def observe {α : Type} (text : Str) (f : BeatMap F32 F64 → α) : Option α :=
  match parse text with
  | .ok (some m) => some (f m)
  | _ => none

def text : Str := "osu file format v14
[General]
StackLeniency: 0.7
// a comment
[Metadata]
Title:a
Version: Hard
[Difficulty]
HPDrainRate:NaN
ApproachRate:9
OverallDifficulty: 8.5
CircleSize:40
SliderMultiplier:1
SliderTickRate:1
[Extra]
0,0,0
[TimingPoints]
0,500,4,1,0,100,1,0
100,-50,4,1,0,100,0,0
2000,250
[HitObjects]
256,192,1000,1,0
0,0,500,5,0
256,192,3000,12,0,4000
64,64,1000,2,0,L|164:64,1,100
10,10,5000,1,0
20,20,6000,128,0,7000:0
".toList

/-- Circles that stack differently under the three variants, a spinner and a slider whose end
is stacked on. -/
def stacked : Str := "osu file format v14
[Metadata]
Title:a
[Difficulty]
SliderMultiplier:1
SliderTickRate:1
ApproachRate:5
[TimingPoints]
0,500,4,1,0,100,1,0
[HitObjects]
100,100,1000,1,0
100,100,1700,1,0
100,100,2600,1,0
256,192,3000,12,0,4000
64,64,5000,2,0,L|164:64,1,100
164,64,5900,1,0
".toList

end GosuPP.Sample
