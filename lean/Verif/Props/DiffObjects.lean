import Verif.Lemmas.DiffObjects
import Verif.Props.Sample

/-!
# C48: difficulty objects
-/

namespace GosuPP.Props
open Go Fl Spec

/-- C48. There is one difficulty object fewer than hit objects (none for an empty list). -/
theorem C48_count {S D : Type} [GoFloat S] [GoFloat D] [GoConv S D] [GoLibm D] {d : Difficulty D}
    {objs : List (Obj S D)} {ds : List (DiffObject S D)} (h : createDifficultyObjects objs d = .ok ds) :
    ds.length = objs.length - 1 :=
  createDifficultyObjects_length h

/-- C48. Each difficulty object depends only on the hit objects up to it: shortening the map keeps
the difficulty objects of the remaining hit objects. -/
theorem C48_prefix {S D : Type} [GoFloat S] [GoFloat D] [GoConv S D] [GoLibm D] {d : Difficulty D}
    {objs : List (Obj S D)} {ds : List (DiffObject S D)} (h : createDifficultyObjects objs d = .ok ds)
    (n : Nat) : createDifficultyObjects (objs.take (n + 1)) d = .ok (ds.take n) :=
  createDifficultyObjects_take h n

/-- C48. Every difficulty object describes a hit object and its predecessor, in IEEE arithmetic,
whatever the library functions compute as long as `math.Pow(x, 0.4)` is not negative. -/
theorem C48_describes [GoLibm F64] (hp : PowSign) {d : Difficulty F64} {objs : List (Obj F32 F64)}
    {ds : List (DiffObject F32 F64)} (h : createDifficultyObjects objs d = .ok ds) (i : Nat)
    (hi : i < ds.length) :
    ∃ prev cur, objs[i]? = some prev ∧ objs[i + 1]? = some cur ∧ Describes d.speed prev cur ds[i] := by
  obtain ⟨a, b, c, x, y, hx, hy, ha, hb, ho⟩ :=
    createDifficultyObjects_get h (List.getElem?_eq_getElem hi)
  refine ⟨x, y, hx, hy, ?_⟩
  rw [ho]
  exact newDiffObject_describes hp ha hb c

/-- C48. With finite start times and a finite nonzero clock rate the strain time is a number; it is
the larger of 25 ms and the interval. -/
theorem C48_strain_time [GoLibm F64] {d : Difficulty F64} {objs : List (Obj F32 F64)}
    {ds : List (DiffObject F32 F64)} (h : createDifficultyObjects objs d = .ok ds)
    (hf : ∀ o ∈ objs, Fl.Fin o.base.startTime) {v : ℚ} {b : Bool} (hs : d.speed = fin v b) (hv : v ≠ 0)
    (i : Nat) (hi : i < ds.length) :
    Fl.le (lit 25) ds[i].strainTime = true ∧ Fl.le ds[i].deltaTime ds[i].strainTime = true ∧
      (ds[i].strainTime = lit 25 ∨ ds[i].strainTime = ds[i].deltaTime) := by
  obtain ⟨p, q, c, x, y, hx, hy, ha, hb, ho⟩ :=
    createDifficultyObjects_get h (List.getElem?_eq_getElem hi)
  obtain ⟨t1, t2, t3, t4, t5⟩ := newDiffObject_times q c p d
  have hpx := (decorate_obj ha).1
  have hqy := (decorate_obj hb).1
  have fx : Fl.Fin x.base.startTime := hf x (List.mem_of_getElem? hx)
  have fy : Fl.Fin y.base.startTime := hf y (List.mem_of_getElem? hy)
  have hn : NN ((q.obj.base.startTime -. p.obj.base.startTime) /. d.speed) := by
    rw [hs, go_div]
    refine div_fin_nn ?_ hv b
    rw [go_sub, hpx, hqy]
    obtain ⟨w, c', hw⟩ := fx
    rw [hw]
    exact sub_fin_nn fy.nn w c'
  rw [ho, t5, t4]
  have hs := fmax_spec hn (lit_nn 25)
  exact ⟨hs.2.1, hs.1, hs.2.2.symm⟩

/-- What is seen of the difficulty objects of a sample: the number of objects, and per object whether
it follows or is a spinner, whether all its distances are zero, whether the strain time is 25, and
whether the travel time is at least 25. -/
def Sample.diffObjects (text : Str) (mods : Modifier) : Option (Nat × List (List Bool)) :=
  (Sample.observe text (fun m =>
    ((@createDifficultyObjects F32 F64 _ _ _ Sample.libm m.hitObjects (m.difficulty.setMods mods)).toOption).map
      (fun ds => (m.hitObjects.length, ds.map (fun o =>
        [o.baseObject.obj.isSpinner, decide (o.jumpDistance = lit 0), decide (o.movementDistance = lit 0),
         decide (o.strainTime = lit 25), Fl.le (lit 25) o.travelTime]))))).join

/-- C48: six hit objects, five difficulty objects; the third is the spinner, the last follows a slider. -/
example : Sample.diffObjects Sample.stacked Mod.None = some (6,
    [[false, false, false, false, false], [false, true, true, false, false],
     [true, true, true, false, false], [false, true, true, false, false],
     [false, false, true, false, true]]) := by decide +kernel

/-- C48: the hypothesis on the library holds for the sample library. -/
example : @PowSign Sample.libm := by
  intro x
  exact atLeast_zero.mpr nn0_zero

/-- C48: the hypotheses on times and clock rate hold for the sample, also with DoubleTime. -/
example : Sample.observe Sample.stacked (fun m => (m.hitObjects.map (fun o => isFin o.base.startTime),
      (m.difficulty.setMods Mod.DoubleTime).speed)) =
    some ([true, true, true, true, true, true], lit 1.5) := by decide +kernel

end GosuPP.Props
