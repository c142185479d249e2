import Verif.Lemmas.StackBounds
import Verif.Props.Stacks

/-! # How high stacks are -/

namespace GosuPP.Props
open Go Stacking

section
variable {S D : Type} [GoFloat S] [GoFloat D] [GoConv S D] [GoSort] [GoLibm D]

/-! ## C79 -/

/-- C79. In a map without sliders no stack index is negative, and the stack index of an object is at most
the number of objects after it. For every variant, in every arithmetic, under both algorithms. -/
theorem C79_bounds (fuel : Nat) (text : Str) (m : BeatMap S D) (h : parseText fuel text = .ok (some m))
    (hs : ∀ o ∈ m.hitObjects, o.isSlider = false) (i : Nat) (o : Obj S D) (ho : m.hitObjects[i]? = some o)
    (v : Spec.Variant) :
    0 ≤ (Spec.stackOf o v).1 ∧ (Spec.stackOf o v).1 + i < m.hitObjects.length := by
  have hi := lt_length ho
  cases hsp : o.isSpinner with
  | true =>
    obtain ⟨h0, -⟩ := C29_spinners fuel text m h o (List.mem_of_getElem? ho) hsp
    rw [stackOf_index, h0]
    omega
  | false =>
    have hpath : Pathless (m.hitObjects.map Spec.unstack) := by
      intro j x hx
      rw [List.getElem?_map] at hx
      cases hy : m.hitObjects[j]? with
      | none => rw [hy] at hx; cases hx
      | some y =>
        rw [hy] at hx
        cases hx
        have hm := List.mem_of_getElem? hy
        exact ⟨hs y hm, parsed_pathless h y hm (hs y hm)⟩
    obtain ⟨w, hw, hb⟩ := core_bounded (m := v.mods)
      (thr := Spec.threshold m.difficulty m.stackLeniency v) hpath m.fileVersion
    have h1 := congrArg (fun l => l[i]?) (C28_parsed fuel text m h v)
    simp only [List.getElem?_map, ho, Option.map_some] at h1
    rw [runVariant_get hw (show (m.hitObjects.map Spec.unstack)[i]? = some (Spec.unstack o) by
      rw [List.getElem?_map, ho]; rfl), Option.map_some, finish_index (o := Spec.unstack o) hsp] at h1
    rw [Option.some.inj h1]
    have := hb i (by rw [List.length_map]; exact hi)
    rw [List.length_map] at this
    exact this

/-- C79. The last object of a map without sliders is not stacked. -/
theorem C79_last (fuel : Nat) (text : Str) (m : BeatMap S D) (h : parseText fuel text = .ok (some m))
    (hs : ∀ o ∈ m.hitObjects, o.isSlider = false) (o : Obj S D) (ho : m.hitObjects.getLast? = some o)
    (v : Spec.Variant) : (Spec.stackOf o v).1 = 0 := by
  rw [List.getLast?_eq_getElem?] at ho
  have := C79_bounds fuel text m h hs _ o ho v
  have := lt_length ho
  omega

/-- C79. In every map, each coordinate of the stack offset of a circle or slider is the negated stack index
times the circle radius of the variant divided by ten. -/
theorem C79_offset (fuel : Nat) (text : Str) (m : BeatMap S D) (h : parseText fuel text = .ok (some m))
    (o : Obj S D) (ho : o ∈ m.hitObjects) (hs : o.isSpinner = false) (v : Spec.Variant) :
    let d := m.difficulty
    let r := ((Difficulty.new d.getHP d.getCS d.getOD d.getAR).setMods v.mods).circleRadius
    let x := fneg (ofInt (Spec.stackOf o v).1) *. down r /. lit 10
    (Spec.stackOf o v).2 = ⟨lit 1 *. x, lit 1 *. x⟩ := by
  obtain ⟨i, hi⟩ := List.getElem?_of_mem ho
  have h1 := congrArg (fun l => l[i]?) (C28_parsed fuel text m h v)
  have hsp := congrArg (fun l => (l[i]?).map Obj.isSpinner)
    (process_frame m.fileVersion ((Difficulty.new m.difficulty.getHP m.difficulty.getCS m.difficulty.getOD
      m.difficulty.getAR).setMods v.mods) m.stackLeniency (m.hitObjects.map Spec.unstack))
  simp only [List.getElem?_map, hi, Option.map_some] at h1 hsp
  unfold Spec.runVariant at h1
  rw [process_eq, List.getElem?_map] at h1 hsp
  generalize (core (S := S) (D := D) m.fileVersion _ _ _)[i]? = q at h1 hsp
  cases q with
  | none => cases h1
  | some q =>
    simp only [Option.map_some, Option.some.injEq] at h1 hsp
    have hq : q.isSpinner = false := by
      rw [← finish_spinner]
      exact (show _ = _ from hsp).trans hs
    have := finish_offset (d := m.difficulty) (v := v) hq
    simp only at this ⊢
    rw [h1, this]
    rfl

end

/-- A map without sliders. -/
def Sample.circles : Str := "osu file format v14
[Metadata]
Title:a
[Difficulty]
ApproachRate:5
[TimingPoints]
0,500,4,1,0,100,1,0
[HitObjects]
100,100,1000,1,0
100,100,1700,1,0
100,100,2600,1,0
256,192,3000,12,0,4000
300,100,5000,1,0
300,100,5100,1,0
".toList

/-- The bound is reached: the first circle of the last pair has index 1, and there is one object after it. -/
example : Sample.observe Sample.circles (fun m => (m.hitObjects.all (fun o => !o.isSlider),
      m.hitObjects.map (fun o => (o.base.stackIndex, o.base.stackIndexEZ, o.base.stackIndexHR)))) =
    some (true, [(1, 2, 0), (0, 1, 0), (0, 0, 0), (0, 0, 0), (1, 1, 1), (0, 0, 0)]) := by decide +kernel

/-- The offset of that circle: a tenth of its radius to the left and up. -/
example : Sample.observe Sample.circles (fun m => (m.hitObjects.map (fun o => o.base.stackOffset.x)).drop 4) =
    some [Fl.neg (down (Difficulty.new (lit 5) (lit 5) (lit 5) (lit 5 : F64)).circleRadius /. lit 10), Fl.fin 0 true] := by
  decide +kernel

/-- C79 needs the absence of sliders: a circle at the end of a slider has index -1. -/
theorem C79_slider_end : ∃ m, Sample.parse Sample.stacked = .ok (some m) ∧
    ∃ o ∈ m.hitObjects, (Spec.stackOf o .nm).1 < 0 := by
  have h : Sample.observe Sample.stacked (fun m => m.hitObjects.any (fun o => decide ((Spec.stackOf o .nm).1 < 0))) =
      some true := by decide +kernel
  unfold Sample.observe at h
  split at h
  · rename_i m hm
    obtain ⟨o, ho, hd⟩ := List.any_eq_true.mp (Option.some.inj h)
    exact ⟨m, hm, o, ho, of_decide_eq_true hd⟩
  · cases h

/-- Eight objects close to each other, two of them sliders. -/
def Sample.tower : Str := "osu file format v14
[General]
StackLeniency:1
[Metadata]
Title:a
[Difficulty]
SliderMultiplier:1
SliderTickRate:1
ApproachRate:5
[TimingPoints]
0,500,4,1,0,100,1,0
[HitObjects]
10.8,0,1000,2,0,L|7.2:0,1,3.6
4.8,0,1001,1,0
2.4,0,1002,1,0
4.8,0,1003,2,0,L|9.6:0,1,4.8
7.2,0,1004,1,0
10.8,0,1005,1,0
0,0,1006,1,0
3.6,0,1007,1,0
".toList

/-- C79. With sliders the bound fails, also for the magnitude of the index: a map of eight objects has a stack index of -14. -/
theorem C79_slider_higher : ∃ m, Sample.parse Sample.tower = .ok (some m) ∧ m.hitObjects.length = 8 ∧
    ∃ o ∈ m.hitObjects, (Spec.stackOf o .nm).1 = -14 := by
  have h : Sample.observe Sample.tower (fun m => decide (m.hitObjects.length = 8) &&
      m.hitObjects.any (fun o => decide ((Spec.stackOf o .nm).1 = -14))) = some true := by decide +kernel
  unfold Sample.observe at h
  split at h
  · rename_i m hm
    have h := Option.some.inj h
    rw [Bool.and_eq_true, decide_eq_true_eq] at h
    obtain ⟨o, ho, hd⟩ := List.any_eq_true.mp h.2
    exact ⟨m, hm, h.1, o, ho, of_decide_eq_true hd⟩
  · cases h

end GosuPP.Props
