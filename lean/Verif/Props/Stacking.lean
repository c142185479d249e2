import Verif.Lemmas.Stacking
import Verif.Props.Sample

/-! # Properties of stacking -/

namespace GosuPP.Props
open Go
variable {S D : Type} [GoFloat S] [GoFloat D] [GoConv S D]

/-- C28. On objects as the parser creates them (no stack data yet) the stack index and offset of
each variant are those that running this variant alone would give. -/
theorem C28_each_alone (version : Int) (d : Difficulty D) (sl : D) (objs : List (Obj S D))
    (h0 : ∀ o ∈ objs, Spec.unstack o = o) (v : Spec.Variant) :
    (Stacking.calculate version d sl objs).map (fun o => Spec.stackOf o v) =
      (Spec.runVariant version d sl v objs).map (fun o => Spec.stackOf o v) := by
  have h := runAll_only version d sl v [.nm, .ez, .hr] (by decide) objs (fresh_spin h0)
  rw [← calculate_eq_runs, if_pos (by cases v <;> decide)] at h
  have h' : (Spec.runVariant version d sl v objs).map (Spec.only v) =
      Spec.runVariant version d sl v (objs.map (Spec.only v)) :=
    process_only _ _ _ _ (variantMods d v) _
  have := congrArg (List.map (fun o => Spec.stackOf o v)) (h.trans h'.symm)
  rw [List.map_map, List.map_map] at this
  have he : (fun o : Obj S D => Spec.stackOf o v) ∘ Spec.only v = fun o => Spec.stackOf o v := by
    funext o; cases v <;> rfl
  rwa [he] at this

/-- C28. The order in which the three variants are computed does not matter. -/
theorem C28_order (version : Int) (d : Difficulty D) (sl : D) (objs : List (Obj S D))
    (h0 : ∀ o ∈ objs, Spec.unstack o = o) (vs : List Spec.Variant)
    (hp : vs.Perm [.nm, .ez, .hr]) :
    vs.foldl (fun l w => Spec.runVariant version d sl w l) objs =
      Stacking.calculate version d sl objs := by
  apply map_only_ext
  intro v
  have hnd : vs.Nodup := hp.nodup_iff.mpr (by decide)
  rw [calculate_eq_runs, runAll_only _ _ _ _ _ hnd _ (fresh_spin h0),
    runAll_only _ _ _ _ _ (by decide) _ (fresh_spin h0)]
  simp only [hp.mem_iff]

variable [GoSort] [GoLibm D]

/-- C28 for a parsed map: the data of each variant is what running this variant alone on the
objects without stack data gives. -/
theorem C28_parsed (fuel : Nat) (text : Str) (m : BeatMap S D)
    (h : parseText fuel text = .ok (some m)) (v : Spec.Variant) :
    m.hitObjects.map (fun o => Spec.stackOf o v) =
      (Spec.runVariant m.fileVersion m.difficulty m.stackLeniency v
        (m.hitObjects.map Spec.unstack)).map (fun o => Spec.stackOf o v) := by
  obtain ⟨st, hl, objs, hobj, rfl⟩ := parseText_some h
  have hf := parsed_fresh hl hobj
  have : (Stacking.calculate st.beatMap.fileVersion st.beatMap.difficulty st.beatMap.stackLeniency
      objs).map Spec.unstack = objs := by
    rw [Stacking.calculate_frame]
    exact (List.map_congr_left hf).trans (List.map_id _)
  simp only
  rw [this]
  exact C28_each_alone _ _ _ objs hf v

example : Sample.observe Sample.stacked (fun m => m.hitObjects.map (fun o =>
      (o.base.stackIndex, o.base.stackIndexEZ, o.base.stackIndexHR))) =
    some [(1, 2, 0), (0, 1, 0), (0, 0, 0), (0, 0, 0), (0, 0, 0),
      (-1, -1, -1)] := by decide +kernel

omit [GoSort] [GoLibm D] in
/-- C29. Stacking changes nothing but stack data; in a parsed map every spinner has stack index 0
for every mod combination and all its stack offsets are zero. -/
theorem C29_frame (version : Int) (d : Difficulty D) (sl : D) (objs : List (Obj S D)) :
    (Stacking.calculate version d sl objs).map Spec.unstack = objs.map Spec.unstack :=
  Stacking.calculate_frame _ _ _ _

theorem C29_spinners (fuel : Nat) (text : Str) (m : BeatMap S D)
    (h : parseText fuel text = .ok (some m)) (o : Obj S D) (ho : o ∈ m.hitObjects)
    (hs : o.isSpinner = true) :
    (∀ mods, o.base.getStackIndex mods = 0) ∧ o.base.stackOffset = Vec.zero ∧
      o.base.stackOffsetEZ = Vec.zero ∧ o.base.stackOffsetHR = Vec.zero := by
  obtain ⟨st, hl, objs, hobj, rfl⟩ := parseText_some h
  have := calculate_spin _ _ _ objs (parsed_fresh hl hobj) o ho hs
  rw [← this]
  refine ⟨fun mods => ?_, rfl, rfl, rfl⟩
  unfold HitObject.getStackIndex
  split
  · rfl
  split <;> rfl

end GosuPP.Props
