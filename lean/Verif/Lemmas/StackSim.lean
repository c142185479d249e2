import Verif.Lemmas.ObjFrame
import Verif.Spec.Stacking

/-! Stacking commutes with maps that keep what it looks at. -/

namespace GosuPP
open Go
variable {S D : Type} [GoFloat S] [GoFloat D] [GoConv S D]

/-- `f` keeps what stacking under `m` reads and commutes with what it writes. -/
structure StackSim (m : Modifier) (f : Obj S D → Obj S D) : Prop where
  spinner : ∀ o, (f o).isSpinner = o.isSpinner
  slider : ∀ o, (f o).isSlider = o.isSlider
  startTime : ∀ o, (f o).base.startTime = o.base.startTime
  endTime : ∀ o, (f o).base.endTime = o.base.endTime
  startPos : ∀ o, (f o).base.startPosRaw = o.base.startPosRaw
  endPos : ∀ o, (f o).base.endPosRaw = o.base.endPosRaw
  index : ∀ o, (f o).base.getStackIndex m = o.base.getStackIndex m
  set : ∀ o v, f (o.setStackIndex v m) = (f o).setStackIndex v m

namespace Stacking
variable {m : Modifier} {f : Obj S D → Obj S D}

theorem setIdx_map (h : StackSim m f) (objs : List (Obj S D)) (i : Nat) (v : Int) :
    (setIdx objs i v m).map f = setIdx (objs.map f) i v m := by
  unfold setIdx
  apply List.ext_getElem?
  intro j
  rw [List.getElem?_map, List.getElem?_modify, List.getElem?_modify, List.getElem?_map]
  cases objs[j]? with
  | none => rfl
  | some x =>
    simp only [Option.map_some, Option.map_eq_map]
    split <;> simp [h.set]

theorem getIdx_map (h : StackSim m f) (objs : List (Obj S D)) (i : Nat) :
    getIdx (objs.map f) i m = getIdx objs i m := by
  unfold getIdx
  rw [List.getElem?_map]
  cases objs[i]? with
  | none => rfl
  | some x => exact h.index x

theorem baseLoop_map (h : StackSim m f) (thr : D) (k n base : Nat) (objs : List (Obj S D)) :
    baseLoop m thr k n base (objs.map f) =
      ((baseLoop m thr k n base objs).1.map f, (baseLoop m thr k n base objs).2) := by
  induction k generalizing n base objs with
  | zero => rfl
  | succ k ih =>
    rw [baseLoop, baseLoop, List.getElem?_map, List.getElem?_map]
    cases objs[base]? with
    | none => rfl
    | some oB =>
      cases objs[n]? with
      | none => rfl
      | some oN =>
        simp only [Option.map_some, h.spinner, h.slider, h.startTime, h.endTime, h.startPos,
          h.endPos]
        split
        · rfl
        split
        · exact ih _ _ _
        split
        · rfl
        split
        · rw [← setIdx_map h]; exact ih _ _ _
        · exact ih _ _ _

theorem extendLoop_map (h : StackSim m f) (thr : D) (i : Nat) (ext : Int) (objs : List (Obj S D)) :
    extendLoop m thr i ext (objs.map f) =
      ((extendLoop m thr i ext objs).1.map f, (extendLoop m thr i ext objs).2) := by
  induction i generalizing ext objs with
  | zero => rfl
  | succ i ih =>
    rw [extendLoop, extendLoop, List.length_map, baseLoop_map h]
    generalize baseLoop m thr (objs.length - (i + 1)) (i + 1) i objs = r
    obtain ⟨o, b⟩ := r
    simp only [List.length_map]
    split
    · split
      · rfl
      · exact ih _ _
    · exact ih _ _

theorem shift_map (h : StackSim m f) (e : Vec S) (lo hi : Nat) (off : Int) (objs : List (Obj S D)) :
    (shift m e lo hi off objs).map f = shift m e lo hi off (objs.map f) := by
  unfold shift
  apply List.ext_getElem?
  intro j
  rw [List.getElem?_map, List.getElem?_mapIdx, List.getElem?_mapIdx, List.getElem?_map]
  cases objs[j]? with
  | none => rfl
  | some x =>
    simp only [Option.map_some, h.startPos, h.index]
    split
    · rw [h.set]
    · rfl

theorem circleLoop_map (h : StackSim m f) (thr : D) (i n cur es : Nat) (objs : List (Obj S D)) :
    circleLoop m thr i n cur es (objs.map f) =
      ((circleLoop m thr i n cur es objs).1.map f, (circleLoop m thr i n cur es objs).2) := by
  induction n generalizing cur es objs with
  | zero => rfl
  | succ n ih =>
    rw [circleLoop, circleLoop, List.getElem?_map, List.getElem?_map]
    cases objs[cur]? with
    | none => rfl
    | some oI =>
      cases objs[n]? with
      | none => rfl
      | some oN =>
        simp only [Option.map_some, h.spinner, h.slider, h.startTime, h.endTime, h.startPos,
          h.endPos]
        split
        · exact ih _ _ _
        split
        · rfl
        have hset : (if n < es then (setIdx (objs.map f) n 0 m, n) else (objs.map f, es)) =
            (((if n < es then (setIdx objs n 0 m, n) else (objs, es)).1.map f),
              (if n < es then (setIdx objs n 0 m, n) else (objs, es)).2) := by
          split
          · rw [setIdx_map h]
          · rfl
        rw [hset]
        generalize (if n < es then (setIdx objs n 0 m, n) else (objs, es)) = r
        obtain ⟨o, e⟩ := r
        simp only [getIdx_map h]
        split
        · rw [shift_map h]
        split
        · rw [← setIdx_map h]; exact ih _ _ _
        · exact ih _ _ _

theorem sliderLoop_map (h : StackSim m f) (thr : D) (n cur : Nat) (objs : List (Obj S D)) :
    sliderLoop m thr n cur (objs.map f) = (sliderLoop m thr n cur objs).map f := by
  induction n generalizing cur objs with
  | zero => rfl
  | succ n ih =>
    rw [sliderLoop, sliderLoop, List.getElem?_map, List.getElem?_map]
    cases objs[cur]? with
    | none => rfl
    | some oI =>
      cases objs[n]? with
      | none => rfl
      | some oN =>
        simp only [Option.map_some, h.spinner, h.slider, h.startTime, h.endTime, h.startPos,
          h.endPos, getIdx_map h]
        split
        · exact ih _ _
        split
        · rfl
        split
        · rw [← setIdx_map h]; exact ih _ _
        · exact ih _ _

theorem mainLoop_map (h : StackSim m f) (thr : D) (i es : Nat) (objs : List (Obj S D)) :
    mainLoop m thr i es (objs.map f) = (mainLoop m thr i es objs).map f := by
  induction i generalizing es objs with
  | zero => rfl
  | succ i ih =>
    rw [mainLoop, mainLoop, List.getElem?_map]
    cases objs[i + 1]? with
    | none => rfl
    | some oI =>
      simp only [Option.map_some, h.spinner, h.slider, h.index]
      split
      · exact ih _ _
      split
      · rw [circleLoop_map h]; exact ih _ _
      split
      · rw [sliderLoop_map h]; exact ih _ _
      · exact ih _ _

theorem applyNew_map (h : StackSim m f) (thr : D) (objs : List (Obj S D)) :
    applyNew m thr (objs.map f) = (applyNew m thr objs).map f := by
  unfold applyNew
  rw [List.length_map, extendLoop_map h]
  simp only
  exact mainLoop_map h _ _ _ _

theorem oldInner_map (h : StackSim m f) (thr : D) (i k n : Nat) (t : D) (ss : Int)
    (objs : List (Obj S D)) :
    oldInner m thr i k n t ss (objs.map f) = (oldInner m thr i k n t ss objs).map f := by
  induction k generalizing n t ss objs with
  | zero => rfl
  | succ k ih =>
    rw [oldInner, oldInner, List.getElem?_map, List.getElem?_map]
    cases objs[i]? with
    | none => rfl
    | some oI =>
      cases objs[n]? with
      | none => rfl
      | some oN =>
        simp only [Option.map_some, h.startTime, h.endTime, h.startPos, h.endPos, getIdx_map h]
        split
        · rfl
        split
        · rw [← setIdx_map h]; exact ih _ _ _ _
        split
        · rw [← setIdx_map h]; exact ih _ _ _ _
        · exact ih _ _ _ _

theorem oldLoop_map (h : StackSim m f) (thr : D) (k i : Nat) (objs : List (Obj S D)) :
    oldLoop m thr k i (objs.map f) = (oldLoop m thr k i objs).map f := by
  induction k generalizing i objs with
  | zero => rfl
  | succ k ih =>
    rw [oldLoop, oldLoop, List.getElem?_map]
    cases objs[i]? with
    | none => rfl
    | some oI =>
      simp only [Option.map_some, h.slider, h.index, List.length_map, h.endTime]
      split
      · rw [oldInner_map h]; exact ih _ _
      · exact ih _ _

/-- The part of `process` between the reset of the indices and the offsets. -/
def core (version : Int) (m : Modifier) (thr : D) (objs : List (Obj S D)) : List (Obj S D) :=
  if version ≥ 6 then applyNew m thr objs else applyOld m thr objs

theorem core_map (h : StackSim m f) (version : Int) (thr : D) (objs : List (Obj S D)) :
    core version m thr (objs.map f) = (core version m thr objs).map f := by
  unfold core
  split
  · exact applyNew_map h _ _
  · unfold applyOld; rw [List.length_map]; exact oldLoop_map h _ _ _ _

theorem core_frame {β : Type} {g : Obj S D → β} (hg : ∀ o v, g (o.setStackIndex v m) = g o)
    (version : Int) (thr : D) (objs : List (Obj S D)) :
    (core version m thr objs).map g = objs.map g := by
  unfold core
  split
  · exact applyNew_frame hg _ _
  · exact oldLoop_frame hg _ _ _ _

theorem process_eq (version : Int) (diff : Difficulty D) (sl : D) (objs : List (Obj S D)) :
    process version diff sl objs =
      (core version diff.mods (GoFloat.floor (diff.preempt *. sl))
        (objs.map (fun o => o.setStackIndex 0 diff.mods))).map (finish diff) := rfl

end Stacking

namespace Spec.Variant
theorem mods_ne {v w : Variant} (h : v ≠ w) (o : Obj S D) (x : Int) :
    Spec.only v (o.setStackIndex x w.mods) = Spec.only v o := by
  cases v <;> cases w <;> first | exact absurd rfl h | rfl

theorem only_set (v : Variant) (o : Obj S D) (x : Int) :
    Spec.only v (o.setStackIndex x v.mods) = (Spec.only v o).setStackIndex x v.mods := by
  cases v <;> rfl

theorem only_offset (v : Variant) (o : Obj S D) (x : S) :
    Spec.only v (o.setStackOffset x v.mods) = (Spec.only v o).setStackOffset x v.mods := by
  cases v <;> rfl

theorem only_offset_ne {v w : Variant} (h : v ≠ w) (o : Obj S D) (x : S) :
    Spec.only v (o.setStackOffset x w.mods) = Spec.only v o := by
  cases v <;> cases w <;> first | exact absurd rfl h | rfl

theorem only_index (v : Variant) (o : Obj S D) :
    (Spec.only v o).base.getStackIndex v.mods = o.base.getStackIndex v.mods := by
  cases v <;> rfl

theorem sim (v : Variant) : StackSim (S := S) (D := D) v.mods (Spec.only v) where
  spinner o := by cases v <;> rfl
  slider o := by cases v <;> rfl
  startTime o := by cases v <;> rfl
  endTime o := by cases v <;> rfl
  startPos o := by cases v <;> rfl
  endPos o := by cases v <;> rfl
  index := only_index v
  set := only_set v

end Spec.Variant
end GosuPP
