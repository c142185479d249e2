import Verif.Lemmas.PathMotion
import Verif.Model.Stacking

/-! Exchanging the coordinates of all objects does not change how they are stacked. -/

namespace GosuPP
open Go Spec

variable {S D : Type} [GoFloat S] [GoFloat D] [GoConv S D]

/-- The object with its coordinates exchanged. -/
abbrev flip (o : Obj S D) : Obj S D := place swap swap o

section
omit [GoFloat D] [GoConv S D]
variable (o : Obj S D)

omit [GoFloat S] in
theorem flip_spinner : (flip o).isSpinner = o.isSpinner := by rcases o with ⟨b, _ | _ | s⟩ <;> rfl
omit [GoFloat S] in
theorem flip_slider : (flip o).isSlider = o.isSlider := by rcases o with ⟨b, _ | _ | s⟩ <;> rfl
theorem flip_index (m : Modifier) : (flip o).base.getStackIndex m = o.base.getStackIndex m := rfl

theorem flip_setIndex (v : ℤ) (m : Modifier) : (flip o).setStackIndex v m = flip (o.setStackIndex v m) := by
  unfold Obj.setStackIndex HitObject.setStackIndex flip place
  split_ifs <;> rfl

theorem flip_setOffset (v : S) (m : Modifier) : (flip o).setStackOffset v m = flip (o.setStackOffset v m) := by
  unfold Obj.setStackOffset HitObject.setStackOffset flip place
  split_ifs <;> rfl

end

namespace Stacking

omit [GoFloat D] [GoConv S D] in
theorem getIdx_flip (objs : List (Obj S D)) (i : ℕ) (m : Modifier) : getIdx (objs.map flip) i m = getIdx objs i m := by
  unfold getIdx
  rw [List.getElem?_map]
  cases objs[i]? <;> rfl

omit [GoFloat D] [GoConv S D] in
theorem setIdx_flip (objs : List (Obj S D)) (i : ℕ) (v : ℤ) (m : Modifier) :
    setIdx (objs.map flip) i v m = (setIdx objs i v m).map flip := by
  unfold setIdx
  apply List.ext_getElem?
  intro j
  rw [List.getElem?_modify, List.getElem?_map, List.getElem?_map, List.getElem?_modify]
  cases objs[j]? with
  | none => rfl
  | some o =>
    simp only [Option.map_some, Option.map_eq_map]
    split_ifs
    · exact congrArg some (flip_setIndex o v m)
    · rfl

variable (hg : Fits D (swap : Vec S → Vec S))
include hg

theorem near_swap (a b : Vec S) : near (D := D) (swap a) (swap b) = near (D := D) a b := by
  unfold near
  rw [hg.dst]

theorem baseLoop_flip (m : Modifier) (thr : D) (k : ℕ) : ∀ (n base : ℕ) (objs : List (Obj S D)),
    baseLoop m thr k n base (objs.map flip) = ((baseLoop m thr k n base objs).1.map flip, (baseLoop m thr k n base objs).2) := by
  induction k with
  | zero => intros; rfl
  | succ k ih =>
    intro n base objs
    rw [baseLoop, baseLoop, List.getElem?_map, List.getElem?_map]
    cases objs[base]? with
    | none => rfl
    | some oB =>
      cases objs[n]? with
      | none => rfl
      | some oN =>
        simp only [Option.map_some]
        rw [flip_spinner, flip_spinner, flip_slider]
        show (if oB.isSpinner = true then _ else if oN.isSpinner = true then _ else
          if (oN.base.startTime -. oB.base.endTime >. thr) = true then _ else
          if (near (D := D) (swap oB.base.startPosRaw) (swap oN.base.startPosRaw) ||
            (oB.isSlider && near (D := D) (swap oB.base.endPosRaw) (swap oN.base.startPosRaw))) = true then _ else _) = _
        rw [near_swap hg, near_swap hg, setIdx_flip, ih, ih]
        split_ifs <;> rfl

theorem extendLoop_flip (m : Modifier) (thr : D) (k : ℕ) : ∀ (ext : ℤ) (objs : List (Obj S D)),
    extendLoop m thr k ext (objs.map flip) = ((extendLoop m thr k ext objs).1.map flip, (extendLoop m thr k ext objs).2) := by
  induction k with
  | zero => intros; rfl
  | succ i ih =>
    intro ext objs
    rw [extendLoop, extendLoop, List.length_map, baseLoop_flip hg]
    generalize baseLoop m thr (objs.length - (i + 1)) (i + 1) i objs = r
    obtain ⟨objs', base⟩ := r
    simp only [List.length_map]
    rw [ih, ih]
    split_ifs <;> rfl

theorem shift_flip (m : Modifier) (p : Vec S) (lo hi : ℕ) (off : ℤ) (objs : List (Obj S D)) :
    shift (D := D) m (swap p) lo hi off (objs.map flip) = (shift (D := D) m p lo hi off objs).map flip := by
  unfold shift
  apply List.ext_getElem?
  intro j
  rw [List.getElem?_mapIdx, List.getElem?_map, List.getElem?_map, List.getElem?_mapIdx]
  cases objs[j]? with
  | none => rfl
  | some o =>
    simp only [Option.map_some]
    congr 1
    show (if lo ≤ j ∧ j ≤ hi ∧ near (D := D) (swap p) (swap o.base.startPosRaw) = true then _ else _) = _
    rw [near_swap hg, flip_setIndex]
    split_ifs <;> rfl

theorem circleLoop_flip (m : Modifier) (thr : D) (i k : ℕ) : ∀ (cur es : ℕ) (objs : List (Obj S D)),
    circleLoop m thr i k cur es (objs.map flip) = ((circleLoop m thr i k cur es objs).1.map flip, (circleLoop m thr i k cur es objs).2) := by
  induction k with
  | zero => intros; rfl
  | succ n ih =>
    intro cur es objs
    rw [circleLoop, circleLoop, List.getElem?_map, List.getElem?_map]
    cases objs[cur]? with
    | none => rfl
    | some oI =>
      cases objs[n]? with
      | none => rfl
      | some oN =>
        simp only [Option.map_some]
        rw [flip_spinner, flip_slider, show (flip oN).base.endPosRaw = swap oN.base.endPosRaw from rfl,
          show (flip oI).base.startPosRaw = swap oI.base.startPosRaw from rfl,
          show (flip oN).base.startPosRaw = swap oN.base.startPosRaw from rfl, near_swap hg, near_swap hg,
          show (flip oI).base.startTime = oI.base.startTime from rfl, show (flip oN).base.endTime = oN.base.endTime from rfl, ih]
        have e : (if n < es then (setIdx (objs.map flip) n 0 m, n) else (objs.map flip, es)) =
            ((if n < es then (setIdx objs n 0 m, n) else (objs, es)).1.map flip, (if n < es then (setIdx objs n 0 m, n) else (objs, es)).2) := by
          split_ifs
          · rw [setIdx_flip]
          · rfl
        rw [e]
        generalize (if n < es then (setIdx objs n 0 m, n) else (objs, es)) = r
        obtain ⟨objs', es'⟩ := r
        simp only [getIdx_flip, shift_flip hg, setIdx_flip, ih]
        split_ifs <;> rfl

theorem sliderLoop_flip (m : Modifier) (thr : D) (k : ℕ) : ∀ (cur : ℕ) (objs : List (Obj S D)),
    sliderLoop m thr k cur (objs.map flip) = (sliderLoop m thr k cur objs).map flip := by
  induction k with
  | zero => intros; rfl
  | succ n ih =>
    intro cur objs
    rw [sliderLoop, sliderLoop, List.getElem?_map, List.getElem?_map]
    cases objs[cur]? with
    | none => rfl
    | some oI =>
      cases objs[n]? with
      | none => rfl
      | some oN =>
        simp only [Option.map_some]
        rw [flip_spinner, show (flip oN).base.endPosRaw = swap oN.base.endPosRaw from rfl,
          show (flip oI).base.startPosRaw = swap oI.base.startPosRaw from rfl, near_swap hg,
          show (flip oI).base.startTime = oI.base.startTime from rfl, show (flip oN).base.startTime = oN.base.startTime from rfl,
          getIdx_flip, setIdx_flip, ih, ih]
        split_ifs <;> rfl

theorem mainLoop_flip (m : Modifier) (thr : D) (k : ℕ) : ∀ (es : ℕ) (objs : List (Obj S D)),
    mainLoop m thr k es (objs.map flip) = (mainLoop m thr k es objs).map flip := by
  induction k with
  | zero => intros; rfl
  | succ i ih =>
    intro es objs
    rw [mainLoop, mainLoop, List.getElem?_map]
    cases objs[i + 1]? with
    | none => rfl
    | some oI =>
      simp only [Option.map_some]
      rw [flip_spinner, flip_slider, flip_index, circleLoop_flip hg, sliderLoop_flip hg, ih, ih, ih]
      split_ifs <;> rfl

theorem applyNew_flip (m : Modifier) (thr : D) (objs : List (Obj S D)) : applyNew m thr (objs.map flip) = (applyNew m thr objs).map flip := by
  unfold applyNew
  rw [List.length_map, extendLoop_flip hg]
  exact mainLoop_flip hg _ _ _ _ _

theorem oldInner_flip (m : Modifier) (thr : D) (i k : ℕ) : ∀ (n : ℕ) (t : D) (s : ℤ) (objs : List (Obj S D)),
    oldInner m thr i k n t s (objs.map flip) = (oldInner m thr i k n t s objs).map flip := by
  induction k with
  | zero => intros; rfl
  | succ k ih =>
    intro n t s objs
    rw [oldInner, oldInner, List.getElem?_map, List.getElem?_map]
    cases objs[i]? with
    | none => rfl
    | some oI =>
      cases objs[n]? with
      | none => rfl
      | some oN =>
        simp only [Option.map_some]
        rw [show (flip oI).base.endPosRaw = swap oI.base.endPosRaw from rfl,
          show (flip oI).base.startPosRaw = swap oI.base.startPosRaw from rfl,
          show (flip oN).base.startPosRaw = swap oN.base.startPosRaw from rfl, near_swap hg, near_swap hg,
          show (flip oN).base.endTime = oN.base.endTime from rfl, show (flip oN).base.startTime = oN.base.startTime from rfl,
          getIdx_flip, getIdx_flip, setIdx_flip, setIdx_flip, ih, ih, ih]
        split_ifs <;> rfl

theorem oldLoop_flip (m : Modifier) (thr : D) (k : ℕ) : ∀ (i : ℕ) (objs : List (Obj S D)),
    oldLoop m thr k i (objs.map flip) = (oldLoop m thr k i objs).map flip := by
  induction k with
  | zero => intros; rfl
  | succ k ih =>
    intro i objs
    rw [oldLoop, oldLoop, List.getElem?_map]
    cases objs[i]? with
    | none => rfl
    | some oI =>
      simp only [Option.map_some]
      rw [flip_slider, flip_index, List.length_map, show (flip oI).base.endTime = oI.base.endTime from rfl, oldInner_flip hg, ih, ih]
      split_ifs <;> rfl

omit hg in
theorem finish_flip (d : Difficulty D) (o : Obj S D) : finish d (flip o) = flip (finish d o) := by
  unfold finish
  rw [flip_spinner, flip_setIndex, flip_setIndex, flip_setIndex, flip_index, flip_setOffset]
  split_ifs <;> rfl

theorem process_flip (v : ℤ) (d : Difficulty D) (l : D) (objs : List (Obj S D)) :
    process v d l (objs.map flip) = (process v d l objs).map flip := by
  unfold process
  have e : (objs.map flip).map (fun o => o.setStackIndex 0 d.mods) = (objs.map (fun o => o.setStackIndex 0 d.mods)).map flip := by
    rw [List.map_map, List.map_map]
    exact List.map_congr_left fun o _ => flip_setIndex o 0 d.mods
  have e2 : ∀ l : List (Obj S D), (l.map flip).map (finish d) = (l.map (finish d)).map flip := by
    intro l
    rw [List.map_map, List.map_map]
    exact List.map_congr_left fun o _ => finish_flip d o
  dsimp only
  rw [e, applyNew_flip hg, ← e2]
  unfold applyOld
  rw [List.length_map, oldLoop_flip hg]
  split_ifs <;> rfl

theorem calculate_flip (v : ℤ) (d : Difficulty D) (l : D) (objs : List (Obj S D)) :
    calculate v d l (objs.map flip) = (calculate v d l objs).map flip := by
  unfold calculate
  dsimp only
  rw [process_flip hg, process_flip hg, process_flip hg]

end Stacking
end GosuPP
