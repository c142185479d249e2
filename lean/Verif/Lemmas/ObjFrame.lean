import Verif.Spec.Objects
import Verif.Lemmas.ParserFrame

/-! What combo numbering, timing and stacking leave alone. -/

namespace GosuPP
open Go
variable {S D : Type} [GoFloat S] [GoFloat D] [GoConv S D]

section stack
omit [GoConv S D] [GoFloat D]

theorem unstack_setStackIndex (o : Obj S D) (v : Int) (m : Modifier) :
    Spec.unstack (o.setStackIndex v m) = Spec.unstack o := by
  unfold Obj.setStackIndex HitObject.setStackIndex Spec.unstack
  split
  · rfl
  · split <;> rfl

theorem unstack_setStackOffset (o : Obj S D) (v : S) (m : Modifier) :
    Spec.unstack (o.setStackOffset v m) = Spec.unstack o := by
  unfold Obj.setStackOffset HitObject.setStackOffset Spec.unstack
  split
  · rfl
  · split <;> rfl

theorem map_modify_of {α β : Type} (f : α → β) (g : α → α) (h : ∀ x, f (g x) = f x) (l : List α)
    (i : Nat) : (l.modify i g).map f = l.map f := by
  apply List.ext_getElem?
  intro j
  rw [List.getElem?_map, List.getElem?_map, List.getElem?_modify]
  cases l[j]? with
  | none => rfl
  | some x =>
    simp only [Option.map_some, Option.map_eq_map]
    split <;> simp [h]

theorem setIdx_frame {β : Type} {g : Obj S D → β} {m : Modifier}
    (hg : ∀ o v, g (o.setStackIndex v m) = g o) (objs : List (Obj S D)) (i : Nat) (v : Int) :
    (Stacking.setIdx objs i v m).map g = objs.map g :=
  map_modify_of _ _ (fun o => hg o v) _ _

end stack

namespace Stacking

theorem baseLoop_frame {β : Type} {g : Obj S D → β} {m : Modifier}
    (hg : ∀ o v, g (o.setStackIndex v m) = g o) (thr : D) (k n base : Nat) (objs : List (Obj S D)) :
    (baseLoop m thr k n base objs).1.map g = objs.map g := by
  induction k generalizing n base objs with
  | zero => rfl
  | succ k ih =>
    rw [baseLoop]
    split
    · split
      · rfl
      split
      · exact ih _ _ _
      split
      · rfl
      split
      · rw [ih, setIdx_frame hg]
      · exact ih _ _ _
    · rfl

theorem extendLoop_frame {β : Type} {g : Obj S D → β} {m : Modifier}
    (hg : ∀ o v, g (o.setStackIndex v m) = g o) (thr : D) (i : Nat) (ext : Int) (objs : List (Obj S D)) :
    (extendLoop m thr i ext objs).1.map g = objs.map g := by
  induction i generalizing ext objs with
  | zero => rfl
  | succ i ih =>
    rw [extendLoop]
    have hb := baseLoop_frame hg thr (objs.length - (i + 1)) (i + 1) i objs
    generalize baseLoop m thr (objs.length - (i + 1)) (i + 1) i objs = r at *
    obtain ⟨o, b⟩ := r
    simp only at *
    split
    · split
      · exact hb
      · rw [ih, hb]
    · rw [ih, hb]

theorem shift_frame {β : Type} {g : Obj S D → β} {m : Modifier}
    (hg : ∀ o v, g (o.setStackIndex v m) = g o) (e : Vec S) (lo hi : Nat) (off : Int) (objs : List (Obj S D)) :
    (shift m e lo hi off objs).map g = objs.map g := by
  unfold shift
  apply List.ext_getElem?
  intro j
  rw [List.getElem?_map, List.getElem?_map, List.getElem?_mapIdx]
  cases objs[j]? with
  | none => rfl
  | some x =>
    simp only [Option.map_some]
    split
    · rw [hg]
    · rfl

theorem circleLoop_frame {β : Type} {g : Obj S D → β} {m : Modifier}
    (hg : ∀ o v, g (o.setStackIndex v m) = g o) (thr : D) (i n cur es : Nat) (objs : List (Obj S D)) :
    (circleLoop m thr i n cur es objs).1.map g = objs.map g := by
  induction n generalizing cur es objs with
  | zero => rfl
  | succ n ih =>
    rw [circleLoop]
    split
    · split
      · exact ih _ _ _
      split
      · rfl
      have hset : (if n < es then (setIdx objs n 0 m, n) else (objs, es)).1.map g =
          objs.map g := by
        split
        · exact setIdx_frame hg _ _ _
        · rfl
      generalize (if n < es then (setIdx objs n 0 m, n) else (objs, es)) = r at *
      obtain ⟨o, e⟩ := r
      simp only at *
      split
      · rw [shift_frame hg, hset]
      split
      · rw [ih, setIdx_frame hg, hset]
      · rw [ih, hset]
    · rfl

theorem sliderLoop_frame {β : Type} {g : Obj S D → β} {m : Modifier}
    (hg : ∀ o v, g (o.setStackIndex v m) = g o) (thr : D) (n cur : Nat) (objs : List (Obj S D)) :
    (sliderLoop m thr n cur objs).map g = objs.map g := by
  induction n generalizing cur objs with
  | zero => rfl
  | succ n ih =>
    rw [sliderLoop]
    split
    · split
      · exact ih _ _
      split
      · rfl
      split
      · rw [ih, setIdx_frame hg]
      · exact ih _ _
    · rfl

theorem mainLoop_frame {β : Type} {g : Obj S D → β} {m : Modifier}
    (hg : ∀ o v, g (o.setStackIndex v m) = g o) (thr : D) (i es : Nat) (objs : List (Obj S D)) :
    (mainLoop m thr i es objs).map g = objs.map g := by
  induction i generalizing es objs with
  | zero => rfl
  | succ i ih =>
    rw [mainLoop]
    split
    · split
      · exact ih _ _
      split
      · have := circleLoop_frame hg thr (i + 1) (i + 1) (i + 1) es objs
        generalize circleLoop m thr (i + 1) (i + 1) (i + 1) es objs = r at *
        obtain ⟨o, e⟩ := r
        simp only at *
        rw [ih, this]
      split
      · rw [ih, sliderLoop_frame hg]
      · exact ih _ _
    · rfl

theorem applyNew_frame {β : Type} {g : Obj S D → β} {m : Modifier}
    (hg : ∀ o v, g (o.setStackIndex v m) = g o) (thr : D) (objs : List (Obj S D)) :
    (applyNew m thr objs).map g = objs.map g := by
  unfold applyNew
  have := extendLoop_frame hg thr objs.length ((objs.length : Int) - 1) objs
  generalize extendLoop m thr objs.length ((objs.length : Int) - 1) objs = r at *
  obtain ⟨o, e⟩ := r
  simp only at *
  rw [mainLoop_frame hg, this]

theorem oldInner_frame {β : Type} {g : Obj S D → β} {m : Modifier}
    (hg : ∀ o v, g (o.setStackIndex v m) = g o) (thr : D) (i k n : Nat) (t : D) (ss : Int)
    (objs : List (Obj S D)) :
    (oldInner m thr i k n t ss objs).map g = objs.map g := by
  induction k generalizing n t ss objs with
  | zero => rfl
  | succ k ih =>
    rw [oldInner]
    split
    · split
      · rfl
      split
      · rw [ih, setIdx_frame hg]
      split
      · rw [ih, setIdx_frame hg]
      · exact ih _ _ _ _
    · rfl

theorem oldLoop_frame {β : Type} {g : Obj S D → β} {m : Modifier}
    (hg : ∀ o v, g (o.setStackIndex v m) = g o) (thr : D) (k i : Nat) (objs : List (Obj S D)) :
    (oldLoop m thr k i objs).map g = objs.map g := by
  induction k generalizing i objs with
  | zero => rfl
  | succ k ih =>
    rw [oldLoop]
    split
    · split
      · rw [ih, oldInner_frame hg]
      · exact ih _ _
    · rfl

theorem finish_frame (diff : Difficulty D) (o : Obj S D) :
    Spec.unstack (finish diff o) = Spec.unstack o := by
  unfold finish
  split
  · rw [unstack_setStackIndex, unstack_setStackIndex, unstack_setStackIndex]
  · rw [unstack_setStackOffset]

theorem process_frame (version : Int) (diff : Difficulty D) (sl : D) (objs : List (Obj S D)) :
    (process version diff sl objs).map Spec.unstack = objs.map Spec.unstack := by
  have h1 : ∀ l : List (Obj S D), (l.map (finish diff)).map Spec.unstack = l.map Spec.unstack := by
    intro l
    rw [List.map_map]
    exact List.map_congr_left fun o _ => finish_frame diff o
  have h2 : ∀ l : List (Obj S D), (l.map (fun o => o.setStackIndex 0 diff.mods)).map Spec.unstack =
      l.map Spec.unstack := by
    intro l
    rw [List.map_map]
    exact List.map_congr_left fun o _ => unstack_setStackIndex o 0 diff.mods
  unfold process
  simp only
  rw [h1]
  split
  · rw [applyNew_frame (fun o v => unstack_setStackIndex o v _), h2]
  · unfold applyOld; rw [oldLoop_frame (fun o v => unstack_setStackIndex o v _), h2]

theorem calculate_frame (version : Int) (d : Difficulty D) (sl : D) (objs : List (Obj S D)) :
    (calculate version d sl objs).map Spec.unstack = objs.map Spec.unstack := by
  unfold calculate
  simp only
  rw [process_frame, process_frame, process_frame]

end Stacking

/-! ### Timing -/

theorem setTiming_frame [GoSort] {fuel : Nat} {t : Timings D} {o o' : Obj S D}
    (h : o.setTiming fuel t = .ok o') :
    Spec.untime o' = Spec.untime o ∧ o'.isSpinner = o.isSpinner ∧ o'.isSlider = o.isSlider ∧
      ∃ et ep, o'.base = { o.base with endTime := et, endPosRaw := ep } := by
  unfold Obj.setTiming at h
  split at h
  · rename_i s hk
    unfold Slider.setTiming at h
    obtain ⟨tp, -, h⟩ := bind_ok h
    obtain ⟨pts, -, h⟩ := bind_ok h
    obtain ⟨ep, -, h⟩ := bind_ok h
    cases h
    refine ⟨?_, ?_, ?_, _, _, rfl⟩
    · unfold Spec.untime; rw [hk]
    · unfold Obj.isSpinner; rw [hk]
    · unfold Obj.isSlider; rw [hk]
  · cases h
    exact ⟨rfl, rfl, rfl, _, _, rfl⟩

theorem setTimings_forall [GoSort] {fuel : Nat} {t : Timings D} {objs objs' : List (Obj S D)}
    (h : setTimings fuel t objs = .ok objs') :
    List.Forall₂ (fun o o' => o.setTiming fuel t = .ok o') objs objs' := by
  induction objs generalizing objs' with
  | nil => cases h; exact .nil
  | cons o rest ih =>
    rw [setTimings] at h
    obtain ⟨o1, h1, h⟩ := bind_ok h
    obtain ⟨r1, h2, h⟩ := bind_ok h
    cases h
    exact .cons h1 (ih h2)

end GosuPP
