import Verif.Lemmas.ObjFrame
import Mathlib.Data.List.Induction

/-! Combo numbering. -/

namespace GosuPP
open Go
variable {S D : Type} [GoFloat S] [GoFloat D]

omit [GoFloat S] [GoFloat D] in
/-- The object with the combo data of the state. -/
def comboOut (c : ComboState) (o : Obj S D) : Obj S D :=
  let st := !o.isSpinner && (o.base.newCombo || c.forceNewCombo)
  { o with base := { o.base with
      newCombo := o.base.newCombo || st
      hitObjectID := c.num
      comboNumber := if st then 1 else c.comboNumber
      comboSet := if st then c.comboSet + 1 else c.comboSet
      comboSetHax := if st then c.comboSetHax + (o.base.colorOffset + 1) else c.comboSetHax } }

omit [GoFloat S] [GoFloat D] in
/-- The state after an object. -/
def comboNext (c : ComboState) (o : Obj S D) : ComboState :=
  let st := !o.isSpinner && (o.base.newCombo || c.forceNewCombo)
  { num := c.num + 1
    comboNumber := (if st then 1 else c.comboNumber) + 1
    comboSet := if st then c.comboSet + 1 else c.comboSet
    comboSetHax := if st then c.comboSetHax + (o.base.colorOffset + 1) else c.comboSetHax
    forceNewCombo := o.isSpinner }

omit [GoFloat S] [GoFloat D] in
theorem comboLoop_cons (c : ComboState) (o : Obj S D) (rest : List (Obj S D)) :
    comboLoop c (o :: rest) = comboOut c o :: comboLoop (comboNext c o) rest := by
  rw [comboLoop]
  unfold comboOut comboNext
  cases hs : o.isSpinner
  · cases hn : o.base.newCombo
    · cases hf : c.forceNewCombo
      · simp [hn, hf]
      · simp
    · simp
  · simp

omit [GoFloat S] [GoFloat D] in
theorem comboLoop_getElem (c : ComboState) (l : List (Obj S D)) (i : Nat) :
    (comboLoop c l)[i]? = l[i]?.map (comboOut ((l.take i).foldl comboNext c)) := by
  induction l generalizing c i with
  | nil => simp [comboLoop]
  | cons o rest ih =>
    rw [comboLoop_cons]
    cases i with
    | zero => simp
    | succ i => simp [ih]

omit [GoFloat S] [GoFloat D] in
theorem comboLoop_length (c : ComboState) (l : List (Obj S D)) : (comboLoop c l).length = l.length := by
  induction l generalizing c with
  | nil => rfl
  | cons o rest ih => rw [comboLoop_cons, List.length_cons, ih, List.length_cons]

theorem uncombo_comboOut (c : ComboState) (o : Obj S D) : Spec.uncombo (comboOut c o) = Spec.uncombo o := rfl

theorem comboLoop_frame (c : ComboState) (l : List (Obj S D)) :
    (comboLoop c l).map Spec.uncombo = l.map Spec.uncombo := by
  induction l generalizing c with
  | nil => rfl
  | cons o rest ih => rw [comboLoop_cons, List.map_cons, ih, List.map_cons, uncombo_comboOut]

omit [GoFloat S] [GoFloat D] in
theorem starts_append_left (l m : List (Obj S D)) (i : Nat) (h : i < l.length) :
    Spec.starts (l ++ m) i = Spec.starts l i := by
  unfold Spec.starts
  rw [List.getElem?_append_left h]
  cases i with
  | zero => rfl
  | succ j => simp only [List.getElem?_append_left (show j < l.length by omega)]

omit [GoFloat S] [GoFloat D] in
/-- The combo state after the objects `l`. -/
theorem combo_state (l : List (Obj S D)) :
    let c := l.foldl comboNext ({} : ComboState)
    c.num = l.length ∧
    c.forceNewCombo = (match l.getLast? with | some o => o.isSpinner | none => false) ∧
    c.comboSet = ((List.range l.length).countP (Spec.starts l) : Nat) ∧
    c.comboSetHax = (((List.range l.length).filter (Spec.starts l)).map
      (fun i => match l[i]? with | some o => o.base.colorOffset + 1 | none => 0)).sum ∧
    ∃ j, j ≤ l.length ∧ (j < l.length → j = 0 ∨ Spec.starts l j = true) ∧
      (l ≠ [] → j < l.length) ∧
      (∀ k, j < k → k < l.length → Spec.starts l k = false) ∧
      c.comboNumber = (l.length : Int) - j + 1 := by
  induction l using List.reverseRecOn with
  | nil => exact ⟨rfl, rfl, rfl, rfl, 0, by simp, by simp, by simp, by simp, rfl⟩
  | append_singleton l o ih =>
    intro c'
    obtain ⟨i1, i2, i3, i4, j, j1, j2, j3, j4, j5⟩ := ih
    have hc' : c' = comboNext (l.foldl comboNext {}) o := by
      show (l ++ [o]).foldl comboNext {} = _
      rw [List.foldl_append]; rfl
    generalize l.foldl comboNext ({} : ComboState) = c at *
    have hst : Spec.starts (l ++ [o]) l.length =
        (!o.isSpinner && (o.base.newCombo || c.forceNewCombo)) := by
      unfold Spec.starts
      rw [List.getElem?_append_right (by omega)]
      simp only [Nat.sub_self, List.getElem?_cons_zero]
      rw [i2]
      congr 2
      cases l using List.reverseRecOn with
      | nil => rfl
      | append_singleton l' p =>
        have : (l' ++ [p]).length = l'.length + 1 := by simp
        rw [this]
        simp
    have hlen : (l ++ [o]).length = l.length + 1 := by simp
    have hrange : ∀ i ∈ List.range l.length, Spec.starts (l ++ [o]) i = Spec.starts l i := by
      intro i hi
      exact starts_append_left _ _ _ (List.mem_range.mp hi)
    rw [hlen, List.range_succ]
    refine ⟨?_, ?_, ?_, ?_, ?_⟩
    · rw [hc']; simp [comboNext, i1]
    · rw [hc']; simp [comboNext]
    · rw [List.countP_append, List.countP_congr (p := Spec.starts (l ++ [o])) (q := Spec.starts l)
        (fun i hi => by rw [hrange i hi]), List.countP_singleton, hst, hc']
      simp only [comboNext, i3]
      split <;> simp
    · rw [List.filter_append, List.map_append, List.sum_append,
        List.filter_congr (fun i hi => hrange i hi)]
      have : ((List.range l.length).filter (Spec.starts l)).map
          (fun i => match (l ++ [o])[i]? with | some o => o.base.colorOffset + 1 | none => 0) =
          ((List.range l.length).filter (Spec.starts l)).map
          (fun i => match l[i]? with | some o => o.base.colorOffset + 1 | none => 0) := by
        apply List.map_congr_left
        intro i hi
        have : i < l.length := List.mem_range.mp (List.mem_filter.mp hi).1
        rw [List.getElem?_append_left this]
      rw [this, ← i4, hc']
      simp only [comboNext, List.filter_cons, hst, List.filter_nil]
      split <;> simp
    · by_cases hs : (!o.isSpinner && (o.base.newCombo || c.forceNewCombo)) = true
      · refine ⟨l.length, by omega, fun _ => Or.inr (by rw [hst, hs]), fun _ => by omega,
          fun k h1 h2 => by omega, ?_⟩
        rw [hc']; simp only [comboNext, hs, if_true]; push_cast; omega
      · have hs' : (!o.isSpinner && (o.base.newCombo || c.forceNewCombo)) = false := by simpa using hs
        refine ⟨j, by omega, fun _ => ?_, fun _ => by omega, fun k h1 h2 => ?_, ?_⟩
        · by_cases hj : j < l.length
          · rcases j2 hj with h | h
            · exact Or.inl h
            · right; rw [starts_append_left _ _ _ hj, h]
          · left
            by_contra hne
            have : l ≠ [] := by rintro rfl; simp at j1; omega
            exact hj (j3 this)
        · by_cases hk : k < l.length
          · rw [starts_append_left _ _ _ hk]; exact j4 k h1 hk
          · have : k = l.length := by omega
            rw [this, hst, hs']
        · rw [hc']; simp only [comboNext, hs', j5]; push_cast; simp; omega

end GosuPP
