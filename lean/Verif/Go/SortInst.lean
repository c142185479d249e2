import Verif.Go.Sort

/-!
# The sort interface is inhabited

Stable insertion sort meets every guarantee of `GoSort`.
-/

namespace Go

variable {α : Type} (lt : α → α → Bool)

theorem insertBy_perm (x : α) (l : List α) : (insertBy lt x l).Perm (x :: l) := by
  induction l with
  | nil => simp [insertBy]
  | cons y ys ih =>
    simp only [insertBy]
    split
    · exact (List.Perm.cons y ih).trans (List.Perm.swap x y ys)
    · exact List.Perm.refl _

theorem insertionSort_perm (l : List α) : (insertionSort lt l).Perm l := by
  induction l with
  | nil => exact List.Perm.refl _
  | cons x xs ih => exact (insertBy_perm lt x _).trans (List.Perm.cons x ih)

variable {lt}

theorem StrictWeak.mono {l l' : List α} (h : StrictWeak lt l) (hs : ∀ a ∈ l', a ∈ l) :
    StrictWeak lt l' :=
  ⟨fun a ha => h.irrefl a (hs a ha),
   fun a ha b hb c hc => h.trans a (hs a ha) b (hs b hb) c (hs c hc),
   fun a ha b hb c hc => h.negTrans a (hs a ha) b (hs b hb) c (hs c hc)⟩

theorem StrictWeak.asymm {l : List α} (h : StrictWeak lt l) {a b : α} (ha : a ∈ l) (hb : b ∈ l)
    (hab : lt a b = true) : lt b a = false := by
  by_contra hc
  have hba : lt b a = true := by simpa using hc
  have := h.trans a ha b hb a ha hab hba
  rw [h.irrefl a ha] at this
  cases this

theorem insertBy_sorted {x : α} {l : List α} (h : StrictWeak lt (x :: l))
    (hl : l.Pairwise (fun a b => lt b a = false)) :
    (insertBy lt x l).Pairwise (fun a b => lt b a = false) := by
  induction l with
  | nil => simp [insertBy]
  | cons y ys ih =>
    simp only [insertBy]
    have hsub : StrictWeak lt (x :: ys) := h.mono (by intro a ha; simp at ha ⊢; tauto)
    rw [List.pairwise_cons] at hl
    split
    · rename_i hyx
      rw [List.pairwise_cons]
      refine ⟨fun b hb => ?_, ih hsub hl.2⟩
      have hb' := (insertBy_perm lt x ys).mem_iff.mp hb
      rcases List.mem_cons.mp hb' with rfl | hb'
      · exact h.asymm (by simp) (by simp) hyx
      · exact hl.1 b hb'
    · rename_i hyx
      have hyx : lt y x = false := by simpa using hyx
      rw [List.pairwise_cons]
      refine ⟨fun b hb => ?_, by rw [List.pairwise_cons]; exact hl⟩
      rcases List.mem_cons.mp hb with rfl | hb'
      · exact hyx
      · exact h.negTrans b (by simp [hb']) y (by simp) x (by simp) (hl.1 b hb') hyx

theorem insertionSort_sorted {l : List α} (h : StrictWeak lt l) :
    (insertionSort lt l).Pairwise (fun a b => lt b a = false) := by
  induction l with
  | nil => simp [insertionSort]
  | cons x xs ih =>
    refine insertBy_sorted (h.mono fun a ha => ?_) (ih (h.mono fun a ha => by simp [ha]))
    rcases List.mem_cons.mp ha with rfl | ha
    · simp
    · exact List.mem_cons_of_mem _ ((insertionSort_perm lt xs).mem_iff.mp ha)

theorem insertionSort_stable {l : List α} (h : StrictWeak lt l) {a : α} (ha : a ∈ l) :
    (insertionSort lt l).filter (fun b => !lt a b && !lt b a) =
      l.filter (fun b => !lt a b && !lt b a) := by
  suffices H : ∀ l' : List α, (∀ b ∈ l', b ∈ l) →
      (insertionSort lt l').filter (fun b => !lt a b && !lt b a) =
        l'.filter (fun b => !lt a b && !lt b a) from H l (fun _ h => h)
  intro l' hl'
  induction l' with
  | nil => rfl
  | cons x xs ih =>
    have ih := ih (fun b hb => hl' b (by simp [hb]))
    have hsub : ∀ ys : List α, (∀ b ∈ ys, b ∈ xs) →
        (insertBy lt x ys).filter (fun b => !lt a b && !lt b a) =
          (x :: ys).filter (fun b => !lt a b && !lt b a) := by
      intro ys hys
      induction ys with
      | nil => simp [insertBy]
      | cons y ys ihy =>
        have ihy := ihy (fun b hb => hys b (by simp [hb]))
        have hxl : x ∈ l := hl' x (by simp)
        have hyl : y ∈ l := hl' y (by simp [hys y (by simp)])
        simp only [insertBy]
        split
        · rename_i hyx
          have key : ¬ ((!lt a y && !lt y a) = true ∧ (!lt a x && !lt x a) = true) := by
            rintro ⟨h1, h2⟩
            simp only [Bool.and_eq_true, Bool.not_eq_true'] at h1 h2
            have := h.negTrans y hyl a ha x hxl h1.2 h2.1
            rw [hyx] at this; cases this
          rw [List.filter_cons, ihy, List.filter_cons, List.filter_cons (x := x),
            List.filter_cons (x := y)]
          by_cases hx : (!lt a x && !lt x a) = true <;> by_cases hy : (!lt a y && !lt y a) = true
          · exact absurd ⟨hy, hx⟩ key
          · simp only [if_pos hx, if_neg hy]
          · simp only [if_neg hx, if_pos hy]
          · simp only [if_neg hx, if_neg hy]
        · rfl
    simp only [insertionSort]
    rw [hsub _ (fun b hb => (insertionSort_perm lt xs).mem_iff.mp hb), List.filter_cons,
      List.filter_cons, ih]

/-- `GoSort` is inhabited. -/
@[instance_reducible] def insertionGoSort : GoSort where
  slice := insertionSort
  slice_perm := insertionSort_perm
  slice_sorted := fun _ _ h => insertionSort_sorted h
  stable := insertionSort
  stable_perm := insertionSort_perm
  stable_sorted := fun _ _ h => insertionSort_sorted h
  stable_stable := fun _ _ h _ ha => insertionSort_stable h ha

end Go
