import Verif.Go.SortInst

/-! The stable sort is unique; binary search. -/

namespace Go
variable {α : Type} {lt : α → α → Bool}

/-- Two sorted permutations of each other whose classes of equivalent elements are listed in
the same order are equal. -/
theorem sorted_unique {l₁ l₂ : List α} (hp : l₁.Perm l₂) (hw : StrictWeak lt l₁)
    (h1 : l₁.Pairwise (fun a b => lt b a = false)) (h2 : l₂.Pairwise (fun a b => lt b a = false))
    (hs : ∀ a ∈ l₁, l₁.filter (fun b => !lt a b && !lt b a) = l₂.filter (fun b => !lt a b && !lt b a)) :
    l₁ = l₂ := by
  induction l₁ generalizing l₂ with
  | nil => exact (List.Perm.nil_eq hp)
  | cons x xs ih =>
    cases l₂ with
    | nil => exact absurd hp.symm (List.not_perm_nil_cons _ _)
    | cons y ys =>
      have hx : x ∈ y :: ys := hp.mem_iff.mp (by simp)
      have hy : y ∈ x :: xs := hp.mem_iff.mpr (by simp)
      have hyx : lt y x = false := by
        rcases List.mem_cons.mp hy with rfl | h
        · exact hw.irrefl _ (by simp)
        · exact (List.pairwise_cons.mp h1).1 y h
      have hxy : lt x y = false := by
        rcases List.mem_cons.mp hx with rfl | h
        · exact hw.irrefl _ (by simp)
        · exact (List.pairwise_cons.mp h2).1 x h
      have heq : x = y := by
        have := hs x (by simp)
        rw [List.filter_cons_of_pos (by simp [hw.irrefl x (by simp)]),
          List.filter_cons_of_pos (by simp [hxy, hyx])] at this
        exact (List.cons.inj this).1
      subst heq
      have hp' : xs.Perm ys := List.Perm.cons_inv hp
      rw [ih hp' (hw.mono (by intro a ha; simp [ha])) (List.pairwise_cons.mp h1).2
        (List.pairwise_cons.mp h2).2]
      intro a ha
      have := hs a (by simp [ha])
      rw [List.filter_cons, List.filter_cons] at this
      split at this
      · exact (List.cons.inj this).2
      · exact this

/-- Any implementation of `sort.SliceStable` computes stable insertion sort. -/
theorem stable_eq_insertionSort [GoSort] {l : List α} (hw : StrictWeak lt l) :
    GoSort.stable lt l = insertionSort lt l := by
  refine sorted_unique (lt := lt) ((GoSort.stable_perm lt l).trans (insertionSort_perm lt l).symm)
    (hw.mono fun a ha => (GoSort.stable_perm lt l).mem_iff.mp ha) (GoSort.stable_sorted lt l hw)
    (insertionSort_sorted hw) ?_
  intro a ha
  have ha' := (GoSort.stable_perm lt l).mem_iff.mp ha
  rw [GoSort.stable_stable lt l hw a ha', insertionSort_stable hw ha']

/-- Sorting a sorted list does nothing. -/
theorem insertionSort_of_sorted {l : List α}
    (h : l.Pairwise (fun a b => lt b a = false)) : insertionSort lt l = l := by
  induction l with
  | nil => rfl
  | cons x xs ih =>
    rw [insertionSort, ih (List.pairwise_cons.mp h).2]
    cases xs with
    | nil => rfl
    | cons y ys =>
      have := (List.pairwise_cons.mp h).1 y (by simp)
      simp [insertBy, this]

theorem stable_of_sorted [GoSort] {l : List α} (hw : StrictWeak lt l)
    (h : l.Pairwise (fun a b => lt b a = false)) : GoSort.stable lt l = l := by
  rw [stable_eq_insertionSort hw, insertionSort_of_sorted h]

/-! ### binary search -/

theorem searchLoop_spec (p : Nat → Bool) (i j : Nat) (hij : i ≤ j)
    (hmono : ∀ a b, i ≤ a → a ≤ b → b < j → p a = true → p b = true) :
    i ≤ searchLoop p i j ∧ searchLoop p i j ≤ j ∧
      (∀ k, i ≤ k → k < searchLoop p i j → p k = false) ∧
      (∀ k, searchLoop p i j ≤ k → k < j → p k = true) := by
  fun_induction searchLoop p i j with
  | case1 i j h m hm ih =>
    have hmi : i ≤ m ∧ m < j := by show i ≤ (i + j) / 2 ∧ (i + j) / 2 < j; omega
    obtain ⟨a, b, c, d⟩ := ih hmi.1 (fun a b h1 h2 h3 => hmono a b h1 h2 (by omega))
    refine ⟨a, by omega, c, fun k hk1 hk2 => ?_⟩
    rcases Nat.lt_or_ge k m with hkm | hkm
    · exact d k hk1 hkm
    · exact hmono m k hmi.1 hkm hk2 hm
  | case2 i j h m hm ih =>
    have hmi : i ≤ m ∧ m < j := by show i ≤ (i + j) / 2 ∧ (i + j) / 2 < j; omega
    obtain ⟨a, b, c, d⟩ := ih (by omega) (fun a b h1 h2 h3 => hmono a b (by omega) h2 h3)
    refine ⟨by omega, b, fun k hk1 hk2 => ?_, d⟩
    rcases Nat.lt_or_ge m k with hkm | hkm
    · exact c k hkm hk2
    · by_contra hk
      have hk : p k = true := by simpa using hk
      exact hm (hmono k m hk1 hkm hmi.2 hk)
  | case3 i j h =>
    have : i = j := by omega
    subst this
    exact ⟨by omega, by omega, fun k h1 h2 => by omega, fun k h1 h2 => by omega⟩

/-- Without any assumption on `p`, the search ends where `p` switches to true. -/
theorem search_switch (n : Nat) (p : Nat → Bool) :
    (search n p < n → p (search n p) = true) ∧
      (0 < search n p → p (search n p - 1) = false) := by
  unfold search
  suffices H : ∀ i j, i ≤ j → (j < n → p j = true) → (0 < i → p (i - 1) = false) →
      (searchLoop p i j < n → p (searchLoop p i j) = true) ∧
      (0 < searchLoop p i j → p (searchLoop p i j - 1) = false) from
    H 0 n (by omega) (by omega) (by omega)
  intro i j hij hj hi
  fun_induction searchLoop p i j with
  | case1 i j h m hm ih =>
    have hmi : i ≤ m ∧ m < j := by show i ≤ (i + j) / 2 ∧ (i + j) / 2 < j; omega
    exact ih hmi.1 (fun _ => hm) hi
  | case2 i j h m hm ih =>
    have hmi : i ≤ m ∧ m < j := by show i ≤ (i + j) / 2 ∧ (i + j) / 2 < j; omega
    exact ih (by omega) hj (fun _ => by simpa using hm)
  | case3 i j h =>
    have : i = j := by omega
    subst this
    exact ⟨hj, hi⟩

theorem search_le (n : Nat) (p : Nat → Bool) : search n p ≤ n := by
  unfold search
  have : ∀ i j, i ≤ j → i ≤ searchLoop p i j ∧ searchLoop p i j ≤ j := by
    intro i j hij
    fun_induction searchLoop p i j with
    | case1 i j h m hm ih =>
      have hmi : i ≤ m ∧ m < j := by show i ≤ (i + j) / 2 ∧ (i + j) / 2 < j; omega
      have := ih hmi.1; omega
    | case2 i j h m hm ih =>
      have hmi : i ≤ m ∧ m < j := by show i ≤ (i + j) / 2 ∧ (i + j) / 2 < j; omega
      have := ih (by omega); omega
    | case3 i j h => omega
  exact (this 0 n (by omega)).2

end Go
