import Verif.Lemmas.Calc
import Verif.Spec.Bezier
import Mathlib.Data.Nat.Choose.Sum

/-! The Bezier approximator with its buffers does recursive subdivision. -/

namespace GosuPP
open Go
variable {S : Type} [GoFloat S]

namespace Mem

/-- Contents of a cell of the memory. -/
def cell (m : Mem S) (a i : Nat) : Option (Vec S) := (m[a]?).bind (·[i]?)

/-- Lengths of the buffers. -/
def shape (m : Mem S) : List Nat := m.map List.length

omit [GoFloat S] in
theorem cell_isSome {m : Mem S} {a i : Nat} :
    (cell m a i).isSome = true ↔ ∃ n, (shape m)[a]? = some n ∧ i < n := by
  unfold cell shape
  rw [List.getElem?_map]
  cases m[a]? <;> simp

omit [GoFloat S] in
theorem read_ok {m : Mem S} {a i : Nat} {v : Vec S} (h : cell m a i = some v) : m.read a i = .ok v := by
  unfold cell at h
  unfold read
  cases hb : m[a]? with
  | none => rw [hb] at h; cases h
  | some b =>
    rw [hb] at h
    simp only [Option.bind_some] at h
    simp only [h]

omit [GoFloat S] in
theorem write_ok {m : Mem S} {a i : Nat} (h : (cell m a i).isSome = true) (v : Vec S) :
    ∃ m', m.write a i v = .ok m' ∧ shape m' = shape m ∧
      ∀ b j, cell m' b j = if b = a ∧ j = i then some v else cell m b j := by
  unfold cell at h
  unfold write
  cases hb : m[a]? with
  | none => rw [hb] at h; cases h
  | some b =>
    rw [hb] at h
    have hi : i < b.length := by simpa using h
    have ha : a < m.length := (List.getElem?_eq_some_iff.mp hb).1
    simp only [hi, if_true]
    refine ⟨_, rfl, ?_, ?_⟩
    · unfold shape
      rw [List.map_set, List.length_set]
      apply List.ext_getElem?
      intro n
      rw [List.getElem?_set]
      split
      · rename_i hn
        subst hn
        have : m[a] = b := (List.getElem?_eq_some_iff.mp hb).2
        simp [ha, hb, this]
      · rfl
    · intro c j
      unfold cell
      rw [List.getElem?_set]
      by_cases hc : a = c
      · subst hc
        rw [if_pos rfl, if_pos ha, Option.bind_some, List.getElem?_set, hb, Option.bind_some]
        by_cases hj : i = j
        · subst hj; simp [hi]
        · simp [hj, Ne.symm hj]
      · rw [if_neg hc, if_neg (fun h => hc h.1.symm)]

end Mem

namespace Approximator
open Mem

omit [GoFloat S] in
theorem copyLoop_ok (dst src : Nat) (hne : dst ≠ src) (g : Nat → Vec S) (k i : Nat) (m : Mem S)
    (hs : ∀ j, i ≤ j → j < i + k → cell m src j = some (g j))
    (hd : ∀ j, i ≤ j → j < i + k → (cell m dst j).isSome = true) :
    ∃ m', copyLoop dst src k i m = .ok m' ∧ shape m' = shape m ∧
      ∀ b j, cell m' b j = if b = dst ∧ i ≤ j ∧ j < i + k then some (g j) else cell m b j := by
  induction k generalizing i m with
  | zero =>
    refine ⟨m, rfl, rfl, fun b j => ?_⟩
    rw [if_neg (by omega)]
  | succ k ih =>
    obtain ⟨m1, h1, s1, c1⟩ := write_ok (hd i (le_refl _) (by omega)) (g i)
    obtain ⟨m2, h2, s2, c2⟩ := ih (i + 1) m1
      (fun j hj hj' => by rw [c1, if_neg (by rintro ⟨h, -⟩; exact hne h.symm)]; exact hs j (by omega) (by omega))
      (fun j hj hj' => by rw [c1, if_neg (by omega)]; exact hd j (by omega) (by omega))
    refine ⟨m2, ?_, s2.trans s1, fun b j => ?_⟩
    · rw [copyLoop, read_ok (hs i (le_refl _) (by omega))]
      simp only [ok_bind, h1]
      exact h2
    · rw [c2, c1]
      by_cases hb : b = dst
      · subst hb
        by_cases hj : j = i
        · subst hj; simp
        · by_cases hj' : i + 1 ≤ j ∧ j < i + 1 + k
          · rw [if_pos ⟨rfl, hj'⟩, if_pos ⟨rfl, by omega⟩]
          · rw [if_neg (fun h => hj' h.2), if_neg (fun h => hj h.2), if_neg (by omega)]
      · rw [if_neg (fun h => hb h.1), if_neg (fun h => hb h.1), if_neg (fun h => hb h.1)]

theorem midLoop_ok (g : Nat → Vec S) (k j : Nat) (m : Mem S)
    (hs : ∀ t, j ≤ t → t ≤ j + k → cell m 0 t = some (g t)) :
    ∃ m', midLoop k j m = .ok m' ∧ shape m' = shape m ∧
      ∀ b t, cell m' b t =
        if b = 0 ∧ j ≤ t ∧ t < j + k then some (((g t).add (g (t + 1))).scl (lit 0.5)) else cell m b t := by
  induction k generalizing j m with
  | zero =>
    refine ⟨m, rfl, rfl, fun b t => ?_⟩
    rw [if_neg (by omega)]
  | succ k ih =>
    have r1 := hs j (le_refl _) (by omega)
    have r2 := hs (j + 1) (by omega) (by omega)
    obtain ⟨m1, h1, s1, c1⟩ := write_ok (m := m) (a := 0) (i := j) (by rw [r1]; rfl)
      (((g j).add (g (j + 1))).scl (lit 0.5))
    obtain ⟨m2, h2, s2, c2⟩ := ih (j + 1) m1
      (fun t ht ht' => by rw [c1, if_neg (by omega)]; exact hs t (by omega) (by omega))
    refine ⟨m2, ?_, s2.trans s1, fun b t => ?_⟩
    · rw [midLoop, read_ok r1]
      simp only [ok_bind, read_ok r2, h1]
      exact h2
    · rw [c2, c1]
      by_cases hb : b = 0
      · subst hb
        by_cases hj : t = j
        · subst hj; simp
        · by_cases hj' : j + 1 ≤ t ∧ t < j + 1 + k
          · rw [if_pos ⟨rfl, hj'⟩, if_pos ⟨rfl, by omega⟩]
          · rw [if_neg (fun h => hj' h.2), if_neg (fun h => hj h.2), if_neg (by omega)]
      · rw [if_neg (fun h => hb h.1), if_neg (fun h => hb h.1), if_neg (fun h => hb h.1)]

theorem subdivideLoop_ok (cps : List (Vec S)) (l r : Nat) (hl : l ≠ 0) (hlr : l ≠ r) (k i : Nat)
    (m : Mem S) (hk : i + k = cps.length)
    (h0 : ∀ j, j < cps.length - i → cell m 0 j = some (Spec.triangle cps i j))
    (hls : ∀ j, j < cps.length → (cell m l j).isSome = true)
    (hrs : ∀ j, j < cps.length → (cell m r j).isSome = true)
    (hlv : ∀ j, j < i → cell m l j = some (Spec.triangle cps j 0))
    (hrv : ∀ j, cps.length - i ≤ j → j < cps.length →
      cell m r j = some (Spec.triangle cps (cps.length - 1 - j) j)) :
    ∃ m', subdivideLoop cps.length l r k i m = .ok m' ∧ shape m' = shape m ∧
      (∀ j, j < cps.length → cell m' l j = some (Spec.triangle cps j 0)) ∧
      (∀ j, j < cps.length → cell m' r j = some (Spec.triangle cps (cps.length - 1 - j) j)) ∧
      ∀ b j, b ≠ 0 → b ≠ r → (b = l → cps.length ≤ j) → cell m' b j = cell m b j := by
  induction k generalizing i m with
  | zero =>
    refine ⟨m, rfl, rfl, fun j hj => hlv j (by omega), fun j hj => hrv j (by omega) hj, fun _ _ _ _ _ => rfl⟩
  | succ k ih =>
    have r1 := h0 0 (by omega)
    obtain ⟨m1, h1, s1, c1⟩ := write_ok (hls i (by omega)) (Spec.triangle cps i 0)
    have r2 : cell m1 0 (cps.length - i - 1) = some (Spec.triangle cps i (cps.length - i - 1)) := by
      rw [c1, if_neg (by rintro ⟨h, -⟩; exact hl h.symm)]
      exact h0 _ (by omega)
    obtain ⟨m2, h2, s2, c2⟩ := write_ok (m := m1) (a := r) (i := cps.length - i - 1)
      (by rw [c1, if_neg (by rintro ⟨h, -⟩; exact hlr h.symm)]; exact hrs _ (by omega))
      (Spec.triangle cps i (cps.length - i - 1))
    have h02 : ∀ t, 0 ≤ t → t ≤ 0 + (cps.length - i - 1) → cell m2 0 t = some (Spec.triangle cps i t) := by
      intro t _ ht
      rw [c2]
      split
      · rename_i h; rw [h.2]
      · rw [c1, if_neg (by rintro ⟨h, -⟩; exact hl h.symm)]
        exact h0 t (by omega)
    obtain ⟨m3, h3, s3, c3⟩ := midLoop_ok (Spec.triangle cps i) (cps.length - i - 1) 0 m2 h02
    have hsh : shape m3 = shape m := s3.trans (s2.trans s1)
    obtain ⟨m4, h4, s4, v1, v2, v3⟩ := ih (i + 1) m3 (by omega)
      (fun j hj => by rw [c3, if_pos ⟨rfl, by omega, by omega⟩]; rfl)
      (fun j hj => by rw [cell_isSome, hsh, ← cell_isSome]; exact hls j hj)
      (fun j hj => by rw [cell_isSome, hsh, ← cell_isSome]; exact hrs j hj)
      (fun j hj => by
        rw [c3, if_neg (fun h => hl h.1), c2, if_neg (fun h => hlr h.1), c1]
        split
        · rename_i h; rw [h.2]
        · rename_i h; exact hlv j (by have : j ≠ i := fun e => h ⟨rfl, e⟩; omega))
      (fun j hj hj' => by
        rw [c3, if_neg (by omega), c2]
        split
        · rename_i h
          have : i = cps.length - 1 - j := by omega
          rw [h.2, this]
          congr 2
          omega
        · rename_i h
          rw [c1, if_neg (by rintro ⟨h, -⟩; exact hlr h.symm)]
          exact hrv j (by have : j ≠ cps.length - i - 1 := fun e => h ⟨rfl, e⟩; omega) hj')
    refine ⟨m4, ?_, s4.trans hsh, v1, v2, ?_⟩
    · rw [subdivideLoop, read_ok r1]
      simp only [ok_bind, h1, read_ok r2, h2, h3]
      exact h4
    · intro b j hb0 hbr hbl
      rw [v3 b j hb0 hbr hbl, c3, if_neg (fun h => hb0 h.1), c2, if_neg (fun h => hbr h.1), c1, if_neg]
      rintro ⟨hb, hj⟩
      have := hbl hb
      omega

/-- `subdivide` computes both edges of the triangle; `l` must not be the scratch buffer or `r`, but
`r` may be the scratch buffer. -/
theorem subdivide_ok (cps : List (Vec S)) (cp l r : Nat) (hcp : cp ≠ 0) (hl : l ≠ 0) (hlr : l ≠ r)
    (m : Mem S)
    (hc : ∀ j, j < cps.length → cell m cp j = some (cps.getD j Vec.zero))
    (h0 : ∀ j, j < cps.length → (cell m 0 j).isSome = true)
    (hls : ∀ j, j < cps.length → (cell m l j).isSome = true)
    (hrs : ∀ j, j < cps.length → (cell m r j).isSome = true) :
    ∃ m', subdivide cps.length cp l r m = .ok m' ∧ shape m' = shape m ∧
      (∀ j, j < cps.length → cell m' l j = some (Spec.triangle cps j 0)) ∧
      (∀ j, j < cps.length → cell m' r j = some (Spec.triangle cps (cps.length - 1 - j) j)) ∧
      ∀ b j, b ≠ 0 → b ≠ r → (b = l → cps.length ≤ j) → cell m' b j = cell m b j := by
  obtain ⟨m1, h1, s1, c1⟩ := copyLoop_ok 0 cp hcp.symm (fun j => cps.getD j Vec.zero) cps.length 0 m
    (fun j _ hj => hc j (by omega)) (fun j _ hj => h0 j (by omega))
  obtain ⟨m2, h2, s2, v1, v2, v3⟩ := subdivideLoop_ok cps l r hl hlr cps.length 0 m1 (by omega)
    (fun j hj => by rw [c1, if_pos ⟨rfl, by omega, by omega⟩]; rfl)
    (fun j hj => by rw [cell_isSome, s1, ← cell_isSome]; exact hls j hj)
    (fun j hj => by rw [cell_isSome, s1, ← cell_isSome]; exact hrs j hj)
    (fun j hj => by omega) (fun j hj hj' => by omega)
  refine ⟨m2, ?_, s2.trans s1, v1, v2, ?_⟩
  · unfold subdivide
    rw [h1, ok_bind]
    exact h2
  · intro b j hb0 hbr hbl
    rw [v3 b j hb0 hbr hbl, c1, if_neg (fun h => hb0 h.1)]

omit [GoFloat S] in
theorem joinLoop_ok (count l r : Nat) (hlr : l ≠ r) (g : Nat → Vec S) (k i : Nat) (m : Mem S)
    (hs : ∀ j, i ≤ j → j < i + k → cell m r (j + 1) = some (g j))
    (hd : ∀ j, i ≤ j → j < i + k → (cell m l (count + j)).isSome = true) :
    ∃ m', joinLoop count l r k i m = .ok m' ∧ shape m' = shape m ∧
      ∀ b j, cell m' b j =
        if b = l ∧ count + i ≤ j ∧ j < count + i + k then some (g (j - count)) else cell m b j := by
  induction k generalizing i m with
  | zero =>
    refine ⟨m, rfl, rfl, fun b j => ?_⟩
    rw [if_neg (by omega)]
  | succ k ih =>
    obtain ⟨m1, h1, s1, c1⟩ := write_ok (hd i (le_refl _) (by omega)) (g i)
    obtain ⟨m2, h2, s2, c2⟩ := ih (i + 1) m1
      (fun j hj hj' => by rw [c1, if_neg (by rintro ⟨h, -⟩; exact hlr h.symm)]; exact hs j (by omega) (by omega))
      (fun j hj hj' => by rw [c1, if_neg (by omega)]; exact hd j (by omega) (by omega))
    refine ⟨m2, ?_, s2.trans s1, fun b j => ?_⟩
    · rw [joinLoop, read_ok (hs i (le_refl _) (by omega))]
      simp only [ok_bind, h1]
      exact h2
    · rw [c2, c1]
      by_cases hb : b = l
      · subst hb
        by_cases hj : j = count + i
        · subst hj
          rw [if_neg (by omega), if_pos ⟨rfl, rfl⟩, if_pos ⟨rfl, by omega⟩, Nat.add_sub_cancel_left]
        · by_cases hj' : count + (i + 1) ≤ j ∧ j < count + (i + 1) + k
          · rw [if_pos ⟨rfl, hj'⟩, if_pos ⟨rfl, by omega⟩]
          · rw [if_neg (fun h => hj' h.2), if_neg (fun h => hj h.2), if_neg (by omega)]
      · rw [if_neg (fun h => hb h.1), if_neg (fun h => hb h.1), if_neg (fun h => hb h.1)]

theorem emitLoop_ok (l : Nat) (g : Nat → Vec S) (k i : Nat) (m : Mem S) (out : List (Vec S)) (hi : 1 ≤ i)
    (hs : ∀ j, 0 < k → 2 * i - 1 ≤ j → j < 2 * (i + k) → cell m l j = some (g j)) :
    emitLoop l k i m out = .ok (out ++ (List.range k).map (fun t =>
      (((g (2 * (i + t) - 1)).add ((g (2 * (i + t))).scl (lit 2))).add (g (2 * (i + t) + 1))).scl
        (lit 0.25))) := by
  induction k generalizing i out with
  | zero => simp [emitLoop]
  | succ k ih =>
    rw [emitLoop, read_ok (hs (2 * i - 1) (by omega) (by omega) (by omega))]
    simp only [ok_bind, read_ok (hs (2 * i) (by omega) (by omega) (by omega)),
      read_ok (hs (2 * i + 1) (by omega) (by omega) (by omega))]
    rw [ih (i + 1) _ (by omega) (fun j h0 hj hj' => hs j (by omega) (by omega) (by omega)), List.range_succ_eq_map,
      List.map_cons, List.map_map, List.append_assoc]
    have e : ∀ t, i + 1 + t = i + (t + 1) := fun t => by omega
    simp only [e, Nat.add_zero, List.singleton_append, Function.comp_def, Nat.succ_eq_add_one]

theorem leftHalf_length (cps : List (Vec S)) : (Spec.leftHalf cps).length = cps.length := by
  simp [Spec.leftHalf]

theorem rightHalf_length (cps : List (Vec S)) : (Spec.rightHalf cps).length = cps.length := by
  simp [Spec.rightHalf]

theorem leftHalf_getD (cps : List (Vec S)) {j : Nat} (h : j < cps.length) :
    (Spec.leftHalf cps).getD j Vec.zero = Spec.triangle cps j 0 := by
  simp [Spec.leftHalf, h]

theorem rightHalf_getD (cps : List (Vec S)) {j : Nat} (h : j < cps.length) :
    (Spec.rightHalf cps).getD j Vec.zero = Spec.triangle cps (cps.length - 1 - j) j := by
  simp [Spec.rightHalf, h]

theorem approximate_ok (cps : List (Vec S)) (hne : cps ≠ []) (cp : Nat) (hcp : 2 ≤ cp) (m : Mem S)
    (out : List (Vec S))
    (hc : ∀ j, j < cps.length → cell m cp j = some (cps.getD j Vec.zero))
    (h0 : ∀ j, j < cps.length → (cell m 0 j).isSome = true)
    (h1 : ∀ j, j < 2 * cps.length - 1 → (cell m 1 j).isSome = true) :
    ∃ m', approximate cps.length cp m out = .ok (m', out ++ Spec.pieces cps) ∧ shape m' = shape m ∧
      ∀ b j, 2 ≤ b → cell m' b j = cell m b j := by
  have hpos : 0 < cps.length := List.length_pos_iff.mpr hne
  obtain ⟨m1, e1, s1, v1, v2, v3⟩ := subdivide_ok cps cp 1 0 (by omega) (by omega) (by omega) m hc h0
    (fun j hj => h1 j (by omega)) h0
  obtain ⟨m2, e2, s2, c2⟩ := joinLoop_ok cps.length 1 0 (by omega)
    (fun j => Spec.triangle cps (cps.length - 1 - (j + 1)) (j + 1)) (cps.length - 1) 0 m1
    (fun j _ hj => v2 (j + 1) (by omega))
    (fun j _ hj => by rw [cell_isSome, s1, ← cell_isSome]; exact h1 _ (by omega))
  have hframe : ∀ b j, 2 ≤ b → cell m2 b j = cell m b j := by
    intro b j hb
    rw [c2, if_neg (by omega), v3 b j (by omega) (by omega) (by omega)]
  have hl : ∀ j, j < 2 * cps.length - 1 → cell m2 1 j =
      some ((Spec.leftHalf cps ++ (Spec.rightHalf cps).tail).getD j Vec.zero) := by
    intro j hj
    rw [c2]
    by_cases hj' : j < cps.length
    · rw [if_neg (by omega), v1 j hj', List.getD_eq_getElem?_getD,
        List.getElem?_append_left (by rw [leftHalf_length]; exact hj'), ← List.getD_eq_getElem?_getD,
        leftHalf_getD _ hj']
    · rw [if_pos ⟨rfl, by omega, by omega⟩, List.getD_eq_getElem?_getD,
        List.getElem?_append_right (by rw [leftHalf_length]; omega), ← List.getD_eq_getElem?_getD,
        leftHalf_length]
      have e : (Spec.rightHalf cps).tail.getD (j - cps.length) Vec.zero =
          (Spec.rightHalf cps).getD (j - cps.length + 1) Vec.zero := by
        simp only [List.getD_eq_getElem?_getD, List.getElem?_tail]
      rw [e, rightHalf_getD _ (by omega)]
  have e3 := emitLoop_ok 1 (fun j => (Spec.leftHalf cps ++ (Spec.rightHalf cps).tail).getD j Vec.zero)
    (cps.length - 2) 1 m2 (out ++ [cps.getD 0 Vec.zero]) (le_refl _) (fun j h0 hj hj' => hl j (by omega))
  refine ⟨m2, ?_, s2.trans s1, hframe⟩
  have r0 : cell m2 cp 0 = some (cps.getD 0 Vec.zero) := by rw [hframe _ _ hcp]; exact hc 0 hpos
  unfold approximate
  simp only [e1, ok_bind, e2, read_ok r0, e3]
  have ht : cps.take 1 = [cps.getD 0 Vec.zero] := by
    cases cps with
    | nil => exact absurd rfl hne
    | cons a t => simp
  unfold Spec.pieces
  simp only [ht, List.append_assoc]
  refine congrArg (fun x => Except.ok (m2, x)) ?_
  congr 2
  apply List.map_congr_left
  intro t _
  have e1 : 2 * (1 + t) - 1 = 2 * t + 1 := by omega
  have e2 : 2 * (1 + t) = 2 * t + 2 := by omega
  rw [e1, e2]

theorem isFlatEnough_iff (cps : List (Vec S)) : isFlatEnough cps = true ↔ Spec.flat cps := by
  induction cps with
  | nil => simp [isFlatEnough, Spec.flat]
  | cons a t ih =>
    cases t with
    | nil => simp [isFlatEnough, Spec.flat]
    | cons b t =>
      cases t with
      | nil => simp [isFlatEnough, Spec.flat]
      | cons c t =>
        rw [isFlatEnough]
        constructor
        · intro h i x y z hx hy hz
          split at h
          · cases h
          · rename_i hn
            cases i with
            | zero =>
              simp only [List.getElem?_cons_zero, zero_add, List.getElem?_cons_succ, Option.some.injEq] at hx hy hz
              subst hx hy hz
              simpa using hn
            | succ i =>
              exact (ih.mp h) i x y z (by simpa using hx) (by simpa using hy) (by simpa using hz)
        · intro h
          have h0 := h 0 a b c rfl rfl rfl
          rw [if_neg (by rw [h0]; simp)]
          apply ih.mpr
          intro i x y z hx hy hz
          exact h (i + 1) x y z (by simpa using hx) (by simpa using hy) (by simpa using hz)

/-! ### Buffers as a whole -/

omit [GoFloat S] in
theorem cell_of_buffer {m : Mem S} {a : Nat} {c : List (Vec S)} (h : m[a]? = some c) (j : Nat) :
    cell m a j = c[j]? := by
  unfold cell
  rw [h]
  rfl

omit [GoFloat S] in
theorem shape_of_buffer {m : Mem S} {a : Nat} {c : List (Vec S)} (h : m[a]? = some c) :
    (shape m)[a]? = some c.length := by
  unfold shape
  rw [List.getElem?_map, h]
  rfl

omit [GoFloat S] in
theorem buffer_of_shape {m : Mem S} {a n : Nat} (h : (shape m)[a]? = some n) :
    ∃ c, m[a]? = some c ∧ c.length = n := by
  unfold shape at h
  rw [List.getElem?_map] at h
  cases hb : m[a]? with
  | none => rw [hb] at h; cases h
  | some c =>
    rw [hb] at h
    exact ⟨c, rfl, by simpa using h⟩

omit [GoFloat S] in
theorem buffer_congr {m m' : Mem S} {a : Nat} (hs : shape m' = shape m)
    (hc : ∀ j, cell m' a j = cell m a j) : m'[a]? = m[a]? := by
  cases hb : m[a]? with
  | none =>
    have : (shape m)[a]? = none := by unfold shape; rw [List.getElem?_map, hb]; rfl
    rw [← hs] at this
    unfold shape at this
    rw [List.getElem?_map] at this
    simpa using this
  | some c =>
    have h1 := shape_of_buffer hb
    rw [← hs] at h1
    obtain ⟨c', h2, _⟩ := buffer_of_shape h1
    rw [h2]
    congr 1
    apply List.ext_getElem?
    intro j
    rw [← cell_of_buffer h2, ← cell_of_buffer hb, hc]

theorem buffer_of_cells {m : Mem S} {a : Nat} {c : List (Vec S)} (hs : (shape m)[a]? = some c.length)
    (hc : ∀ j, j < c.length → cell m a j = some (c.getD j Vec.zero)) : m[a]? = some c := by
  obtain ⟨c', h2, hl⟩ := buffer_of_shape hs
  rw [h2]
  congr 1
  apply List.ext_getElem?
  intro j
  by_cases hj : j < c.length
  · rw [← cell_of_buffer h2, hc j hj, List.getD_eq_getElem?_getD]
    rw [List.getElem?_eq_getElem hj]
    rfl
  · rw [List.getElem?_eq_none (by omega), List.getElem?_eq_none (by omega)]

theorem cell_getD {m : Mem S} {a : Nat} {c : List (Vec S)} (h : m[a]? = some c) {j : Nat} (hj : j < c.length) :
    cell m a j = some (c.getD j Vec.zero) := by
  rw [cell_of_buffer h, List.getD_eq_getElem?_getD, List.getElem?_eq_getElem hj]
  rfl

/-- Memory layout: scratch buffers, the caller's points, and the owned buffers, all distinct. -/
structure Layout (cps : List (Vec S)) (m : Mem S) (addrs : List Nat) : Prop where
  scratch : (shape m)[0]? = some cps.length
  double : (shape m)[1]? = some (2 * cps.length - 1)
  caller : m[2]? = some cps
  distinct : addrs.Nodup
  owned : ∀ a ∈ addrs, 3 ≤ a ∧ (shape m)[a]? = some cps.length

omit [GoFloat S] in
theorem Layout.congr {cps : List (Vec S)} {m m' : Mem S} {addrs addrs' : List Nat} (h : Layout cps m addrs)
    (hs : shape m' = shape m) (h2 : m'[2]? = m[2]?) (hp : addrs'.Perm addrs) : Layout cps m' addrs' :=
  ⟨by rw [hs]; exact h.scratch, by rw [hs]; exact h.double, by rw [h2]; exact h.caller,
    hp.nodup_iff.mpr h.distinct, fun a ha => by rw [hs]; exact h.owned a (hp.mem_iff.mp ha)⟩

/-- The loop on the contents of the pending buffers. -/
def absLoop : Nat → List (List (Vec S)) → List (Vec S) → Option (List (Vec S))
  | 0, _, _ => none
  | _ + 1, [], out => some out
  | fuel + 1, c :: rest, out =>
    if isFlatEnough c then absLoop fuel rest (out ++ Spec.pieces c)
    else absLoop fuel (Spec.leftHalf c :: Spec.rightHalf c :: rest) out

theorem step_flat {cps : List (Vec S)} (hne : cps ≠ []) {mem : Mem S} {parent : Nat} {rest free : List Nat}
    {out : List (Vec S)} {c : List (Vec S)} {pending : List (List (Vec S))}
    (hl : Layout cps mem (parent :: rest ++ free)) (hp : mem[parent]? = some c)
    (hr : rest.map (fun a => mem[a]?) = pending.map some) (hf : isFlatEnough c = true) :
    ∃ mem', step cps.length parent ⟨mem, rest, free, out⟩ =
        .ok ⟨mem', rest, parent :: free, out ++ Spec.pieces c⟩ ∧
      Layout cps mem' (rest ++ parent :: free) ∧
      rest.map (fun a => mem'[a]?) = pending.map some := by
  obtain ⟨hp3, hps⟩ := hl.owned parent (by simp)
  have hlen : c.length = cps.length := by
    have := shape_of_buffer hp
    rw [hps] at this
    simpa using this.symm
  have hcne : c ≠ [] := by
    intro h
    rw [h] at hlen
    exact hne (List.length_eq_zero_iff.mp hlen.symm)
  obtain ⟨m', e, s, fr⟩ := approximate_ok c hcne parent (by omega) mem out
    (fun j hj => cell_getD hp hj)
    (fun j hj => cell_isSome.mpr ⟨_, hl.scratch, by omega⟩)
    (fun j hj => cell_isSome.mpr ⟨_, hl.double, by omega⟩)
  have hb : ∀ a, 2 ≤ a → m'[a]? = mem[a]? := fun a ha => buffer_congr s (fun j => fr a j ha)
  refine ⟨m', ?_, ?_, ?_⟩
  · unfold step
    simp only [hp, hf, if_true]
    rw [← hlen, e]
    rfl
  · exact hl.congr s (hb 2 (le_refl _)) (by simp [List.perm_middle])
  · rw [← hr]
    apply List.map_congr_left
    intro a ha
    exact hb a (by have := (hl.owned a (by simp [ha])).1; omega)

/-- The part of a splitting step after the right child's buffer has been chosen. -/
theorem split_ok {cps c : List (Vec S)} {mem : Mem S} {parent right : Nat} {rest free : List Nat}
    {pending : List (List (Vec S))}
    (hl : Layout cps mem (parent :: right :: rest ++ free)) (hp : mem[parent]? = some c)
    (hr : rest.map (fun a => mem[a]?) = pending.map some) :
    ∃ m1 m2, subdivide cps.length parent 1 right mem = .ok m1 ∧
      copyLoop parent 1 cps.length 0 m1 = .ok m2 ∧
      Layout cps m2 (parent :: right :: rest ++ free) ∧
      (parent :: right :: rest).map (fun a => m2[a]?) =
        (Spec.leftHalf c :: Spec.rightHalf c :: pending).map some := by
  obtain ⟨hp3, hps⟩ := hl.owned parent (by simp)
  obtain ⟨hr3, hrs⟩ := hl.owned right (by simp)
  have hlen : c.length = cps.length := by
    have := shape_of_buffer hp
    rw [hps] at this
    simpa using this.symm
  have hd := hl.distinct
  rw [List.cons_append, List.cons_append, List.nodup_cons, List.nodup_cons] at hd
  have hpr : parent ≠ right := fun h => hd.1 (by rw [h]; simp)
  have hprest : parent ∉ rest := fun h => hd.1 (by simp [h])
  have hrrest : right ∉ rest := fun h => hd.2.1 (by simp [h])
  obtain ⟨m1, e1, s1, v1, v2, v3⟩ := subdivide_ok c parent 1 right (by omega) (by omega) (by omega) mem
    (fun j hj => cell_getD hp hj)
    (fun j hj => cell_isSome.mpr ⟨_, hl.scratch, by omega⟩)
    (fun j hj => cell_isSome.mpr ⟨_, hl.double, by omega⟩)
    (fun j hj => cell_isSome.mpr ⟨_, hrs, by omega⟩)
  obtain ⟨m2, e2, s2, c2⟩ := copyLoop_ok parent 1 (by omega) (fun j => Spec.triangle c j 0) c.length 0 m1
    (fun j _ hj => v1 j (by omega))
    (fun j _ hj => by rw [cell_isSome, s1, ← cell_isSome]; exact cell_isSome.mpr ⟨_, hps, by omega⟩)
  have hs := s2.trans s1
  have hb : ∀ a, 2 ≤ a → a ≠ parent → a ≠ right → m2[a]? = mem[a]? := by
    intro a ha hap har
    refine buffer_congr hs (fun j => ?_)
    rw [c2, if_neg (fun h => hap h.1), v3 a j (by omega) har (by omega)]
  refine ⟨m1, m2, by rw [← hlen]; exact e1, by rw [← hlen]; exact e2, ?_, ?_⟩
  · exact hl.congr hs (hb 2 (le_refl _) (by omega) (by omega)) (List.Perm.refl _)
  · rw [List.map_cons, List.map_cons, List.map_cons, List.map_cons]
    congr 1
    · apply buffer_of_cells
      · rw [leftHalf_length, hs, hps, hlen]
      · intro j hj
        rw [leftHalf_length] at hj
        rw [c2, if_pos ⟨rfl, by omega, by omega⟩, leftHalf_getD c hj]
    · congr 1
      · apply buffer_of_cells
        · rw [rightHalf_length, hs, hrs, hlen]
        · intro j hj
          rw [rightHalf_length] at hj
          rw [c2, if_neg (fun h => hpr h.1.symm), v2 j hj, rightHalf_getD c hj]
      · rw [← hr]
        apply List.map_congr_left
        intro a ha
        exact hb a (by have := (hl.owned a (by simp [ha])).1; omega) (fun h => hprest (h ▸ ha))
          (fun h => hrrest (h ▸ ha))

/-- The buffer of the right child: a recycled one or a new one at the end of the memory. -/
theorem step_split {cps : List (Vec S)} {mem : Mem S} {parent : Nat} {rest free : List Nat}
    {out : List (Vec S)} {c : List (Vec S)} {pending : List (List (Vec S))}
    (hl : Layout cps mem (parent :: rest ++ free)) (hp : mem[parent]? = some c)
    (hr : rest.map (fun a => mem[a]?) = pending.map some) (hf : isFlatEnough c = false) :
    ∃ mem' right free', step cps.length parent ⟨mem, rest, free, out⟩ =
        .ok ⟨mem', parent :: right :: rest, free', out⟩ ∧
      Layout cps mem' (parent :: right :: rest ++ free') ∧
      (parent :: right :: rest).map (fun a => mem'[a]?) =
        (Spec.leftHalf c :: Spec.rightHalf c :: pending).map some := by
  cases free with
  | cons b free =>
    have hl' : Layout cps mem (parent :: b :: rest ++ free) := hl.congr rfl rfl (by
      rw [List.cons_append, List.cons_append, List.cons_append]
      exact List.Perm.cons _ List.perm_middle.symm)
    obtain ⟨m1, m2, e1, e2, h3, h4⟩ := split_ok hl' hp hr
    refine ⟨m2, b, free, ?_, h3, h4⟩
    unfold step
    simp only [hp, hf, Bool.false_eq_true, if_false]
    simp only [e1, ok_bind, e2]
    rfl
  | nil =>
    have hlt : ∀ a ∈ parent :: rest, a < mem.length := by
      intro a ha
      have := (hl.owned a (by simpa using ha)).2
      obtain ⟨c, hc, -⟩ := buffer_of_shape this
      exact (List.getElem?_eq_some_iff.mp hc).1
    have h2lt : 2 < mem.length := (List.getElem?_eq_some_iff.mp hl.caller).1
    have happ : ∀ a, a < mem.length →
        (mem ++ [List.replicate cps.length (Vec.zero : Vec S)])[a]? = mem[a]? :=
      fun a ha => List.getElem?_append_left ha
    have hsapp : ∀ a, a < mem.length →
        (shape (mem ++ [List.replicate cps.length (Vec.zero : Vec S)]))[a]? = (shape mem)[a]? := by
      intro a ha
      unfold shape
      rw [List.getElem?_map, List.getElem?_map, happ a ha]
    have hl' : Layout cps (mem ++ [List.replicate cps.length Vec.zero])
        (parent :: mem.length :: rest ++ []) := by
      refine ⟨?_, ?_, ?_, ?_, ?_⟩
      · rw [hsapp _ (by omega)]; exact hl.scratch
      · rw [hsapp _ (by omega)]; exact hl.double
      · rw [happ _ h2lt]; exact hl.caller
      · have hd := hl.distinct
        simp only [List.append_nil] at hd ⊢
        rw [List.nodup_cons] at hd ⊢
        rw [List.nodup_cons]
        refine ⟨?_, fun h => absurd (hlt mem.length (by simp [h])) (by omega), hd.2⟩
        intro h
        rcases List.mem_cons.mp h with h | h
        · exact absurd (hlt parent (by simp)) (by omega)
        · exact hd.1 h
      · intro a ha
        simp only [List.append_nil] at ha
        by_cases hal : a = mem.length
        · subst hal
          refine ⟨by omega, ?_⟩
          unfold shape
          rw [List.getElem?_map, List.getElem?_append_right (le_refl _)]
          simp
        · have ha' : a ∈ parent :: rest := by
            rcases List.mem_cons.mp ha with h | h
            · simp [h]
            · rcases List.mem_cons.mp h with h | h
              · exact absurd h hal
              · simp [h]
          rw [hsapp a (hlt a ha')]
          exact hl.owned a (by simpa using ha')
    obtain ⟨m1, m2, e1, e2, h3, h4⟩ := split_ok hl' (c := c) (pending := pending)
      (by rw [happ _ (hlt _ (by simp))]; exact hp)
      (by
        rw [← hr]
        apply List.map_congr_left
        intro a ha
        exact happ a (hlt a (by simp [ha])))
    refine ⟨m2, mem.length, [], ?_, h3, h4⟩
    unfold step
    simp only [hp, hf, Bool.false_eq_true, if_false]
    simp only [e1, ok_bind, e2]
    rfl

/-- The loop with buffers computes the loop on contents. -/
theorem loop_ok {cps : List (Vec S)} (hne : cps ≠ []) (fuel : Nat) (st : State S)
    (pending : List (List (Vec S))) (hl : Layout cps st.mem (st.toFlatten ++ st.free))
    (hp : st.toFlatten.map (fun a => st.mem[a]?) = pending.map some) :
    (∀ out, absLoop fuel pending st.out = some out →
      ∃ st', loop cps.length fuel st = .ok st' ∧ st'.out = out ∧ st'.mem[2]? = some cps) ∧
    (absLoop fuel pending st.out = none → loop cps.length fuel st = .error .hang) := by
  induction fuel generalizing st pending with
  | zero => exact ⟨fun out h => (by simp [absLoop] at h), fun _ => rfl⟩
  | succ fuel ih =>
    obtain ⟨mem, toFlatten, free, out⟩ := st
    simp only at hl hp
    cases toFlatten with
    | nil =>
      have : pending = [] := by simpa using hp.symm
      subst this
      refine ⟨fun o h => ⟨_, rfl, ?_, hl.caller⟩, fun h => (by simp [absLoop] at h)⟩
      simpa [absLoop] using h
    | cons parent rest =>
      cases pending with
      | nil => simp at hp
      | cons c pending =>
        rw [List.map_cons, List.map_cons, List.cons.injEq] at hp
        obtain ⟨hpc, hpr⟩ := hp
        cases hf : isFlatEnough c with
        | true =>
          obtain ⟨m', e, l', r'⟩ := step_flat hne (out := out) hl hpc hpr hf
          have := ih ⟨m', rest, parent :: free, out ++ Spec.pieces c⟩ pending l' r'
          simp only [absLoop, hf, if_true]
          have el : loop cps.length (fuel + 1) ⟨mem, parent :: rest, free, out⟩ =
              loop cps.length fuel ⟨m', rest, parent :: free, out ++ Spec.pieces c⟩ := by
            rw [loop]
            simp only [e, ok_bind]
          rw [el]
          exact this
        | false =>
          obtain ⟨m', right, free', e, l', r'⟩ := step_split (out := out) hl hpc hpr hf
          have := ih ⟨m', parent :: right :: rest, free', out⟩
            (Spec.leftHalf c :: Spec.rightHalf c :: pending) l' r'
          simp only [absLoop, hf, Bool.false_eq_true, if_false]
          have el : loop cps.length (fuel + 1) ⟨mem, parent :: rest, free, out⟩ =
              loop cps.length fuel ⟨m', parent :: right :: rest, free', out⟩ := by
            rw [loop]
            simp only [e, ok_bind]
          rw [el]
          exact this

theorem createBezierState_ok {cps : List (Vec S)} (hne : cps ≠ []) (fuel : Nat) :
    (∀ l, absLoop fuel [cps] [] = some l → ∃ st, createBezierState fuel cps = .ok st ∧
      st.out = l ++ [cps.getLast hne] ∧ st.mem[2]? = some cps) ∧
    (absLoop fuel [cps] [] = none → createBezierState fuel cps = .error .hang) := by
  have hpos : 0 < cps.length := List.length_pos_iff.mpr hne
  have h2 : ([List.replicate cps.length Vec.zero, List.replicate (2 * cps.length - 1) Vec.zero, cps,
       List.replicate cps.length Vec.zero] : Mem S)[2]? = some cps := rfl
  obtain ⟨m, e, s, c⟩ := copyLoop_ok 3 2 (by omega) (fun j => cps.getD j Vec.zero) cps.length 0
    [List.replicate cps.length Vec.zero, List.replicate (2 * cps.length - 1) Vec.zero, cps,
       List.replicate cps.length Vec.zero]
    (fun j _ hj => cell_getD h2 (by omega))
    (fun j _ hj => cell_isSome.mpr ⟨cps.length, by simp [shape], by omega⟩)
  have hm2 : m[2]? = some cps := by rw [buffer_congr s (fun j => by rw [c, if_neg (by omega)])]; rfl
  have hm3 : m[3]? = some cps := by
    apply buffer_of_cells
    · rw [s]; simp [shape]
    · intro j hj
      rw [c, if_pos ⟨rfl, by omega, by omega⟩]
  have hl : Layout cps m [3] := by
    refine ⟨?_, ?_, hm2, by simp, ?_⟩
    · rw [s]; simp [shape]
    · rw [s]; simp [shape]
    · intro a ha
      simp only [List.mem_singleton] at ha
      subst ha
      exact ⟨le_refl _, by rw [s]; simp [shape]⟩
  have hloop := loop_ok hne fuel ⟨m, [3], [], []⟩ [cps] hl (by simp [hm3])
  simp only at hloop
  refine ⟨fun l hl' => ?_, fun h => ?_⟩
  · obtain ⟨st, e', ho, hc⟩ := hloop.1 l hl'
    have hr : st.mem.read 2 (cps.length - 1) = .ok (cps.getLast hne) := by
      apply read_ok
      rw [cell_of_buffer hc, List.getLast_eq_getElem]
      exact List.getElem?_eq_getElem (by omega)
    refine ⟨{ st with out := st.out ++ [cps.getLast hne] }, ?_, by rw [← ho], hc⟩
    unfold createBezierState
    rw [if_neg (by omega)]
    simp only [e, ok_bind, e', hr]
    rfl
  · unfold createBezierState
    rw [if_neg (by omega)]
    simp only [e, ok_bind, hloop.2 h]
    rfl

/-! ### The loop on contents and the recursive description -/

theorem absLoop_sound (fuel : Nat) (pending : List (List (Vec S))) (out res : List (Vec S))
    (h : absLoop fuel pending out = some res) :
    ∃ ls, List.Forall₂ Spec.Flattens pending ls ∧ res = out ++ ls.flatten := by
  induction fuel generalizing pending out with
  | zero => cases h
  | succ fuel ih =>
    cases pending with
    | nil =>
      refine ⟨[], List.Forall₂.nil, ?_⟩
      simpa [absLoop] using h.symm
    | cons c rest =>
      rw [absLoop] at h
      split at h
      · rename_i hf
        obtain ⟨ls, h1, h2⟩ := ih _ _ h
        refine ⟨Spec.pieces c :: ls, List.Forall₂.cons (.flat ((isFlatEnough_iff c).mp hf)) h1, ?_⟩
        simp [h2]
      · rename_i hf
        obtain ⟨ls, h1, h2⟩ := ih _ _ h
        cases h1 with
        | cons ha h1 =>
          cases h1 with
          | cons hb h1 =>
            refine ⟨_, List.Forall₂.cons
              (.split (fun h => hf ((isFlatEnough_iff c).mpr h)) ha hb) h1, ?_⟩
            simp [h2]

theorem absLoop_complete {c l : List (Vec S)} (h : Spec.Flattens c l) (fuel : Nat)
    (rest : List (List (Vec S))) (out res : List (Vec S))
    (hk : absLoop fuel rest (out ++ l) = some res) :
    ∃ fuel', absLoop fuel' (c :: rest) out = some res := by
  induction h generalizing fuel rest out with
  | flat hf =>
    refine ⟨fuel + 1, ?_⟩
    rw [absLoop, if_pos ((isFlatEnough_iff _).mpr hf)]
    exact hk
  | split hf _ _ iha ihb =>
    obtain ⟨f1, h1⟩ := ihb fuel rest _ (by rw [List.append_assoc]; exact hk)
    obtain ⟨f2, h2⟩ := iha f1 _ _ h1
    refine ⟨f2 + 1, ?_⟩
    rw [absLoop, if_neg (fun h => hf ((isFlatEnough_iff _).mp h))]
    exact h2

end Approximator
end GosuPP

namespace GosuPP.Approximator
open Go
variable {S : Type} [GoFloat S]

theorem absLoop_mono {fuel fuel' : Nat} {pending : List (List (Vec S))} {out res : List (Vec S)}
    (h : absLoop fuel pending out = some res) (hle : fuel ≤ fuel') :
    absLoop fuel' pending out = some res := by
  induction fuel generalizing fuel' pending out with
  | zero => cases h
  | succ fuel ih =>
    obtain ⟨k, rfl⟩ : ∃ k, fuel' = k + 1 := ⟨fuel' - 1, by omega⟩
    cases pending with
    | nil => exact h
    | cons c rest =>
      rw [absLoop] at h ⊢
      split at h
      · rename_i hf
        rw [if_pos hf]
        exact ih h (by omega)
      · rename_i hf
        rw [if_neg hf]
        exact ih h (by omega)

theorem flattens_unique {c l l' : List (Vec S)} (h : Spec.Flattens c l) (h' : Spec.Flattens c l') :
    l = l' := by
  induction h generalizing l' with
  | flat hf =>
    cases h' with
    | flat _ => rfl
    | split hn _ _ => exact absurd hf hn
  | split hn _ _ iha ihb =>
    cases h' with
    | flat hf => exact absurd hf hn
    | split _ ha hb => rw [iha ha, ihb hb]

theorem flattens_head {c l : List (Vec S)} (h : Spec.Flattens c l) (hne : c ≠ []) : l.head? = c.head? := by
  induction h with
  | flat hf =>
    rename_i c
    cases c with
    | nil => exact absurd rfl hne
    | cons a t => simp [Spec.pieces]
  | split hn ha hb iha ihb =>
    rename_i c l r
    cases c with
    | nil => exact absurd rfl hne
    | cons a t =>
      have h1 := iha (by simp [Spec.leftHalf])
      have h2 : (Spec.leftHalf (a :: t)).head? = some a := by
        simp [Spec.leftHalf, List.range_succ_eq_map, Spec.triangle]
      rw [h2] at h1
      cases l with
      | nil => cases h1
      | cons x l => simpa using h1

end GosuPP.Approximator

namespace GosuPP

theorem binomialLoop_le (n : Nat) (k i : Nat) (c : Nat) (hi : 1 ≤ i) (hk : i + k ≤ n + 1)
    (hc : c ≤ n.choose (i - 1)) :
    0 ≤ binomialLoop n k i c ∧ binomialLoop n k i c ≤ (n.choose (i + k - 1) : Nat) := by
  induction k generalizing i c with
  | zero =>
    simp only [binomialLoop, Nat.add_zero]
    exact ⟨by positivity, by exact_mod_cast hc⟩
  | succ k ih =>
    have e1 : ((n : Int) + 1 - i).tdiv i = ((n + 1 - i) / i : Nat) := by
      have : (n : Int) + 1 - i = ((n + 1 - i : Nat) : Int) := by omega
      rw [this]
      rfl
    have e2 : (c : Int) * ((n + 1 - i) / i : Nat) = ((c * ((n + 1 - i) / i) : Nat) : Int) := by push_cast; ring
    rw [binomialLoop, e1, e2]
    have := ih (i + 1) (c * ((n + 1 - i) / i)) (by omega) (by omega) (by
      have h1 := Nat.choose_succ_right_eq n (i - 1)
      have h2 : i - 1 + 1 = i := by omega
      have h3 : n - (i - 1) = n + 1 - i := by omega
      rw [h2, h3] at h1
      have h4 : i + 1 - 1 = i := by omega
      rw [h4]
      have h5 : c * ((n + 1 - i) / i) * i ≤ n.choose i * i := by
        rw [h1]
        calc c * ((n + 1 - i) / i) * i = c * ((n + 1 - i) / i * i) := by ring
          _ ≤ c * (n + 1 - i) := Nat.mul_le_mul_left _ (Nat.div_mul_le_self _ _)
          _ ≤ n.choose (i - 1) * (n + 1 - i) := Nat.mul_le_mul_right _ hc
      exact Nat.le_of_mul_le_mul_right h5 (by omega))
    have e3 : i + 1 + k - 1 = i + (k + 1) - 1 := by omega
    rw [e3] at this
    have e4 : ((i : Int) + 1) = ((i + 1 : Nat) : Int) := by push_cast; rfl
    rw [e4]
    exact this

end GosuPP
