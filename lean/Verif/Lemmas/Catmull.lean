import Verif.Lemmas.PathReal
import Verif.Spec.Catmull
import Mathlib.Tactic.IntervalCases

/-! Catmull sliders are splines, in exact arithmetic. -/

namespace GosuPP
open Go MultiCurve

theorem catmullCoord_real (a b c d t : ℝ) : catmullCoord a b c d t =
    b + (c - a) / 2 * t + (2 * a - 5 * b + 4 * c - d) / 2 * t ^ 2 + (-a + 3 * b - 3 * c + d) / 2 * t ^ 3 := by
  show (lit 0.5 : ℝ) * ((lit 2 : ℝ) * b + (-a + c) * t + ((lit 2 : ℝ) * a - (lit 5 : ℝ) * b + (lit 4 : ℝ) * c - d) * (t * t) +
    (-a + (lit 3 : ℝ) * b - (lit 3 : ℝ) * c + d) * (t * (t * t))) = _
  simp only [RealArith.lit]
  push_cast
  ring

theorem cubic_deriv (a b c d t : ℝ) :
    HasDerivAt (fun t : ℝ => a + b * t + c * t ^ 2 + d * t ^ 3) (b + 2 * c * t + 3 * d * t ^ 2) t := by
  have h1 : HasDerivAt (fun t : ℝ => a + b * t) b t := by
    simpa using ((hasDerivAt_id t).const_mul b).const_add a
  have h2 := (hasDerivAt_pow 2 t).const_mul c
  have h3 := (hasDerivAt_pow 3 t).const_mul d
  refine ((h1.add h2).add h3).congr_deriv ?_
  push_cast
  ring

theorem catmullLoop_get (p1 p2 p3 p4 : Vec ℝ) (k : ℕ) : ∀ (i j : ℕ), j < k →
    (catmullLoop p1 p2 p3 p4 50 k i)[j]? = some ⟨catmullPoint p1 p2 p3 p4 (((i + j : ℕ) : ℝ) / 50),
      catmullPoint p1 p2 p3 p4 (((i + j + 1 : ℕ) : ℝ) / 50)⟩ := by
  induction k with
  | zero => intro i j hj; omega
  | succ k ih =>
    intro i j hj
    rw [catmullLoop]
    cases j with
    | zero =>
      have e1 : (ofInt (i : ℤ) /. ofInt 50 : ℝ) = (i : ℝ) / 50 := by
        show (((i : ℤ) : ℝ)) / ((50 : ℤ) : ℝ) = _
        push_cast; rfl
      have e2 : (ofInt ((i : ℤ) + 1) /. ofInt 50 : ℝ) = ((i + 1 : ℕ) : ℝ) / 50 := by
        show ((((i : ℤ) + 1 : ℤ) : ℝ)) / ((50 : ℤ) : ℝ) = _
        push_cast; rfl
      rw [e1, e2]
      rfl
    | succ j =>
      have h := ih (i + 1) j (by omega)
      rw [List.getElem?_cons_succ]
      have e : i + 1 + j = i + (j + 1) := by omega
      rw [e] at h
      push_cast at h ⊢
      exact h

theorem catmullLoop_length (p1 p2 p3 p4 : Vec ℝ) (n : ℤ) (k : ℕ) : ∀ i : ℤ,
    (catmullLoop p1 p2 p3 p4 n k i).length = k := by
  induction k with
  | zero => intro i; rfl
  | succ k ih => intro i; rw [catmullLoop, List.length_cons, ih]

theorem processCatmullLoop_cons (p a b : Vec ℝ) (rest : List (Vec ℝ)) : processCatmullLoop p (a :: b :: rest) =
    catmullLoop p a b (rest[0]?.getD (b.add (b.sub a))) 50 50 0 ++ processCatmullLoop a (b :: rest) := by
  conv_lhs => unfold processCatmullLoop
  cases rest <;> rfl

theorem processCatmullLoop_length (l : List (Vec ℝ)) : ∀ p : Vec ℝ,
    (processCatmullLoop p l).length = 50 * (l.length - 1) := by
  induction l with
  | nil => intro p; rfl
  | cons a t ih =>
    intro p
    cases t with
    | nil => rfl
    | cons b rest =>
      rw [processCatmullLoop_cons, List.length_append, ih a, catmullLoop_length]
      simp only [List.length_cons]
      omega

/-- The lines of the `i`-th part. -/
theorem processCatmullLoop_get (i : ℕ) : ∀ (l : List (Vec ℝ)) (p a b c : Vec ℝ) (j : ℕ), j < 50 → (p :: l)[i]? = some a →
    l[i]? = some b → l[i + 1]? = some c →
    (processCatmullLoop p l)[50 * i + j]? =
      some ⟨catmullPoint a b c (l[i + 2]?.getD (c.add (c.sub b))) ((j : ℝ) / 50),
        catmullPoint a b c (l[i + 2]?.getD (c.add (c.sub b))) (((j + 1 : ℕ) : ℝ) / 50)⟩ := by
  induction i with
  | zero =>
    intro l p a b c j hj ha hb hc
    match l, hb, hc with
    | b' :: c' :: rest, hb, hc =>
      simp only [List.getElem?_cons_zero, List.getElem?_cons_succ, Option.some.injEq, Nat.zero_add] at ha hb hc
      subst ha hb hc
      rw [processCatmullLoop_cons, List.getElem?_append_left (by rw [catmullLoop_length]; omega)]
      have hl := catmullLoop_get p b' c' (rest[0]?.getD (c'.add (c'.sub b'))) 50 0 j hj
      simp only [Nat.mul_zero, Nat.zero_add, Nat.cast_zero] at hl ⊢
      exact hl
  | succ i ih =>
    intro l p a b c j hj ha hb hc
    match l, ha, hb, hc with
    | b' :: c' :: rest, ha, hb, hc =>
      rw [processCatmullLoop_cons, List.getElem?_append_right (by rw [catmullLoop_length]; omega), catmullLoop_length]
      have e : 50 * (i + 1) + j - 50 = 50 * i + j := by omega
      rw [e]
      simp only [List.getElem?_cons_succ] at ha hb hc
      exact ih (c' :: rest) b' a b c j hj ha hb hc

/-- One coordinate of a part. -/
theorem catmull_part (p : ℕ → ℝ) (n i : ℕ) (hi : i + 1 < n) :
    Spec.SplinePart p n i (catmullCoord (if i = 0 then p 0 else p (i - 1)) (p i) (p (i + 1))
      (if i + 2 < n then p (i + 2) else p (i + 1) + (p (i + 1) - p i))) := by
  have hf : ∀ a b c d : ℝ, (catmullCoord a b c d : ℝ → ℝ) = fun t => b + (c - a) / 2 * t + (2 * a - 5 * b + 4 * c - d) / 2 * t ^ 2 +
      (-a + 3 * b - 3 * c + d) / 2 * t ^ 3 := fun a b c d => funext (catmullCoord_real a b c d)
  refine ⟨⟨_, _, _, _, fun t => catmullCoord_real _ _ _ _ t⟩, catmullCoord_zero _ _ _ _, catmullCoord_one _ _ _ _, ?_, ?_⟩
  · rw [hf]
    refine (cubic_deriv _ _ _ _ 0).congr_deriv ?_
    unfold Spec.speed
    by_cases h0 : i = 0
    · subst h0
      simp
    · have hn : i + 1 ≠ n := by omega
      simp only [h0, hn, if_false]
      ring
  · rw [hf]
    refine (cubic_deriv _ _ _ _ 1).congr_deriv ?_
    unfold Spec.speed
    have h1 : i + 1 ≠ 0 := by omega
    by_cases h2 : i + 2 < n
    · have hn : i + 1 + 1 ≠ n := by omega
      simp only [h1, h2, hn, if_false, if_true, Nat.add_sub_cancel]
      ring
    · have hn : i + 1 + 1 = n := by omega
      rw [if_neg h2, if_neg h1, if_pos hn, Nat.add_sub_cancel]
      ring

/-- There is only one part. -/
theorem Spec.SplinePart.unique {p : ℕ → ℝ} {n i : ℕ} {f g : ℝ → ℝ} (hf : Spec.SplinePart p n i f) (hg : Spec.SplinePart p n i g) : f = g := by
  obtain ⟨⟨a, b, c, d, h⟩, h0, h1, h2, h3⟩ := hf
  obtain ⟨⟨a', b', c', d', h'⟩, h0', h1', h2', h3'⟩ := hg
  have ef : f = fun t => a + b * t + c * t ^ 2 + d * t ^ 3 := funext h
  have eg : g = fun t => a' + b' * t + c' * t ^ 2 + d' * t ^ 3 := funext h'
  rw [ef] at h2 h3
  rw [eg] at h2' h3'
  have u2 := (cubic_deriv a b c d 0).unique h2
  have u2' := (cubic_deriv a' b' c' d' 0).unique h2'
  have u3 := (cubic_deriv a b c d 1).unique h3
  have u3' := (cubic_deriv a' b' c' d' 1).unique h3'
  rw [h] at h0 h1
  rw [h'] at h0' h1'
  have e1 : a = a' := by linarith
  have e2 : b = b' := by linarith
  have e3 : c + d = c' + d' := by linarith
  have e4 : 2 * c + 3 * d = 2 * c' + 3 * d' := by linarith
  have e5 : d = d' := by linarith
  have e6 : c = c' := by linarith
  rw [ef, eg, e1, e2, e5, e6]

/-- A cubic and its chord over a fiftieth. -/
theorem chord_error {a b c d M : ℝ} (h0 : |2 * c| ≤ M) (h1 : |2 * c + 6 * d| ≤ M) {u s : ℝ} (hu : 0 ≤ u) (hu1 : u + 1 / 50 ≤ 1)
    (hs : 0 ≤ s) (hs1 : s ≤ 1) :
    |(a + b * (u + s / 50) + c * (u + s / 50) ^ 2 + d * (u + s / 50) ^ 3) -
      ((a + b * u + c * u ^ 2 + d * u ^ 3) + ((a + b * (u + 1 / 50) + c * (u + 1 / 50) ^ 2 + d * (u + 1 / 50) ^ 3) -
        (a + b * u + c * u ^ 2 + d * u ^ 3)) * s)| ≤ M / 20000 := by
  have e : (a + b * (u + s / 50) + c * (u + s / 50) ^ 2 + d * (u + s / 50) ^ 3) -
      ((a + b * u + c * u ^ 2 + d * u ^ 3) + ((a + b * (u + 1 / 50) + c * (u + 1 / 50) ^ 2 + d * (u + 1 / 50) ^ 3) -
        (a + b * u + c * u ^ 2 + d * u ^ 3)) * s) =
      -(s * (1 - s) / 5000) * ((1 - (u + (s + 1) / 150)) * (2 * c) + (u + (s + 1) / 150) * (2 * c + 6 * d)) := by
    ring
  rw [e, abs_mul, abs_neg]
  have hw0 : 0 ≤ u + (s + 1) / 150 := by positivity
  have hw1 : u + (s + 1) / 150 ≤ 1 := by linarith
  have hM : 0 ≤ M := (abs_nonneg _).trans h0
  have k1 : |(1 - (u + (s + 1) / 150)) * (2 * c) + (u + (s + 1) / 150) * (2 * c + 6 * d)| ≤ M := by
    refine (abs_add_le _ _).trans ?_
    rw [abs_mul _ (2 * c), abs_mul _ (2 * c + 6 * d), abs_of_nonneg hw0, abs_of_nonneg (by linarith : 0 ≤ 1 - (u + (s + 1) / 150))]
    nlinarith
  have k2 : |s * (1 - s) / 5000| ≤ 1 / 20000 := by
    rw [abs_of_nonneg (by have : 0 ≤ s * (1 - s) := mul_nonneg hs (by linarith); positivity)]
    nlinarith [sq_nonneg (s - 1 / 2)]
  calc _ ≤ 1 / 20000 * M := mul_le_mul k2 k1 (abs_nonneg _) (by norm_num)
    _ = _ := by ring

/-- The bend of a part, if its control points lie in an interval of width `w`. -/
theorem catmull_bend {a b c d w : ℝ} (ab : |a - b| ≤ w) (ac : |a - c| ≤ w) (bc : |b - c| ≤ w)
    (hd : d = c + (c - b) ∨ |a - d| ≤ w ∧ |b - d| ≤ w ∧ |c - d| ≤ w) :
    |2 * ((2 * a - 5 * b + 4 * c - d) / 2)| ≤ 6 * w ∧
      |2 * ((2 * a - 5 * b + 4 * c - d) / 2) + 6 * ((-a + 3 * b - 3 * c + d) / 2)| ≤ 6 * w := by
  rw [abs_le] at *
  simp only [abs_le] at *
  rcases hd with rfl | ⟨h1, h2, h3⟩ <;> refine ⟨⟨?_, ?_⟩, ⟨?_, ?_⟩⟩ <;> linarith

/-- A part and the chord over a fiftieth. -/
theorem spline_near {p : ℕ → ℝ} {n i j : ℕ} {w t : ℝ} {f : ℝ → ℝ} (hi : i + 1 < n) (hp : ∀ k, k < n → ∀ l, l < n → |p k - p l| ≤ w)
    (hf : Spec.SplinePart p n i f) (hj : j < 50) (h0 : (j : ℝ) / 50 ≤ t) (h1 : t ≤ ((j : ℝ) + 1) / 50) :
    |f t - (f ((j : ℝ) / 50) + (f (((j : ℝ) + 1) / 50) - f ((j : ℝ) / 50)) * (50 * t - j))| ≤ 3 / 10000 * w := by
  obtain rfl := hf.unique (catmull_part p n i hi)
  have hpre : (if i = 0 then p 0 else p (i - 1)) = p (i - 1) := by
    by_cases h : i = 0
    · subst h; rfl
    · rw [if_neg h]
  rw [hpre]
  simp only [catmullCoord_real]
  have hb := catmull_bend (d := if i + 2 < n then p (i + 2) else p (i + 1) + (p (i + 1) - p i))
    (hp (i - 1) (by omega) i (by omega)) (hp (i - 1) (by omega) (i + 1) hi) (hp i (by omega) (i + 1) hi)
    (by
      by_cases h2 : i + 2 < n
      · rw [if_pos h2]
        exact .inr ⟨hp _ (by omega) _ h2, hp _ (by omega) _ h2, hp _ (by omega) _ h2⟩
      · rw [if_neg h2]
        exact .inl rfl)
  have hj' : (j : ℝ) + 1 ≤ 50 := by exact_mod_cast hj
  have key := chord_error (a := p i) (b := (p (i + 1) - p (i - 1)) / 2) hb.1 hb.2 (u := (j : ℝ) / 50) (s := 50 * t - j) (by positivity)
    (by linarith) (by linarith) (by linarith)
  have e1 : (j : ℝ) / 50 + (50 * t - j) / 50 = t := by ring
  have e2 : (j : ℝ) / 50 + 1 / 50 = ((j : ℝ) + 1) / 50 := by ring
  rw [e1, e2] at key
  refine key.trans (le_of_eq ?_)
  ring

end GosuPP
