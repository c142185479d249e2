import Verif.Lemmas.Bezier
import Verif.Go.IEEE

/-!
# Properties of the Bezier approximator and the binomial coefficient
-/

namespace GosuPP
open Go Approximator
variable {S : Type} [GoFloat S]

/-! ## C35 -/

/-- Whatever `CreateBezier` returns is the recursive subdivision of the control points followed by the
last control point; it starts at the first control point, and the caller's control points are what
they were. -/
theorem C35_result {fuel : Nat} {cps : List (Vec S)} {st : State S} (h : createBezierState fuel cps = .ok st) :
    ∃ (hne : cps ≠ []) (l : List (Vec S)), Spec.Flattens cps l ∧ st.out = l ++ [cps.getLast hne] ∧
      st.out.head? = cps.head? ∧ st.mem[2]? = some cps := by
  by_cases hne : cps = []
  · subst hne
    simp [createBezierState] at h
  · refine ⟨hne, ?_⟩
    have key := createBezierState_ok hne fuel
    cases ha : absLoop fuel [cps] [] with
    | none =>
      rw [key.2 ha] at h
      cases h
    | some res =>
      obtain ⟨st', h1, h2, h3⟩ := key.1 res ha
      rw [h1] at h
      cases h
      obtain ⟨ls, hf, hr⟩ := absLoop_sound fuel _ _ _ ha
      cases hf with
      | cons hc hn =>
        cases hn
        rename_i l
        simp only [List.nil_append, List.flatten_cons, List.flatten_nil, List.append_nil] at hr
        subst hr
        refine ⟨_, hc, h2, ?_, h3⟩
        rw [h2]
        have := flattens_head hc hne
        cases hres : res with
        | nil =>
          rw [hres] at this
          cases cps with
          | nil => exact absurd rfl hne
          | cons a t => cases this
        | cons x t =>
          rw [hres] at this
          simpa using this

/-- Whenever the recursion terminates, so does `CreateBezier`, with that result. -/
theorem C35_complete {cps l : List (Vec S)} (hne : cps ≠ []) (h : Spec.Flattens cps l) :
    ∃ n, ∀ fuel, n ≤ fuel → createBezier fuel cps = .ok (l ++ [cps.getLast hne]) := by
  obtain ⟨n, hn⟩ := absLoop_complete h 1 [] [] l rfl
  refine ⟨n, fun fuel hf => ?_⟩
  obtain ⟨st, h1, h2, -⟩ := (createBezierState_ok hne fuel).1 l (absLoop_mono hn hf)
  unfold createBezier
  simp only [h1, ok_bind, h2]
  rfl

/-- The recursive description has at most one result. -/
theorem C35_unique {cps l l' : List (Vec S)} (h : Spec.Flattens cps l) (h' : Spec.Flattens cps l') :
    l = l' := flattens_unique h h'

/-- `CreateBezier` never panics, except on an empty list, where it always does. -/
theorem C35_panic (fuel : Nat) (cps : List (Vec S)) : createBezier fuel cps = .error .panic ↔ cps = [] := by
  constructor
  · intro h
    by_contra hne
    have key := createBezierState_ok hne fuel
    unfold createBezier at h
    cases ha : absLoop fuel [cps] [] with
    | none =>
      rw [key.2 ha] at h
      cases h
    | some res =>
      obtain ⟨st', h1, -⟩ := key.1 res ha
      rw [h1] at h
      cases h
  · rintro rfl
    rfl

/-- A curve that is split several times, so that buffers are recycled. -/
def bent : List (Vec F32) :=
  [⟨lit 0, lit 0⟩, ⟨lit 10, lit 40⟩, ⟨lit 30, lit (-20)⟩, ⟨lit 50, lit 5⟩]

set_option maxRecDepth 20000 in
example : (match createBezierState 100 bent with
    | .ok st => st.mem.length > 5 && st.out.length > 20
    | .error _ => false) = true := by decide +kernel

example : createBezier 5 ([] : List (Vec F32)) = .error .panic := rfl

/-! ## C38 -/

/-- Outside of `0 ≤ k ≤ n` the result is 0, which is the binomial coefficient. -/
theorem C38_outside {n k : Int} (h : k < 0 ∨ k > n) : binomialCoefficient n k = 0 := by
  unfold binomialCoefficient
  rw [if_pos h]

/-- The result never exceeds the binomial coefficient. -/
theorem C38_bound (n k : Nat) :
    0 ≤ binomialCoefficient n k ∧ binomialCoefficient n k ≤ (n.choose k : Nat) := by
  unfold binomialCoefficient
  split
  · exact ⟨le_refl _, by positivity⟩
  · rename_i h1
    split
    · rename_i h2
      have : k = 0 ∨ k = n := by omega
      rcases this with rfl | rfl <;> simp
    · rename_i h2
      have hsym : (min k (n - k) : Nat) = (if (k : Int) < n - k then (k : Int) else n - k) := by
        split <;> omega
      rw [← hsym]
      have := binomialLoop_le n (min k (n - k)) 1 1 (le_refl _) (by omega) (by simp)
      have e : 1 + min k (n - k) - 1 = min k (n - k) := by omega
      rw [e] at this
      have hch : n.choose (min k (n - k)) = n.choose k := by
        rcases Nat.le_total k (n - k) with h | h
        · rw [Nat.min_eq_left h]
        · rw [Nat.min_eq_right h, Nat.choose_symm (by omega)]
      rw [hch] at this
      simp only [Int.toNat_natCast]
      exact_mod_cast this

/-- It is right next to the edges of Pascal's triangle. -/
theorem C38_edge (n k : Nat) (h : k ≤ 1 ∨ n ≤ k + 1) : binomialCoefficient n k = (n.choose k : Nat) := by
  unfold binomialCoefficient
  split
  · rename_i h1
    rw [Nat.choose_eq_zero_of_lt (by omega)]
    rfl
  · rename_i h1
    split
    · rename_i h2
      have : k = 0 ∨ k = n := by omega
      rcases this with rfl | rfl <;> simp
    · rename_i h2
      have e : (if (k : Int) < n - k then (k : Int) else n - k) = 1 := by
        split <;> omega
      simp only [e]
      have : k = 1 ∨ k = n - 1 := by omega
      have hn : n.choose k = n := by
        rcases this with rfl | rfl
        · simp
        · rw [Nat.choose_symm (by omega)]; simp
      rw [hn]
      simp [binomialLoop]

/-- In the next diagonal it is right exactly for odd `n`: the code divides before it multiplies. -/
theorem C38_second (n : Nat) (h : 4 ≤ n) : binomialCoefficient n 2 = (n.choose 2 : Nat) ↔ n % 2 = 1 := by
  have e : binomialCoefficient n 2 = (n * ((n - 1) / 2) : Nat) := by
    unfold binomialCoefficient
    rw [if_neg (by omega), if_neg (by omega)]
    have e : (if (2 : Int) < n - 2 then (2 : Int) else n - 2) = 2 := by
      split <;> omega
    simp only [e]
    have e1 : ((n : Int) + 1 - 2).tdiv 2 = ((n - 1) / 2 : Nat) := by
      have : (n : Int) + 1 - 2 = ((n - 1 : Nat) : Int) := by omega
      rw [this]
      rfl
    show binomialLoop n 2 1 1 = _
    have e2 : ((n : Int) + 1 - 1).tdiv 1 = n := by simp
    show (1 * ((n : Int) + 1 - 1).tdiv 1) * ((n : Int) + 1 - (1 + 1)).tdiv (1 + 1) = _
    rw [e2]
    show (1 * (n : Int)) * ((n : Int) + 1 - 2).tdiv 2 = _
    rw [e1]
    push_cast
    ring
  rw [e]
  have h1 := Nat.choose_two_right n
  rw [h1]
  constructor
  · intro h2
    have h2 : n * ((n - 1) / 2) = n * (n - 1) / 2 := by exact_mod_cast h2
    by_contra hodd
    obtain ⟨m, rfl⟩ : ∃ m, n = 2 * m := ⟨n / 2, by omega⟩
    have e1 : 2 * m * (2 * m - 1) / 2 = m * (2 * m - 1) := by
      rw [Nat.mul_assoc, Nat.mul_div_cancel_left _ (by omega)]
    have e2 : (2 * m - 1) / 2 = m - 1 := by omega
    rw [e1, e2] at h2
    obtain ⟨t, rfl⟩ : ∃ t, m = t + 1 := ⟨m - 1, by omega⟩
    have e3 : 2 * (t + 1) - 1 = 2 * t + 1 := by omega
    rw [e3, Nat.add_sub_cancel] at h2
    nlinarith
  · intro hodd
    obtain ⟨m, rfl⟩ : ∃ m, n = 2 * m + 1 := ⟨n / 2, by omega⟩
    have e2 : (2 * m + 1 - 1) / 2 = m := by omega
    have e3 : (2 * m + 1) * (2 * m + 1 - 1) / 2 = (2 * m + 1) * m := by
      rw [Nat.add_sub_cancel, show (2 * m + 1) * (2 * m) = 2 * ((2 * m + 1) * m) by ring,
        Nat.mul_div_cancel_left _ (by omega)]
    rw [e2, e3]

example : binomialCoefficient 4 2 = 4 ∧ binomialCoefficient 5 2 = 10 ∧ binomialCoefficient 6 3 = 12 := by decide

end GosuPP
