import Verif.Lemmas.BezierIEEE
import Verif.Props.Bezier
import Verif.Props.PathPositions
import Verif.Props.Sample

/-!
# C36 in `float32`: Bezier flattening of ordinary control points
-/

namespace GosuPP
open Go Fl Approximator

/-- C36 (IEEE). In `float32` `CreateBezier` returns for every nonempty list of control points with coordinates of at most
`2 ^ k` in magnitude whose number times `2 ^ k` is at most 2^21. There are at most `2 ^ ((k + 7) / 2)` points for each control
point and one more, and all of them lie within `2 ^ k` again. -/
theorem C36_float32 {k : ℕ} (hk : k ≤ 17) {cps : List (Vec F32)} (hne : cps ≠ []) (hn : cps.length * 2 ^ k ≤ 2 ^ 21)
    (h : ∀ p ∈ cps, ∃ x y, Spec.At p x y ∧ |x| ≤ 2 ^ k ∧ |y| ≤ 2 ^ k) :
    ∃ n out, (∀ fuel, n ≤ fuel → createBezier fuel cps = .ok out) ∧ out.length ≤ 2 ^ ((k + 7) / 2) * cps.length + 1 ∧
      out.getLast? = cps.getLast? ∧ ∀ p ∈ out, ∃ x y, Spec.At p x y ∧ |x| ≤ 2 ^ k ∧ |y| ≤ 2 ^ k := by
  have hin : AllIn k cps := by
    intro p hp
    obtain ⟨x, y, ⟨a, b, rfl⟩, hx, hy⟩ := h p hp
    exact ⟨⟨x, a, rfl, by rwa [pow2_nat]⟩, ⟨y, b, rfl, by rwa [pow2_nat]⟩⟩
  obtain ⟨l, hl, h1, h2⟩ := flattens32 hk hn hin
  obtain ⟨n, hn⟩ := C35_complete hne hl
  refine ⟨n, _, hn, ?_, ?_, fun p hp => ?_⟩
  · rw [List.length_append, List.length_singleton]
    omega
  · rw [List.getLast?_concat, List.getLast?_eq_some_getLast hne]
  · rcases List.mem_append.mp hp with hp | hp
    · obtain ⟨⟨x, a, ex, hx⟩, ⟨y, b, ey, hy⟩⟩ := h1 p hp
      rw [pow2_nat] at hx hy
      exact ⟨x, y, ⟨a, b, by rw [← ex, ← ey]⟩, hx, hy⟩
    · rw [List.mem_singleton] at hp
      rw [hp]
      exact h _ (List.getLast_mem hne)

/-- The hypotheses are met, for instance, by three points on the playfield; the curve is not flat. -/
example : (∃ n out, ∀ fuel, n ≤ fuel → createBezier fuel
      [⟨lit 64, lit 64⟩, ⟨lit 256, lit 320⟩, (⟨lit 448, lit 64⟩ : Vec F32)] = .ok out ∧ out.length ≤ 769) ∧
    isFlatEnough [⟨lit 64, lit 64⟩, ⟨lit 256, lit 320⟩, (⟨lit 448, lit 64⟩ : Vec F32)] = false := by
  constructor
  · obtain ⟨n, out, h1, h2, -⟩ := C36_float32 (k := 9) (by norm_num)
      (cps := [⟨lit 64, lit 64⟩, ⟨lit 256, lit 320⟩, (⟨lit 448, lit 64⟩ : Vec F32)]) (by simp) (by norm_num) (by
        intro p hp
        have e1 : (lit 64 : F32) = fin 64 false := by decide +kernel
        have e2 : (lit 256 : F32) = fin 256 false := by decide +kernel
        have e3 : (lit 320 : F32) = fin 320 false := by decide +kernel
        have e4 : (lit 448 : F32) = fin 448 false := by decide +kernel
        simp only [List.mem_cons, List.not_mem_nil, or_false] at hp
        rcases hp with rfl | rfl | rfl
        · exact ⟨64, 64, ⟨_, _, by rw [e1]⟩, by norm_num, by norm_num⟩
        · exact ⟨256, 320, ⟨_, _, by rw [e2, e3]⟩, by norm_num, by norm_num⟩
        · exact ⟨448, 64, ⟨_, _, by rw [e4, e1]⟩, by norm_num, by norm_num⟩)
    exact ⟨n, out, fun fuel hf => ⟨h1 fuel hf, by simpa using h2⟩⟩
  · decide +kernel

end GosuPP
