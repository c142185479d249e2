import Verif.Go.Exact
import Verif.Spec.Motion
import Mathlib.Analysis.Complex.Norm
import Mathlib.Tactic.LinearCombination

/-! Maps of the plane that keep distances, on positions in exact arithmetic. -/

namespace GosuPP
open Go Spec

namespace Spec
/-- A map of the plane on positions; a position with a coordinate that is not a number has no image. -/
noncomputable def onPositions (g : ℂ → ℂ) (v : Vec (Option ℝ)) : Vec (Option ℝ) :=
  match v.x, v.y with
  | some x, some y => ⟨some (g ⟨x, y⟩).re, some (g ⟨x, y⟩).im⟩
  | _, _ => ⟨none, none⟩
end Spec

theorem isometry_sq {g : ℂ → ℂ} (hg : Isometry g) (z w : ℂ) :
    ((g z).re - (g w).re) * ((g z).re - (g w).re) + ((g z).im - (g w).im) * ((g z).im - (g w).im) =
      (z.re - w.re) * (z.re - w.re) + (z.im - w.im) * (z.im - w.im) := by
  have h := hg.dist_eq z w
  rw [Complex.dist_eq, Complex.dist_eq] at h
  have h2 : Complex.normSq (g z - g w) = Complex.normSq (z - w) := by
    rw [Complex.normSq_eq_norm_sq, Complex.normSq_eq_norm_sq, h]
  simpa [Complex.normSq_apply] using h2

/-- Maps that keep distances are rotations or reflections followed by translations. -/
theorem isometry_form {g : ℂ → ℂ} (hg : Isometry g) : ∃ a b s t u : ℝ, a * a + b * b = 1 ∧ (s = 1 ∨ s = -1) ∧
    ∀ x y : ℝ, (g ⟨x, y⟩).re = a * x - b * (s * y) + t ∧ (g ⟨x, y⟩).im = b * x + a * (s * y) + u := by
  have key := isometry_sq hg
  generalize ht : (g 0).re = t at *
  generalize hu : (g 0).im = u at *
  have k0 : ∀ z, ((g z).re - t) * ((g z).re - t) + ((g z).im - u) * ((g z).im - u) = z.re * z.re + z.im * z.im := by
    intro z
    have := key z 0
    rw [ht, hu] at this
    simpa using this
  obtain ⟨a, ha⟩ : ∃ a, a = (g 1).re - t := ⟨_, rfl⟩
  obtain ⟨b, hb⟩ : ∃ b, b = (g 1).im - u := ⟨_, rfl⟩
  obtain ⟨c, hc⟩ : ∃ c, c = (g Complex.I).re - t := ⟨_, rfl⟩
  obtain ⟨e, he⟩ : ∃ e, e = (g Complex.I).im - u := ⟨_, rfl⟩
  have h1 : a * a + b * b = 1 := by
    have := k0 1
    rw [← ha, ← hb] at this
    simpa using this
  have hi : c * c + e * e = 1 := by
    have := k0 Complex.I
    rw [← hc, ← he] at this
    simpa using this
  have hort : a * c + b * e = 0 := by
    have := key 1 Complex.I
    simp only [Complex.one_re, Complex.one_im, Complex.I_re, Complex.I_im] at this
    rw [show (g 1).re = a + t by linarith, show (g 1).im = b + u by linarith,
      show (g Complex.I).re = c + t by linarith, show (g Complex.I).im = e + u by linarith] at this
    nlinarith
  have hs : (a * e - b * c) * (a * e - b * c) = 1 := by
    linear_combination (c * c + e * e) * h1 + hi - (a * c + b * e) * hort
  have hce : c = -((a * e - b * c) * b) ∧ e = (a * e - b * c) * a := by
    constructor
    · linear_combination a * hort - c * h1
    · linear_combination b * hort - e * h1
  refine ⟨a, b, a * e - b * c, t, u, h1, ?_, fun x y => ?_⟩
  · exact mul_self_eq_one_iff.mp hs
  · obtain ⟨p, hp⟩ : ∃ p, p = (g ⟨x, y⟩).re - t := ⟨_, rfl⟩
    obtain ⟨q, hq⟩ : ∃ q, q = (g ⟨x, y⟩).im - u := ⟨_, rfl⟩
    have hn := k0 ⟨x, y⟩
    rw [← hp, ← hq] at hn
    have hx : p * a + q * b = x := by
      have := key ⟨x, y⟩ 1
      simp only [Complex.one_re, Complex.one_im] at this
      rw [show (g 1).re = a + t by linarith, show (g 1).im = b + u by linarith,
        show (g ⟨x, y⟩).re = p + t by linarith, show (g ⟨x, y⟩).im = q + u by linarith] at this
      dsimp only at hn
      nlinarith
    have hy : p * c + q * e = y := by
      have := key ⟨x, y⟩ Complex.I
      simp only [Complex.I_re, Complex.I_im] at this
      rw [show (g Complex.I).re = c + t by linarith, show (g Complex.I).im = e + u by linarith,
        show (g ⟨x, y⟩).re = p + t by linarith, show (g ⟨x, y⟩).im = q + u by linarith] at this
      dsimp only at hn
      nlinarith
    generalize a * e - b * c = s at *
    obtain ⟨h3, h4⟩ := hce
    subst h3 h4
    have hq1 : q * a - p * b = s * y := by linear_combination s * hy - (q * a - p * b) * hs
    constructor
    · rw [show (g ⟨x, y⟩).re = p + t by linarith]
      linear_combination a * hx - b * hq1 - p * h1
    · rw [show (g ⟨x, y⟩).im = q + u by linarith]
      linear_combination b * hx + a * hq1 - q * h1

/-- `atan2` of the negated first argument is, up to sign, the same angle. -/
def EvenAtan (D : Type) [GoFloat D] [GoLibm D] : Prop :=
  ∀ y x : D, GoFloat.abs (GoLibm.atan2 (GoFloat.neg y) x) = GoFloat.abs (GoLibm.atan2 y x)

open Exact in
theorem rigid_isometry [GoLibm (Option ℝ)] (hl : EvenAtan (Option ℝ)) {g : ℂ → ℂ} (hg : Isometry g) :
    Rigid (S := Option ℝ) (D := Option ℝ) (onPositions g) := by
  obtain ⟨a, b, s, t, u, h1, hs, form⟩ := isometry_form hg
  have hss : s * s = 1 := by rcases hs with rfl | rfl <;> norm_num
  constructor
  · rintro ⟨_ | x, _ | y⟩ ⟨_ | x', _ | y'⟩ <;>
      simp only [onPositions, Vec.dst, add_left, sub_left, mul_left, add_right, sub_right, mul_right, add, sub, mul]
    rw [(form _ _).1, (form _ _).2, (form _ _).1, (form _ _).2]
    congr 2
    linear_combination ((x' - x) * (x' - x) + s * s * (y' - y) * (y' - y)) * h1 + (y' - y) * (y' - y) * hss
  · rintro ⟨_ | x, _ | y⟩ ⟨_ | x', _ | y'⟩ (_ | k) <;>
      simp only [onPositions, Vec.dst, Vec.scl, add_left, sub_left, mul_left, add_right, sub_right, mul_right, add, sub, mul]
    rw [(form _ _).1, (form _ _).2, (form _ _).1, (form _ _).2]
    congr 2
    linear_combination k * k * (((x' - x) * (x' - x) + s * s * (y' - y) * (y' - y)) * h1 + (y' - y) * (y' - y) * hss)
  · rintro ⟨_ | x, _ | y⟩ ⟨_ | x', _ | y'⟩ <;>
      simp only [onPositions, Vec.len, Vec.sub, add_left, sub_left, mul_left, add_right, sub_right, mul_right, add, sub, mul]
    rw [(form _ _).1, (form _ _).2, (form _ _).1, (form _ _).2]
    congr 2
    linear_combination ((x' - x) * (x' - x) + s * s * (y' - y) * (y' - y)) * h1 + (y' - y) * (y' - y) * hss
  · rintro ⟨_ | x, _ | y⟩ ⟨_ | x', _ | y'⟩ (_ | k) <;>
      simp only [onPositions, Vec.add, Vec.scl, Vec.sub, add_left, sub_left, mul_left, add_right, sub_right, mul_right,
        add, sub, mul]
    rw [(form _ _).1, (form _ _).2, (form _ _).1, (form _ _).2, (form _ _).1, (form _ _).2]
    congr 2 <;> ring
  · rintro ⟨_ | ax, _ | ay⟩ ⟨_ | bx, _ | bY⟩ ⟨_ | cx, _ | cy⟩ ⟨_ | ex, _ | ey⟩ <;>
      simp only [onPositions, Vec.dot, Vec.sub, add_left, sub_left, mul_left, add_right, sub_right, mul_right,
        add, sub, mul]
    rw [(form _ _).1, (form _ _).2, (form _ _).1, (form _ _).2, (form _ _).1, (form _ _).2, (form _ _).1, (form _ _).2]
    have same : ∀ P Q P' Q' : ℝ, P' = s * P → Q' = Q →
        (Math32.abs (Math32.atan2 (some P') (some Q')) : Option ℝ) = Math32.abs (Math32.atan2 (some P) (some Q)) := by
      rintro P Q P' Q' rfl rfl
      rcases hs with rfl | rfl
      · rw [one_mul]
      · rw [neg_one_mul]
        exact hl (some P) (some Q')
    refine same _ _ _ _ ?_ ?_
    · linear_combination s * ((ax - bx) * (cy - ey) - (ay - bY) * (cx - ex)) * h1
    · linear_combination ((ax - bx) * (cx - ex) + s * s * (ay - bY) * (cy - ey)) * h1 + (ay - bY) * (cy - ey) * hss

end GosuPP
