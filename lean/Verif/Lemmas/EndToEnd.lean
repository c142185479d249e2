import Verif.Lemmas.LazyBounds
import Verif.Lemmas.ObjBounds
import Verif.Lemmas.Difficulty
import Verif.Spec.Written

/-! Bounds of written numbers and of stacked positions. -/

namespace GosuPP
open Go Fl Spec

/-! ### Written numbers -/

theorem fracValue_range (l : List (Fin 10)) : 0 ≤ fracValue l ∧ fracValue l ≤ 1 := by
  induction l with
  | nil => simp [fracValue]
  | cons x xs ih =>
    unfold fracValue
    have h1 : (x.val : ℚ) ≤ 9 := by have := x.isLt; exact_mod_cast (by omega : x.val ≤ 9)
    have h0 : (0 : ℚ) ≤ x.val := by positivity
    constructor
    · linarith [ih.1]
    · linarith [ih.2]

theorem dec_bd {d : Dec} {k : ℕ} (h : d.whole < 2 ^ k) (hk : k < 128) : Bd k (d.value : F32) := by
  have h1 := fracValue_range d.frac
  have h2 : (d.whole : ℚ) + 1 ≤ 2 ^ k := by exact_mod_cast h
  have key : Bd k (lit (d.whole + fracValue d.frac) : F32) := by
    refine bd_ofRat (f := fmt32) ?_ (by show (-149 : ℤ) ≤ _; omega) (by show _ < (128 : ℤ); omega) _
    rw [pow2_nat, abs_of_nonneg (by linarith [(by positivity : (0 : ℚ) ≤ d.whole)])]
    linarith
  unfold Dec.value
  split
  · exact key.neg
  · exact key

theorem int_value_exact {n : ℤ} (h : |n| ≤ 2 ^ 53) : ∃ b, ((Dec.int n).value : F64) = fin n b := by
  have h0 : (lit ((n.natAbs : ℚ) + fracValue []) : F64) = fin (n.natAbs : ℚ) false := by
    rw [go_lit]
    simp only [fracValue, add_zero]
    have hn : |((n.natAbs : ℤ))| ≤ 2 ^ 53 := by rw [Int.natCast_natAbs, abs_abs]; exact h
    have hr : Rep fmt64 (((n.natAbs : ℤ)) : ℚ) := ⟨_, 0, by decide, hn, by simp [pow2]⟩
    have e : (((n.natAbs : ℤ)) : ℚ) = (n.natAbs : ℚ) := Int.cast_natCast _
    rw [e] at hr
    rw [ofRat_of_rep hr]
    · simp
    · have h1 : (n.natAbs : ℚ) ≤ 2 ^ 53 := by
        have : (n.natAbs : ℤ) ≤ 2 ^ 53 := by rw [Int.natCast_natAbs]; exact h
        exact_mod_cast this
      rw [abs_of_nonneg (by positivity)]
      refine _root_.lt_of_le_of_lt h1 ?_
      have : pow2 53 < pow2 fmt64.emax := pow2_lt.mpr (by decide)
      rwa [show pow2 53 = 2 ^ 53 from pow2_nat 53] at this
  unfold Dec.value Dec.int
  simp only
  rw [h0]
  by_cases hn : n < 0
  · refine ⟨decide ((n.natAbs : ℚ) = 0) && !false, ?_⟩
    rw [if_pos (by simpa using hn)]
    show fin (-(n.natAbs : ℚ)) _ = _
    have : (-(n.natAbs : ℚ)) = n := by
      have : (-(n.natAbs : ℤ)) = n := by omega
      rw [← Int.cast_natCast, ← Int.cast_neg, this]
    rw [this]
  · refine ⟨false, ?_⟩
    rw [if_neg (by simpa using hn)]
    have : (n.natAbs : ℤ) = n := by omega
    have : (n.natAbs : ℚ) = n := by rw [← Int.cast_natCast, this]
    rw [this]

/-! ### Positions -/

theorem bd_placed {v : Vec F32} (h : VBd 19 v) : Placed v := by
  have key : ∀ {x : F32}, Bd 19 x → ((lit (-1048575) : F32) <=. x) = true ∧ (x <=. (lit 1048575 : F32)) = true := by
    intro x hx
    obtain ⟨v, z, rfl, hv⟩ := hx
    have e1 : (lit (-1048575) : F32) = fin (-1048575) false := by decide +kernel
    have e2 : (lit 1048575 : F32) = fin 1048575 false := by decide +kernel
    rw [show pow2 19 = 2 ^ 19 from pow2_nat 19, abs_le] at hv
    rw [e1, e2]
    constructor
    · simp only [go_le, Fl.le, decide_eq_true_eq]; norm_num at hv; linarith
    · simp only [go_le, Fl.le, decide_eq_true_eq]; norm_num at hv; linarith
  exact ⟨key h.1, key h.2⟩

/-- The offset of an index. -/
theorem offset_bd {n : ℤ} {r : F64} (hn : |n| ≤ 2 ^ 15) (hr : Bd 6 r) :
    Bd 18 ((lit 1 : F32) *. (fneg (ofInt n) *. down r /. lit 10)) := by
  have h1 : Bd 15 (fneg (ofInt n : F32)) := by
    refine Bd.neg ?_
    rw [go_ofInt]
    refine bd_ofRat ?_ (by decide) (by decide) _
    rw [show pow2 15 = 2 ^ 15 from pow2_nat 15]
    exact_mod_cast hn
  have h2 : Bd 6 (down r : F32) := bd_down hr (by decide) (by decide)
  have h3 : Bd (15 + 6) (fneg (ofInt n : F32) *. down r) := h1.mul h2 (by decide) (by decide)
  have h10 : (lit 10 : F32) = fin 10 false := by decide +kernel
  have h4 : Bd 18 (fneg (ofInt n : F32) *. down r /. lit 10) := by
    obtain ⟨v, z, e, hv⟩ := h3
    rw [e, h10]
    show Bd 18 (Fl.div (fin v z) (fin 10 false))
    unfold Fl.div
    simp only
    rw [if_neg (by norm_num)]
    refine bd_ofRat ?_ (by decide) (by decide) _
    rw [show pow2 18 = 2 ^ 18 from pow2_nat 18, abs_div]
    rw [show pow2 (15 + 6) = 2 ^ 21 from pow2_nat 21] at hv
    rw [abs_of_pos (by norm_num : (0 : ℚ) < 10), div_le_iff₀ (by norm_num)]
    norm_num at hv ⊢
    linarith
  have h1' : Bd 0 (lit 1 : F32) := ⟨1, false, by decide +kernel, by simp [pow2]⟩
  have := h1'.mul h4 (by decide) (by decide)
  exact this

end GosuPP
