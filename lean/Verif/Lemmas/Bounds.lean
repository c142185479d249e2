import Verif.Lemmas.IEEE

/-! Values that are finite and bounded by a power of two. -/

namespace Go
namespace Fl
variable {f : Fmt}

/-- The value is finite and at most `2 ^ k` in magnitude. -/
def Bd (k : Int) (x : Fl f) : Prop := ∃ v b, x = fin v b ∧ |v| ≤ pow2 k

theorem Bd.nn {k : Int} {x : Fl f} (h : Bd k x) : NN x := by
  obtain ⟨v, b, rfl, -⟩ := h; simp

theorem Bd.mono {k l : Int} {x : Fl f} (h : Bd k x) (hl : k ≤ l) : Bd l x := by
  obtain ⟨v, b, rfl, h⟩ := h
  exact ⟨v, b, rfl, h.trans (pow2_mono hl)⟩

theorem rep_pow2 {k : Int} (h : f.emin ≤ k) : Rep f (pow2 k) :=
  ⟨1, k, h, by simpa using one_le_pow₀ (a := (2 : Int)) (by norm_num), by simp⟩

theorem bd_ofRat [f.Ok] {k : Int} {q : ℚ} (h : |q| ≤ pow2 k) (h1 : f.emin ≤ k) (h2 : k < f.emax) (z : Bool) :
    Bd k (ofRat f q z) := by
  have hr := abs_le.mp h
  have hp : ofRat f (pow2 k) false = fin (pow2 k) false := by
    rw [ofRat_of_rep (rep_pow2 h1) (by rw [abs_of_pos (pow2_pos k)]; exact pow2_lt.mpr h2)]
    simp
  have hm : ofRat f (-pow2 k) false = fin (-pow2 k) false := by
    rw [ofRat_of_rep (rep_pow2 h1).neg (by rw [abs_neg, abs_of_pos (pow2_pos k)]; exact pow2_lt.mpr h2)]
    simp [pow2_ne]
  have a := ofRat_mono (f := f) hr.1 false z
  have b := ofRat_mono (f := f) hr.2 z false
  rw [hp] at b
  rw [hm] at a
  cases hx : ofRat f q z with
  | nan => rw [hx] at a; simp [le] at a
  | inf s => rw [hx] at a b; cases s <;> simp [le] at a b
  | fin v c =>
    rw [hx] at a b
    simp only [le, decide_eq_true_eq] at a b
    exact ⟨v, c, rfl, abs_le.mpr ⟨a, b⟩⟩

theorem Bd.neg {k : Int} {x : Fl f} (h : Bd k x) : Bd k (neg x) := by
  obtain ⟨v, b, rfl, h⟩ := h
  exact ⟨-v, _, rfl, by rwa [abs_neg]⟩

theorem Bd.add [f.Ok] {k : Int} {x y : Fl f} (hx : Bd k x) (hy : Bd k y) (h1 : f.emin ≤ k)
    (h2 : k + 1 < f.emax) : Bd (k + 1) (add x y) := by
  obtain ⟨v, b, rfl, hv⟩ := hx
  obtain ⟨w, c, rfl, hw⟩ := hy
  refine bd_ofRat ?_ (by omega) h2 _
  rw [pow2_add]
  have : pow2 1 = 2 := by norm_num [pow2]
  rw [this]
  linarith [abs_add_le v w]

theorem Bd.sub [f.Ok] {k : Int} {x y : Fl f} (hx : Bd k x) (hy : Bd k y) (h1 : f.emin ≤ k)
    (h2 : k + 1 < f.emax) : Bd (k + 1) (sub x y) := hx.add hy.neg h1 h2

theorem Bd.mul [f.Ok] {k l : Int} {x y : Fl f} (hx : Bd k x) (hy : Bd l y) (h1 : f.emin ≤ k + l)
    (h2 : k + l < f.emax) : Bd (k + l) (mul x y) := by
  obtain ⟨v, b, rfl, hv⟩ := hx
  obtain ⟨w, c, rfl, hw⟩ := hy
  refine bd_ofRat ?_ h1 h2 _
  rw [abs_mul, pow2_add]
  exact mul_le_mul hv hw (abs_nonneg _) (pow2_pos _).le

/-- An integer of at most `p` bits is exact. -/
theorem rep_int {n : Int} (h : |n| ≤ 2 ^ f.p) (h0 : f.emin ≤ 0) : Rep f (n : ℚ) :=
  ⟨n, 0, h0, h, by simp [pow2]⟩

theorem ofInt64_exact {n : Int} (h : |n| ≤ 2 ^ 53) : (GoFloat.ofInt n : F64) = fin n false := by
  rw [go_ofInt, ofRat_of_rep (rep_int h (by decide))]
  · simp
  · have h' : |(n : ℚ)| ≤ 2 ^ 53 := by exact_mod_cast h
    refine _root_.lt_of_le_of_lt h' ?_
    have e : pow2 53 = 2 ^ 53 := by rw [pow2_eq]; norm_num
    rw [← e]
    exact pow2_lt.mpr (by decide)

theorem bd_ofInt64 {n : Int} (h : |n| ≤ 2 ^ 63) : Bd 63 (GoFloat.ofInt n : F64) := by
  rw [go_ofInt]
  refine bd_ofRat ?_ (by decide) (by decide) _
  have : |(n : ℚ)| ≤ 2 ^ 63 := by exact_mod_cast h
  have e : pow2 63 = 2 ^ 63 := by rw [pow2_eq]; norm_num
  rwa [e]

/-- Rounding does not cross a power of two. -/
theorem abs_rnd_ge [f.Ok] {k : Int} {q : ℚ} (h : pow2 k ≤ |q|) (h1 : f.emin ≤ k) : pow2 k ≤ |rnd f q| := by
  have key : ∀ x : ℚ, pow2 k ≤ x → pow2 k ≤ rnd f x := by
    intro x hx
    have := rnd_mono (f := f) hx
    rwa [rnd_of_rep (rep_pow2 h1)] at this
  rcases abs_cases q with ⟨e, -⟩ | ⟨e, -⟩
  · rw [e] at h
    exact (key q h).trans (le_abs_self _)
  · rw [e] at h
    have := key (-q) h
    rw [rnd_neg] at this
    exact this.trans (neg_le_abs _)

/-- The value is finite and at least `2 ^ k` in magnitude. -/
def Aw (k : Int) (x : Fl f) : Prop := ∃ v b, x = fin v b ∧ pow2 k ≤ |v|

theorem aw_ofRat [f.Ok] {k l : Int} {q : ℚ} (h : pow2 k ≤ |q|) (h1 : f.emin ≤ k) (z : Bool)
    (hb : Bd l (ofRat f q z)) : Aw k (ofRat f q z) := by
  obtain ⟨v, b, e, -⟩ := hb
  refine ⟨v, b, e, ?_⟩
  unfold ofRat at e
  simp only at e
  split at e
  · cases e
  · cases e
    exact abs_rnd_ge h h1

theorem Aw.mul [f.Ok] {k l m : Int} {x y : Fl f} (hx : Aw k x) (hy : Aw l y) (h1 : f.emin ≤ k + l)
    (hb : Bd m (mul x y)) : Aw (k + l) (mul x y) := by
  obtain ⟨v, b, rfl, hv⟩ := hx
  obtain ⟨w, c, rfl, hw⟩ := hy
  refine aw_ofRat ?_ h1 _ hb
  rw [abs_mul, pow2_add]
  exact mul_le_mul hv hw (pow2_pos _).le (abs_nonneg _)

theorem aw_ofInt64 {n : Int} (h0 : n ≠ 0) (h : |n| ≤ 2 ^ 63) : Aw 0 (GoFloat.ofInt n : F64) := by
  refine aw_ofRat ?_ (by decide) _ (bd_ofInt64 h)
  have : (1 : Int) ≤ |n| := Int.one_le_abs h0
  have : (1 : ℚ) ≤ |(n : ℚ)| := by exact_mod_cast this
  simpa [pow2] using this

theorem div_nn_of {k l : Int} {x y : Fl f} (hx : Bd k x) (hy : Aw l y) : NN (div x y) := by
  obtain ⟨v, b, rfl, hv⟩ := hx
  obtain ⟨w, c, rfl, hw⟩ := hy
  have : w ≠ 0 := by
    rintro rfl
    simp at hw
    exact absurd hw (not_le.mpr (pow2_pos _))
  exact div_fin_nn (by simp) this _

end Fl
end Go
