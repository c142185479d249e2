import Verif.Lemmas.Within
import Verif.Lemmas.DiffObjects
import Verif.Lemmas.SqrtIEEE

/-! Bounds of single precision numbers and their conversions. -/

namespace GosuPP
open Go Fl
open GosuPP.Fl (NN0)

theorem bd_down {k : ℤ} {x : F64} (h : Bd k x) (h1 : -149 ≤ k) (h2 : k < 128) : Bd k (down x : F32) := by
  obtain ⟨v, b, rfl, hv⟩ := h
  exact bd_ofRat (f := fmt32) hv h1 h2 _

theorem bd_up {k : ℤ} {x : F32} (h : Bd k x) (h1 : -1074 ≤ k) (h2 : k < 1024) : Bd k (up x : F64) := by
  obtain ⟨v, b, rfl, hv⟩ := h
  exact bd_ofRat (f := fmt64) hv h1 h2 _

theorem pow2_nat (k : ℕ) : pow2 (k : ℤ) = 2 ^ k := by rw [pow2_eq]; norm_cast

theorem In.bd {x : F64} {a b : ℚ} (h : In a b x) (k : ℕ) (ha : -(2 ^ k) ≤ a) (hb : b ≤ 2 ^ k) : Bd k x := by
  obtain ⟨v, z, rfl, v1, v2⟩ := h
  refine ⟨v, z, rfl, ?_⟩
  rw [pow2_nat, abs_le]
  exact ⟨ha.trans v1, v2.trans hb⟩

theorem in_of_bd {x : F64} {k : ℕ} (h : Bd k x) : In (-(2 ^ k)) (2 ^ k) x := by
  obtain ⟨v, z, rfl, hv⟩ := h
  rw [pow2_nat, abs_le] at hv
  exact ⟨v, z, rfl, hv.1, hv.2⟩

theorem in_of_nn0 {x : F64} {k : ℕ} (h : Bd k x) (h0 : NN0 x) : In 0 (2 ^ k) x := by
  obtain ⟨v, z, rfl, hv⟩ := h
  rw [pow2_nat, abs_le] at hv
  exact ⟨v, z, rfl, nonNeg_fin.mp (h0 (by simp [NN])), hv.2⟩

/-- Square roots, given an exact square root of the bound. -/
theorem In.sqrt {x : F64} {c d : ℚ} {z : Bool} (hx : In 0 c x)
    (h : Go.Fl.sqrt (fin c false : F64) = fin d z) : In 0 d (GoFloat.sqrt x) := by
  obtain ⟨v, b, rfl, v1, v2⟩ := hx
  have hm := sqrt_mono (f := fmt64) (by decide) (x := fin v b) (y := fin c false) (nonNeg_fin.mpr v1) (by simpa [Fl.le] using v2)
  rw [h] at hm
  have h0 := sqrt_nonneg (f := fmt64) (x := fin v b)
  show In 0 d (Go.Fl.sqrt (fin v b))
  generalize Go.Fl.sqrt (fin v b : F64) = r at hm h0
  cases r with
  | nan => cases hm
  | inf s =>
    cases s
    · cases hm
    · exact absurd (h0 (by simp [NN])) (by simp [NonNeg, Fl.le])
  | fin w t =>
    refine ⟨w, t, rfl, nonNeg_fin.mp (h0 (by simp [NN])), ?_⟩
    simpa [Fl.le] using hm

section
variable {x y : F32}

/-- A finite single precision number between `a` and `b`. -/
def In32 (a b : ℚ) (x : F32) : Prop := ∃ v z, x = fin v z ∧ a ≤ v ∧ v ≤ b

theorem in32_of_bd {k : ℤ} (h : Bd k x) (h0 : NN0 x) : In32 0 (pow2 k) x := by
  obtain ⟨v, z, rfl, hv⟩ := h
  exact ⟨v, z, rfl, nonNeg_fin.mp (h0 (by simp [NN])), (abs_le.mp hv).2⟩

/-- Sums of squares are not negative. -/
theorem sq_nn0 (x y : F32) : NN0 (x *. x +. y *. y) := by
  have key : ∀ x : F32, NN0 (x *. x) := by
    intro x
    cases x with
    | nan => intro h; exact absurd rfl h
    | inf s => intro _; cases s <;> rfl
    | fin v b => intro _; exact ofRat_nonneg (mul_self_nonneg v) _
  exact NN0.add (key x) (key y)

theorem math32_sqrt_bd {k : ℕ} (h : Bd ((2 * k : ℕ) : ℤ) x) (h0 : NN0 x) (hk : k < 60)
    (hs : Go.Fl.sqrt (fin (2 ^ (2 * k)) false : F64) = fin (2 ^ k) false) : Bd k (Math32.sqrt x) := by
  have h1 := in_of_nn0 (bd_up h (by omega) (by omega)) (NN0.up h0)
  have h2 := h1.sqrt hs
  exact bd_down (h2.bd k (by have : (0:ℚ) < 2 ^ k := by positivity
                             linarith) le_rfl) (by omega) (by omega)

/-- Vectors of bounded coordinates. -/
def VBd (k : ℤ) (v : Vec F32) : Prop := Bd k v.x ∧ Bd k v.y

theorem VBd.sub {k : ℤ} {v w : Vec F32} (hv : VBd k v) (hw : VBd k w) (h1 : -149 ≤ k) (h2 : k + 1 < 128) :
    VBd (k + 1) (v.sub w) :=
  ⟨Bd.sub hv.1 hw.1 h1 h2, Bd.sub hv.2 hw.2 h1 h2⟩

theorem VBd.scl {k l : ℤ} {v : Vec F32} {m : F32} (hv : VBd k v) (hm : Bd l m) (h1 : -149 ≤ k + l) (h2 : k + l < 128) :
    VBd (k + l) (v.scl m) :=
  ⟨Bd.mul hv.1 hm h1 h2, Bd.mul hv.2 hm h1 h2⟩

theorem sqsum_bd {k : ℤ} (hx : Bd k x) (hy : Bd k y) (h1 : 0 ≤ k) (h2 : k + k + 1 < 128) :
    Bd (k + k + 1) (x *. x +. y *. y) :=
  Bd.add (Bd.mul hx hx (by show (-149 : ℤ) ≤ _; omega) (by show _ < (128 : ℤ); omega))
    (Bd.mul hy hy (by show (-149 : ℤ) ≤ _; omega) (by show _ < (128 : ℤ); omega)) (by show (-149 : ℤ) ≤ _; omega) h2

theorem VBd.len {k : ℕ} {v : Vec F32} (hv : VBd k v) (hk : k < 59)
    (hs : Go.Fl.sqrt (fin (2 ^ (2 * (k + 1))) false : F64) = fin (2 ^ (k + 1)) false) :
    Bd ((k + 1 : ℕ) : ℤ) v.len :=
  math32_sqrt_bd ((sqsum_bd hv.1 hv.2 (by omega) (by omega)).mono (by omega)) (sq_nn0 _ _) (by omega) hs

theorem VBd.dst {k : ℕ} {v w : Vec F32} (hv : VBd k v) (hw : VBd k w) (hk : k < 58)
    (hs : Go.Fl.sqrt (fin (2 ^ (2 * (k + 2))) false : F64) = fin (2 ^ (k + 2)) false) :
    Bd ((k + 2 : ℕ) : ℤ) (v.dst w) := by
  have h := VBd.sub hw hv (k := k) (by omega) (by omega)
  exact VBd.len (k := k + 1) (v := w.sub v) (by exact_mod_cast h) (by omega) hs

end

/-- Nonzero single precision numbers are not tiny. -/
theorem up_gap {x : F32} (hw : WF x) {a b : ℚ} (h : In a b (up x : F64)) (ha : 0 ≤ a) :
    In 0 0 (up x : F64) ∨ In (1 / 2 ^ 149) b (up x : F64) := by
  cases x with
  | nan => obtain ⟨v, z, e, -⟩ := h; cases e
  | inf s => obtain ⟨v, z, e, -⟩ := h; cases e
  | fin v z =>
    rw [up_fin hw] at h ⊢
    obtain ⟨v', z', e, v1, v2⟩ := h
    cases e
    rcases eq_or_lt_of_le (ha.trans v1) with h0 | h0
    · exact .inl ⟨v, z, rfl, h0.le, h0.ge⟩
    · refine .inr ⟨v, z, rfl, ?_, v2⟩
      obtain ⟨m, e, he, hm, rfl⟩ := hw.1
      have hm0 : 0 < m := by
        have := pos_of_mul_pos_left h0 (pow2_pos e).le
        exact_mod_cast this
      have h1 : pow2 (-149) ≤ pow2 e := pow2_mono he
      have e1 : pow2 (-149) = 1 / 2 ^ 149 := by rw [show (-149 : ℤ) = -((149 : ℕ) : ℤ) from rfl, pow2_eq, zpow_neg]; norm_num
      rw [← e1]
      refine h1.trans ?_
      have : (1 : ℚ) ≤ m := by exact_mod_cast hm0
      nlinarith [pow2_pos e]

end GosuPP
