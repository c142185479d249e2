import Verif.Go.IEEE
import Mathlib.Algebra.Order.Field.Power
import Mathlib.Algebra.Order.Round
import Mathlib.Tactic.Ring
import Mathlib.Tactic.Linarith
import Mathlib.Tactic.NormNum
import Mathlib.Tactic.FieldSimp
import Mathlib.Tactic.Positivity

/-! Lemmas about rounding to a binary format. -/

namespace Go

theorem pow2_eq (e : Int) : pow2 e = (2 : ℚ) ^ e := by
  cases e with
  | ofNat n => simp [pow2]
  | negSucc n => simp [pow2, zpow_negSucc]

theorem pow2_pos (e : Int) : 0 < pow2 e := by rw [pow2_eq]; positivity

theorem pow2_ne (e : Int) : pow2 e ≠ 0 := (pow2_pos e).ne'

theorem pow2_add (a b : Int) : pow2 (a + b) = pow2 a * pow2 b := by
  simp only [pow2_eq]; exact zpow_add₀ (by norm_num) a b

theorem pow2_mono {a b : Int} (h : a ≤ b) : pow2 a ≤ pow2 b := by
  simp only [pow2_eq]; exact zpow_le_zpow_right₀ (by norm_num) h

theorem pow2_lt {a b : Int} : pow2 a < pow2 b ↔ a < b := by
  simp only [pow2_eq]; exact zpow_lt_zpow_iff_right₀ (by norm_num)

theorem pow2_le {a b : Int} : pow2 a ≤ pow2 b ↔ a ≤ b := by
  simp only [pow2_eq]; exact zpow_le_zpow_iff_right₀ (by norm_num)

theorem pow2_natCast (n : Nat) : pow2 (n : Int) = ((2 ^ n : Nat) : ℚ) := rfl

/-- a nonnegative power is an integer -/
theorem pow2_int {e : Int} (h : 0 ≤ e) : ∃ n : Int, pow2 e = n ∧ 0 < n := by
  obtain ⟨k, rfl⟩ := Int.eq_ofNat_of_zero_le h
  exact ⟨(2 ^ k : Nat), by simp [pow2_natCast], by positivity⟩

theorem ilog2_spec {q : ℚ} (hq : 0 < q) : pow2 (ilog2 q) ≤ q ∧ q < pow2 (ilog2 q + 1) := by
  have hn : 0 < q.num := Rat.num_pos.mpr hq
  have hd : 0 < q.den := q.den_pos
  obtain ⟨n, hn'⟩ := Int.eq_ofNat_of_zero_le hn.le
  have hn0 : n ≠ 0 := by rintro rfl; rw [hn'] at hn; simp at hn
  have hqe : q = (n : ℚ) / (q.den : ℚ) := by
    conv_lhs => rw [← Rat.num_div_den q, hn']
    simp
  have h1 : (2 : ℚ) ^ n.log2 ≤ n := by exact_mod_cast Nat.log2_self_le hn0
  have h2 : (n : ℚ) < (2 : ℚ) ^ (n.log2 + 1) := by exact_mod_cast Nat.lt_log2_self
  have h3 : (2 : ℚ) ^ q.den.log2 ≤ q.den := by exact_mod_cast Nat.log2_self_le hd.ne'
  have h4 : (q.den : ℚ) < (2 : ℚ) ^ (q.den.log2 + 1) := by exact_mod_cast Nat.lt_log2_self
  have hdq : (0 : ℚ) < q.den := by exact_mod_cast hd
  have key : ∀ k : Int, k = (n.log2 : Int) - (q.den.log2 : Int) →
      pow2 (k - 1) < q ∧ q < pow2 (k + 1) := by
    rintro k rfl
    have e1 : pow2 ((n.log2 : Int) - (q.den.log2 : Int) - 1) * (2 : ℚ) ^ (q.den.log2 + 1) =
        (2 : ℚ) ^ n.log2 := by
      rw [pow2_eq, ← zpow_natCast, ← zpow_natCast, ← zpow_add₀ (by norm_num)]
      congr 1
      push_cast
      ring
    have e2 : pow2 ((n.log2 : Int) - (q.den.log2 : Int) + 1) * (2 : ℚ) ^ (q.den.log2) =
        (2 : ℚ) ^ (n.log2 + 1) := by
      rw [pow2_eq, ← zpow_natCast, ← zpow_natCast, ← zpow_add₀ (by norm_num)]
      congr 1
      push_cast
      ring
    constructor
    · refine lt_of_lt_of_eq ?_ hqe.symm
      rw [lt_div_iff₀ hdq]
      calc _ < pow2 ((n.log2 : Int) - (q.den.log2 : Int) - 1) * (2 : ℚ) ^ (q.den.log2 + 1) :=
            mul_lt_mul_of_pos_left h4 (pow2_pos _)
        _ = (2 : ℚ) ^ n.log2 := e1
        _ ≤ n := h1
    · conv_lhs => rw [hqe]
      rw [div_lt_iff₀ hdq]
      calc (n : ℚ) < (2 : ℚ) ^ (n.log2 + 1) := h2
        _ = _ := e2.symm
        _ ≤ _ := mul_le_mul_of_nonneg_left h3 (pow2_pos _).le
  unfold ilog2
  have hnum : q.num.toNat = n := by rw [hn']; rfl
  rw [hnum]
  have hk := key _ rfl
  simp only
  split
  · rename_i h; exact ⟨h, hk.2⟩
  · rename_i h
    refine ⟨hk.1.le, ?_⟩
    rw [Int.sub_add_cancel]
    exact not_le.mp h

theorem ilog2_unique {q : ℚ} {e : Int} (h1 : pow2 e ≤ q) (h2 : q < pow2 (e + 1)) : ilog2 q = e := by
  have hq : 0 < q := lt_of_lt_of_le (pow2_pos e) h1
  have ⟨h3, h4⟩ := ilog2_spec hq
  have a := pow2_lt.mp (lt_of_le_of_lt h1 h4)
  have b := pow2_lt.mp (lt_of_le_of_lt h3 h2)
  omega

theorem ilog2_mono {a b : ℚ} (ha : 0 < a) (h : a ≤ b) : ilog2 a ≤ ilog2 b := by
  have h1 := (ilog2_spec ha).1
  have h2 := (ilog2_spec (lt_of_lt_of_le ha h)).2
  have := pow2_lt.mp (lt_of_le_of_lt (h1.trans h) h2)
  omega

/-! ### `roundEven` -/

theorem roundEven_int (n : Int) : roundEven (n : ℚ) = n := by
  unfold roundEven
  simp

theorem roundEven_bound (q : ℚ) : |(roundEven q : ℚ) - q| ≤ 1 / 2 := by
  unfold roundEven
  have h1 := Int.floor_le q
  have h2 := Int.lt_floor_add_one q
  simp only
  rw [abs_le]
  split
  · constructor <;> linarith
  · split
    · push_cast; constructor <;> linarith
    · split
      · constructor <;> linarith
      · push_cast; constructor <;> linarith

theorem roundEven_floor_or (q : ℚ) : roundEven q = ⌊q⌋ ∨ roundEven q = ⌊q⌋ + 1 := by
  unfold roundEven
  simp only
  split
  · exact .inl rfl
  · split
    · exact .inr rfl
    · split
      · exact .inl rfl
      · exact .inr rfl

theorem roundEven_mono {a b : ℚ} (h : a ≤ b) : roundEven a ≤ roundEven b := by
  rcases (Int.floor_le_floor h).lt_or_eq with hf | hf
  · have ha : roundEven a ≤ ⌊a⌋ + 1 := by
      rcases roundEven_floor_or a with h | h <;> omega
    have hb : ⌊b⌋ ≤ roundEven b := by
      rcases roundEven_floor_or b with h | h <;> omega
    omega
  · unfold roundEven
    simp only
    rw [hf]
    split
    · split
      · exact le_refl _
      · split
        · omega
        · split <;> omega
    · rename_i h1
      have h1' : ¬ (b - (⌊b⌋ : ℚ) < 1 / 2) := by
        intro hc; apply h1; linarith
      rw [if_neg h1']
      split
      · rename_i h2
        rw [if_pos (by linarith)]
      · split
        · split <;> omega
        · rename_i h3 h4
          split
          · exact le_refl _
          · simp

theorem le_roundEven {n : Int} {q : ℚ} (h : (n : ℚ) ≤ q) : n ≤ roundEven q := by
  rw [← roundEven_int n]; exact roundEven_mono h

theorem roundEven_le {n : Int} {q : ℚ} (h : q ≤ (n : ℚ)) : roundEven q ≤ n := by
  rw [← roundEven_int n]; exact roundEven_mono h

/-! ### `rndPos`, `rnd` -/

/-- The format has at least one bit. -/
class Fmt.Ok (f : Fmt) : Prop where
  pos : 1 ≤ f.p

instance : Fmt.Ok fmt64 := ⟨by decide⟩
instance : Fmt.Ok fmt32 := ⟨by decide⟩

variable {f : Fmt}

theorem ulpExp_mono {a b : ℚ} (ha : 0 < a) (h : a ≤ b) : ulpExp f a ≤ ulpExp f b := by
  unfold ulpExp
  have := ilog2_mono ha h
  omega

theorem lt_pow2_ulpExp {q : ℚ} (hq : 0 < q) : q < pow2 (ulpExp f q + f.p) := by
  refine lt_of_lt_of_le (ilog2_spec hq).2 (pow2_mono ?_)
  unfold ulpExp
  omega

theorem rndPos_nonneg {q : ℚ} (hq : 0 ≤ q) : 0 ≤ rndPos f q := by
  unfold rndPos
  have : (0 : Int) ≤ roundEven (q / pow2 (ulpExp f q)) := by
    apply le_roundEven
    have := (pow2_pos (ulpExp f q)).le
    push_cast
    positivity
  have h2 := (pow2_pos (ulpExp f q)).le
  have : (0 : ℚ) ≤ roundEven (q / pow2 (ulpExp f q)) := by exact_mod_cast this
  positivity

theorem rndPos_mono [hf : f.Ok] {a b : ℚ} (ha : 0 < a) (h : a ≤ b) : rndPos f a ≤ rndPos f b := by
  have hb : 0 < b := lt_of_lt_of_le ha h
  unfold rndPos
  simp only
  rcases (ulpExp_mono (f := f) ha h).lt_or_eq with he | he
  · -- the binade changes: `2 ^ ilog2 b` separates the two results
    have hlb : ulpExp f b = ilog2 b + 1 - f.p := by
      unfold ulpExp at he ⊢
      omega
    have hab : a < pow2 (ilog2 b) := by
      by_contra hc
      have : ilog2 b ≤ ilog2 a := by
        have h1 := ilog2_mono (pow2_pos (ilog2 b)) (not_lt.mp hc)
        rwa [ilog2_unique (le_refl _) (pow2_lt.mpr (by omega))] at h1
      unfold ulpExp at he
      omega
    have hp := hf.pos
    obtain ⟨n, hn, _⟩ := pow2_int (e := ilog2 b - ulpExp f a) (by omega)
    have hA : (roundEven (a / pow2 (ulpExp f a)) : ℚ) * pow2 (ulpExp f a) ≤ pow2 (ilog2 b) := by
      have : roundEven (a / pow2 (ulpExp f a)) ≤ n := by
        apply roundEven_le
        rw [← hn, div_le_iff₀ (pow2_pos _), ← pow2_add, Int.sub_add_cancel]
        exact hab.le
      have : (roundEven (a / pow2 (ulpExp f a)) : ℚ) ≤ n := by exact_mod_cast this
      calc _ ≤ (n : ℚ) * pow2 (ulpExp f a) := mul_le_mul_of_nonneg_right this (pow2_pos _).le
        _ = _ := by rw [← hn, ← pow2_add, Int.sub_add_cancel]
    obtain ⟨m, hm, _⟩ := pow2_int (e := ilog2 b - ulpExp f b) (by omega)
    have hB : pow2 (ilog2 b) ≤ (roundEven (b / pow2 (ulpExp f b)) : ℚ) * pow2 (ulpExp f b) := by
      have : m ≤ roundEven (b / pow2 (ulpExp f b)) := by
        apply le_roundEven
        rw [← hm, le_div_iff₀ (pow2_pos _), ← pow2_add, Int.sub_add_cancel]
        exact (ilog2_spec hb).1
      have : (m : ℚ) ≤ roundEven (b / pow2 (ulpExp f b)) := by exact_mod_cast this
      calc pow2 (ilog2 b) = (m : ℚ) * pow2 (ulpExp f b) := by
            rw [← hm, ← pow2_add, Int.sub_add_cancel]
        _ ≤ _ := mul_le_mul_of_nonneg_right this (pow2_pos _).le
    exact hA.trans hB
  · rw [he]
    apply mul_le_mul_of_nonneg_right _ (pow2_pos _).le
    exact_mod_cast roundEven_mono (div_le_div_of_nonneg_right h (pow2_pos _).le)

theorem rnd_zero : rnd f 0 = 0 := by simp [rnd]

theorem rnd_pos {q : ℚ} (h : 0 < q) : rnd f q = rndPos f q := by
  simp [rnd, h.ne', not_lt.mpr h.le]

theorem rnd_of_neg {q : ℚ} (h : q < 0) : rnd f q = -rndPos f (-q) := by
  simp [rnd, h.ne, h]

theorem rnd_neg (q : ℚ) : rnd f (-q) = -rnd f q := by
  rcases lt_trichotomy q 0 with h | h | h
  · rw [rnd_of_neg h, rnd_pos (by linarith)]; ring
  · subst h; simp [rnd_zero]
  · rw [rnd_pos h, rnd_of_neg (by linarith)]; simp

theorem rnd_nonneg {q : ℚ} (h : 0 ≤ q) : 0 ≤ rnd f q := by
  rcases h.eq_or_lt with h | h
  · rw [← h, rnd_zero]
  · rw [rnd_pos h]; exact rndPos_nonneg h.le

theorem rnd_mono [f.Ok] {a b : ℚ} (h : a ≤ b) : rnd f a ≤ rnd f b := by
  rcases lt_trichotomy a 0 with ha | ha | ha
  · rcases lt_or_ge b 0 with hb | hb
    · rw [rnd_of_neg ha, rnd_of_neg hb]
      have := rndPos_mono (f := f) (a := -b) (b := -a) (by linarith) (by linarith)
      linarith
    · have h1 := rnd_nonneg (f := f) hb
      have h2 := rndPos_nonneg (f := f) (q := -a) (by linarith)
      rw [rnd_of_neg ha]
      linarith
  · rw [ha, rnd_zero]; exact rnd_nonneg (ha ▸ h)
  · rw [rnd_pos ha, rnd_pos (lt_of_lt_of_le ha h)]
    exact rndPos_mono ha h

/-- `q` is representable (with unbounded upper exponent). -/
def Rep (f : Fmt) (q : ℚ) : Prop := ∃ m e : Int, f.emin ≤ e ∧ |m| ≤ 2 ^ f.p ∧ q = m * pow2 e

theorem Rep.neg {q : ℚ} (h : Rep f q) : Rep f (-q) := by
  obtain ⟨m, e, h1, h2, h3⟩ := h
  exact ⟨-m, e, h1, by rwa [abs_neg], by rw [h3]; push_cast; ring⟩

theorem Rep.zero : Rep f 0 := ⟨0, f.emin, le_refl _, by simp, by simp⟩

theorem rndPos_rep {q : ℚ} (hq : 0 < q) : Rep f (rndPos f q) := by
  refine ⟨roundEven (q / pow2 (ulpExp f q)), ulpExp f q, by unfold ulpExp; omega, ?_, rfl⟩
  have h0 : (0 : Int) ≤ roundEven (q / pow2 (ulpExp f q)) := by
    apply le_roundEven
    have := (pow2_pos (ulpExp f q)).le
    push_cast
    positivity
  rw [abs_of_nonneg h0]
  apply roundEven_le
  rw [div_le_iff₀ (pow2_pos _)]
  have := (lt_pow2_ulpExp (f := f) hq).le
  rw [add_comm, pow2_add, pow2_natCast] at this
  push_cast at this ⊢
  exact this

theorem rnd_rep (q : ℚ) : Rep f (rnd f q) := by
  rcases lt_trichotomy q 0 with h | h | h
  · rw [rnd_of_neg h]; exact (rndPos_rep (by linarith)).neg
  · rw [h, rnd_zero]; exact Rep.zero
  · rw [rnd_pos h]; exact rndPos_rep h

theorem rndPos_of_rep [hf : f.Ok] {q : ℚ} (hq : 0 < q) (h : Rep f q) : rndPos f q = q := by
  obtain ⟨m, e, he, hm, rfl⟩ := h
  have hpe := pow2_pos e
  have hm0 : 0 < m := by
    have : (0 : ℚ) < m := by
      by_contra hc
      have := mul_nonpos_of_nonpos_of_nonneg (not_lt.mp hc) hpe.le
      linarith
    exact_mod_cast this
  rw [abs_of_pos hm0] at hm
  set q : ℚ := (m : ℚ) * pow2 e with hqdef
  -- the quotient by the unit in the last place is an integer
  have key : ∃ n : Int, q / pow2 (ulpExp f q) = n := by
    rcases le_or_gt (ulpExp f q) e with hle | hgt
    · obtain ⟨k, hk, _⟩ := pow2_int (e := e - ulpExp f q) (by omega)
      refine ⟨m * k, ?_⟩
      rw [div_eq_iff (pow2_ne _), hqdef]
      push_cast
      rw [← hk, mul_assoc, ← pow2_add, Int.sub_add_cancel]
    · have hE : ulpExp f q = ilog2 q + 1 - f.p := by
        unfold ulpExp at hgt ⊢
        omega
      have h1 := (ilog2_spec hq).1
      have h2 : pow2 (ilog2 q) ≤ (2 : ℚ) ^ f.p * pow2 e := by
        refine h1.trans ?_
        rw [hqdef]
        apply mul_le_mul_of_nonneg_right _ hpe.le
        exact_mod_cast hm
      have h3 : (2 : ℚ) ^ f.p * pow2 e = pow2 (f.p + e) := by
        rw [pow2_add, pow2_natCast]; push_cast; rfl
      rw [h3] at h2
      have h4 := pow2_le.mp h2
      have h5 : ilog2 q = f.p + e := by omega
      have h6 : q = pow2 (f.p + e) := by
        apply le_antisymm
        · rw [← h3, hqdef]
          apply mul_le_mul_of_nonneg_right _ hpe.le
          exact_mod_cast hm
        · rw [← h5]; exact h1
      have hp := hf.pos
      obtain ⟨k, hk, _⟩ := pow2_int (e := (f.p : Int) + e - ulpExp f q) (by omega)
      refine ⟨k, ?_⟩
      rw [div_eq_iff (pow2_ne _), ← hk, ← pow2_add, Int.sub_add_cancel]
      exact h6
  obtain ⟨n, hn⟩ := key
  unfold rndPos
  simp only
  rw [hn, roundEven_int, ← hn, div_mul_cancel₀ _ (pow2_ne _)]

theorem rnd_of_rep [f.Ok] {q : ℚ} (h : Rep f q) : rnd f q = q := by
  rcases lt_trichotomy q 0 with h0 | h0 | h0
  · rw [rnd_of_neg h0, rndPos_of_rep (by linarith) h.neg]; simp
  · rw [h0, rnd_zero]
  · rw [rnd_pos h0, rndPos_of_rep h0 h]

theorem rnd_rnd [f.Ok] (q : ℚ) : rnd f (rnd f q) = rnd f q := rnd_of_rep (rnd_rep q)

theorem le_rnd [f.Ok] {c q : ℚ} (hc : Rep f c) (h : c ≤ q) : c ≤ rnd f q := by
  rw [← rnd_of_rep hc]; exact rnd_mono h

theorem rnd_le [f.Ok] {c q : ℚ} (hc : Rep f c) (h : q ≤ c) : rnd f q ≤ c := by
  rw [← rnd_of_rep hc]; exact rnd_mono h

theorem rep_int [f.Ok] {n : Int} (he : f.emin ≤ 0) (h : |n| ≤ 2 ^ f.p) : Rep f (n : ℚ) :=
  ⟨n, 0, he, h, by simp [pow2_eq]⟩

theorem rep_pow2 {e : Int} (h : f.emin ≤ e) : Rep f (pow2 e) :=
  ⟨1, e, h, by
    rw [abs_one]; exact one_le_pow₀ (by norm_num), by simp⟩

/-- Rounding error. -/
theorem rnd_error {q : ℚ} (hq : q ≠ 0) : |rnd f q - q| ≤ pow2 (ulpExp f |q|) / 2 := by
  have key : ∀ q : ℚ, 0 < q → |rndPos f q - q| ≤ pow2 (ulpExp f q) / 2 := by
    intro q hq
    unfold rndPos
    simp only
    have h := roundEven_bound (q / pow2 (ulpExp f q))
    have e : (roundEven (q / pow2 (ulpExp f q)) : ℚ) * pow2 (ulpExp f q) - q =
        ((roundEven (q / pow2 (ulpExp f q)) : ℚ) - q / pow2 (ulpExp f q)) * pow2 (ulpExp f q) := by
      rw [sub_mul, div_mul_cancel₀ _ (pow2_ne _)]
    rw [e, abs_mul, abs_of_pos (pow2_pos _)]
    have := mul_le_mul_of_nonneg_right h (pow2_pos (ulpExp f q)).le
    linarith
  rcases lt_or_gt_of_ne hq with h | h
  · rw [rnd_of_neg h, abs_of_neg h]
    have := key (-q) (by linarith)
    rw [show -rndPos f (-q) - q = -(rndPos f (-q) - -q) by ring, abs_neg]
    exact this
  · rw [rnd_pos h, abs_of_pos h]; exact key q h

/-- Relative and absolute error bound. -/
theorem rnd_error_rel (q : ℚ) : |rnd f q - q| ≤ |q| * pow2 (-(f.p : Int)) + pow2 (f.emin - 1) := by
  rcases eq_or_ne q 0 with rfl | hq
  · rw [rnd_zero]; have := (pow2_pos (f.emin - 1)).le; simpa
  · refine (rnd_error hq).trans ?_
    have hq' : 0 < |q| := abs_pos.mpr hq
    have h1 := (ilog2_spec hq').1
    have h0 := (pow2_pos (f.emin - 1)).le
    have h3 : ∀ e, pow2 e / 2 = pow2 (e - 1) := by
      intro e
      have := pow2_add (e - 1) 1
      rw [Int.sub_add_cancel] at this
      rw [this]
      simp [pow2_eq]
    rw [h3]
    unfold ulpExp
    rcases le_total f.emin (ilog2 |q| + 1 - f.p) with h | h
    · rw [max_eq_left h]
      have : pow2 (ilog2 |q| + 1 - f.p - 1) = pow2 (ilog2 |q|) * pow2 (-(f.p : Int)) := by
        rw [← pow2_add]; congr 1; ring
      rw [this]
      have := mul_le_mul_of_nonneg_right h1 (pow2_pos (-(f.p : Int))).le
      linarith
    · rw [max_eq_right h]
      have : 0 ≤ |q| * pow2 (-(f.p : Int)) := mul_nonneg hq'.le (pow2_pos _).le
      linarith

end Go
