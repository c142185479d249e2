import Verif.Lemmas.SectionsIEEE
import Verif.Lemmas.Placed

/-! Shifting times that are whole milliseconds, in IEEE arithmetic. -/

namespace GosuPP
open Go Spec Fl

/-- Two `float64` that are whole numbers from 0 to `b`, the second by `400 k` larger. -/
def IntShift (b : ℤ) (k : ℤ) (t t' : F64) : Prop :=
  ∃ n : ℤ, 0 ≤ n ∧ n ≤ b ∧ 0 ≤ n + 400 * k ∧ n + 400 * k ≤ b ∧ t = fin n false ∧ t' = fin ((n + 400 * k : ℤ) : ℚ) false

theorem ofRat_int {n : ℤ} (h : |n| ≤ 2 ^ 53) : ofRat fmt64 (n : ℚ) false = fin n false := ofInt64_exact h

theorem signbit_nonneg {n : ℤ} (h : 0 ≤ n) : signbit (fin (n : ℚ) false : F64) = false := by
  have : ¬ ((n : ℚ) < 0) := not_lt.mpr (by exact_mod_cast h)
  simp [signbit, this]

theorem sub_ints {a b : ℤ} (ha : 0 ≤ a) : Fl.sub (fin (a : ℚ) false : F64) (fin (b : ℚ) false) =
    ofRat fmt64 ((a - b : ℤ) : ℚ) false := by
  show ofRat fmt64 ((a : ℚ) + -(b : ℚ)) (signbit (fin (a : ℚ) false : F64) && _) = _
  rw [signbit_nonneg ha, Bool.false_and]
  congr 1
  push_cast
  ring

theorem lit_one64 : (lit 1 : F64) = fin 1 false := by
  have := ofRat_int (n := 1) (by norm_num)
  rw [Int.cast_one] at this
  exact this

theorem section_start {n : ℤ} (h0 : 0 ≤ n) (h : n ≤ 2 ^ 40) :
    GoFloat.ceil ((fin n false : F64) /. lit 400) *. lit 400 = fin ((400 * ⌈(n : ℚ) / 400⌉ : ℤ) : ℚ) false := by
  have h4 : signbit (fin 400 false : F64) = false := by decide
  have hq : (0 : ℚ) ≤ (n : ℚ) / 400 := by positivity
  have hn : |(n : ℚ)| ≤ pow2 56 := by
    have : |n| ≤ 2 ^ 56 := by rw [abs_le]; constructor <;> omega
    have : |(n : ℚ)| ≤ 2 ^ 56 := by exact_mod_cast this
    rw [pow2_eq]
    exact this.trans (by norm_num)
  have hl : (n : ℚ) = 0 ∨ pow2 (-900) ≤ |(n : ℚ)| := by
    rcases eq_or_ne n 0 with rfl | h
    · exact .inl (by norm_num)
    · right
      have h1 : (1 : ℤ) ≤ |n| := Int.one_le_abs h
      have h1 : (1 : ℚ) ≤ |(n : ℚ)| := by exact_mod_cast h1
      have h2 : pow2 (-900) ≤ pow2 0 := pow2_mono (by decide)
      exact h2.trans (by rw [pow2_eq]; simpa using h1)
  obtain ⟨hceil, hsmall⟩ := ceil_rnd_div (rep_int (f := fmt64) (n := n) (by decide) (by
    show |n| ≤ 2 ^ 53
    rw [abs_le]; constructor <;> omega)) hn hl
  have hrnd0 : 0 ≤ rnd fmt64 ((n : ℚ) / 400) := by
    have := rnd_mono (f := fmt64) hq
    rwa [rnd_zero] at this
  have hrnd1 : rnd fmt64 ((n : ℚ) / 400) < pow2 fmt64.emax := by
    have h1 : rnd fmt64 ((n : ℚ) / 400) ≤ ⌈rnd fmt64 ((n : ℚ) / 400)⌉ := Int.le_ceil _
    rw [hceil] at h1
    have h2 : ((⌈(n : ℚ) / 400⌉ : ℤ) : ℚ) ≤ ((2 ^ 48 - 1 : ℤ) : ℚ) := by exact_mod_cast (abs_le.mp hsmall).2
    have h3 : (2 : ℚ) ^ 48 = pow2 48 := by rw [pow2_eq]; norm_num
    have h4 : pow2 48 < pow2 fmt64.emax := pow2_lt.mpr (by decide)
    push_cast at h2
    linarith
  have hdiv : (fin n false : F64) /. lit 400 = fin (rnd fmt64 ((n : ℚ) / 400)) false := by
    rw [lit400]
    show ofRat fmt64 ((n : ℚ) / 400) (signbit (fin (n : ℚ) false : F64) ^^ signbit (fin 400 false : F64)) = _
    rw [signbit_nonneg h0, h4]
    unfold ofRat
    dsimp only
    rw [if_neg (by rw [abs_of_nonneg hrnd0]; exact not_le.mpr hrnd1)]
    simp only [Bool.xor_self, not_lt.mpr hq, decide_false, ite_self, Bool.and_false]
  rw [hdiv]
  generalize rnd fmt64 ((n : ℚ) / 400) = r at *
  have hc : GoFloat.ceil (fin r false : F64) = fin ((⌈(n : ℚ) / 400⌉ : ℤ) : ℚ) false := by
    rw [← hceil]
    show Fl.neg (Fl.floor (Fl.neg (fin r false))) = _
    rcases hrnd0.eq_or_lt with rfl | hpos
    · simp [Fl.neg, Fl.floor]
    · have hne : r ≠ 0 := hpos.ne'
      have h1 : 0 < ⌈r⌉ := Int.ceil_pos.mpr hpos
      simp only [Fl.neg, Fl.floor, hne, decide_false, Bool.false_and, neg_eq_zero, if_false, Int.floor_neg]
      push_cast
      rw [neg_neg]
      simp [h1.ne']
  rw [hc, lit400]
  have hcn : 0 ≤ ⌈(n : ℚ) / 400⌉ := Int.ceil_nonneg hq
  show ofRat fmt64 (((⌈(n : ℚ) / 400⌉ : ℤ) : ℚ) * 400) (signbit (fin ((⌈(n : ℚ) / 400⌉ : ℤ) : ℚ) false : F64) ^^
    signbit (fin 400 false : F64)) = _
  rw [signbit_nonneg hcn, h4, show ((⌈(n : ℚ) / 400⌉ : ℤ) : ℚ) * 400 = ((400 * ⌈(n : ℚ) / 400⌉ : ℤ) : ℚ) by
    push_cast; ring]
  refine ofRat_int ?_
  have q2 := Int.ceil_lt_add_one ((n : ℚ) / 400)
  have q3 : (400 * ⌈(n : ℚ) / 400⌉ : ℚ) < n + 400 := by linarith
  have q4 : 400 * ⌈(n : ℚ) / 400⌉ < n + 400 := by exact_mod_cast q3
  rw [abs_le]
  constructor <;> omega

theorem steady_ints (d : Difficulty F64) (hd : d.speed = lit 1) (k : ℤ) :
    Steady d d (IntShift (2 ^ 40) k) (IntShift (2 ^ 40) k) (IntShift (2 ^ 40 + 400) k) where
  mods := rfl
  radius := rfl
  window := rfl
  elapsed := by
    rintro _ _ _ _ ⟨a, ha, -, ha', -, rfl, rfl⟩ ⟨b, -, -, -, -, rfl, rfl⟩
    show Fl.div (Fl.sub _ _) _ = Fl.div (Fl.sub _ _) _
    rw [sub_ints ha, sub_ints ha']
    congr 3
    ring
  back := by
    rintro _ _ _ _ ⟨a, ha, ha1, ha', ha2, rfl, rfl⟩ ⟨b, hb, hb1, hb', hb2, rfl, rfl⟩
    have key : ∀ a b : ℤ, 0 ≤ a → a ≤ 2 ^ 40 → 0 ≤ b → b ≤ 2 ^ 40 →
        Fl.add (Fl.sub (fin (a : ℚ) false : F64) (fin (b : ℚ) false)) (fin (b : ℚ) false) = fin (a : ℚ) false := by
      intro a b h1 h2 h3 h4
      rw [sub_ints h1, ofRat_int (by rw [abs_le]; constructor <;> omega)]
      show ofRat fmt64 (((a - b : ℤ) : ℚ) + (b : ℚ)) (_ && signbit (fin (b : ℚ) false : F64)) = _
      rw [signbit_nonneg h3, Bool.and_false, show ((a - b : ℤ) : ℚ) + (b : ℚ) = (a : ℚ) by push_cast; ring]
      exact ofRat_int (by rw [abs_le]; constructor <;> omega)
    exact ⟨a, ha, ha1, ha', ha2, key a b ha ha1 hb hb1, key _ _ ha' ha2 hb' hb2⟩
  scaled := by
    rw [hd]
    rintro _ _ ⟨a, ha, ha1, ha', ha2, rfl, rfl⟩
    have key : ∀ a : ℤ, 0 ≤ a → a ≤ 2 ^ 40 → Fl.div (fin (a : ℚ) false : F64) (lit 1) = fin (a : ℚ) false := by
      intro a h1 h2
      rw [lit_one64]
      show ofRat fmt64 ((a : ℚ) / 1) (signbit (fin (a : ℚ) false : F64) ^^ signbit (fin 1 false : F64)) = _
      rw [signbit_nonneg h1, div_one, show signbit (fin 1 false : F64) = false by decide]
      exact ofRat_int (by rw [abs_le]; constructor <;> omega)
    exact ⟨a, ha, ha1, ha', ha2, key a ha ha1, key _ ha' ha2⟩
  age := by
    rintro _ _ _ _ ⟨a, ha, -, ha', -, rfl, rfl⟩ ⟨b, -, -, -, -, rfl, rfl⟩
    show Fl.sub _ _ = Fl.sub _ _
    rw [sub_ints ha, sub_ints ha']
    congr 2
    ring
  first := by
    rintro _ _ ⟨a, ha, ha1, ha', ha2, rfl, rfl⟩
    rw [section_start ha ha1, section_start ha' ha2]
    have e : ⌈((a + 400 * k : ℤ) : ℚ) / 400⌉ = ⌈(a : ℚ) / 400⌉ + k := by
      rw [← Int.ceil_add_intCast]
      congr 1
      push_cast
      field_simp
    have hc : ∀ a : ℤ, 0 ≤ a → a ≤ 2 ^ 40 → 0 ≤ 400 * ⌈(a : ℚ) / 400⌉ ∧ 400 * ⌈(a : ℚ) / 400⌉ ≤ 2 ^ 40 + 400 := by
      intro a h1 h2
      have q1 : (0 : ℚ) ≤ (a : ℚ) / 400 := by positivity
      have q2 := Int.ceil_lt_add_one ((a : ℚ) / 400)
      have q3 : (400 * ⌈(a : ℚ) / 400⌉ : ℚ) < a + 400 := by linarith
      have q4 : 400 * ⌈(a : ℚ) / 400⌉ < a + 400 := by exact_mod_cast q3
      exact ⟨by have := Int.ceil_nonneg q1; omega, by omega⟩
    obtain ⟨c1, c2⟩ := hc _ ha ha1
    obtain ⟨c3, c4⟩ := hc _ ha' ha2
    rw [e] at c3 c4 ⊢
    exact ⟨400 * ⌈(a : ℚ) / 400⌉, c1, c2, by linarith, by linarith, rfl, by congr 2; ring⟩
  past := by
    rintro _ _ _ _ ⟨a, ha, -, ha', -, rfl, rfl⟩ ⟨b, -, -, -, -, rfl, rfl⟩
    show decide (_ < _) = decide (_ < _)
    rw [decide_eq_decide]
    push_cast
    constructor <;> intro h <;> linarith
  since := by
    rintro _ _ _ _ ⟨b, -, -, -, -, rfl, rfl⟩ ⟨a, ha, -, ha', -, rfl, rfl⟩
    show Fl.sub _ _ = Fl.sub _ _
    rw [sub_ints ha, sub_ints ha']
    congr 2
    ring
  next := by
    rintro _ _ _ _ ⟨b, -, hb, -, hb', rfl, rfl⟩ ⟨a, ha, -, ha', -, rfl, rfl⟩ hlt
    have hlt : a < b := by
      have : decide ((a : ℚ) < b) = true := hlt
      simpa using this
    have key : ∀ a : ℤ, 0 ≤ a → a ≤ 2 ^ 40 → Fl.add (fin (a : ℚ) false : F64) (lit 400) = fin ((a + 400 : ℤ) : ℚ) false := by
      intro a h1 h2
      rw [lit400]
      show ofRat fmt64 ((a : ℚ) + 400) (signbit (fin (a : ℚ) false : F64) && _) = _
      rw [signbit_nonneg h1, Bool.false_and, show ((a : ℚ) + 400) = ((a + 400 : ℤ) : ℚ) by push_cast; ring]
      exact ofRat_int (by rw [abs_le]; constructor <;> omega)
    refine ⟨a + 400, by omega, by omega, by omega, by omega, key a ha (by omega), ?_⟩
    refine (key _ ha' (by omega)).trans ?_
    congr 2
    ring

/-- Two `float64` that are whole numbers from 0 to `b`, the second `n` times as large. -/
def IntTimes (n : ℤ) (t t' : F64) : Prop :=
  ∃ m : ℤ, 0 ≤ m ∧ m ≤ 2 ^ 30 ∧ t = fin m false ∧ t' = fin ((m * n : ℤ) : ℚ) false

/-- dividing a multiple of a whole number -/
theorem div_ints {a n : ℤ} (ha : |a| ≤ 2 ^ 53) (hn : 0 < n) :
    Fl.div (fin ((a * n : ℤ) : ℚ) false : F64) (fin (n : ℚ) false) = fin (a : ℚ) false := by
  have hn0 : (n : ℚ) ≠ 0 := by exact_mod_cast hn.ne'
  have hd : ((a * n : ℤ) : ℚ) / (n : ℚ) = (a : ℚ) := by push_cast; field_simp
  show (if (n : ℚ) = 0 then _ else ofRat fmt64 (((a * n : ℤ) : ℚ) / (n : ℚ))
    (signbit (fin ((a * n : ℤ) : ℚ) false : F64) ^^ signbit (fin (n : ℚ) false : F64))) = _
  rw [if_neg hn0, hd]
  rw [signbit_nonneg hn.le, Bool.xor_false]
  rcases eq_or_ne a 0 with rfl | h0
  · rw [zero_mul, signbit_nonneg le_rfl]
    exact ofRat_int (by norm_num)
  · have h0 : (a : ℚ) ≠ 0 := by exact_mod_cast h0
    have : ∀ z, ofRat fmt64 (a : ℚ) z = ofRat fmt64 (a : ℚ) false := by
      intro z
      unfold ofRat
      simp only [h0, if_false]
    rw [this]
    exact ofRat_int ha

theorem div_one_int {a : ℤ} (ha : |a| ≤ 2 ^ 53) : Fl.div (fin (a : ℚ) false : F64) (lit 1) = fin (a : ℚ) false := by
  have := div_ints ha one_pos
  rwa [mul_one, Int.cast_one, ← lit_one64] at this

theorem sub_ints_exact {a b : ℤ} (ha : 0 ≤ a) (ha1 : a ≤ 2 ^ 40) (hb : 0 ≤ b) (hb1 : b ≤ 2 ^ 40) :
    Fl.sub (fin (a : ℚ) false : F64) (fin (b : ℚ) false) = fin ((a - b : ℤ) : ℚ) false := by
  rw [sub_ints ha]
  exact ofRat_int (by rw [abs_le]; constructor <;> omega)

theorem back_ints {a b : ℤ} (ha : 0 ≤ a) (ha1 : a ≤ 2 ^ 40) (hb : 0 ≤ b) (hb1 : b ≤ 2 ^ 40) :
    Fl.add (Fl.sub (fin (a : ℚ) false : F64) (fin (b : ℚ) false)) (fin (b : ℚ) false) = fin (a : ℚ) false := by
  rw [sub_ints_exact ha ha1 hb hb1]
  show ofRat fmt64 (((a - b : ℤ) : ℚ) + (b : ℚ)) (_ && signbit (fin (b : ℚ) false : F64)) = _
  rw [signbit_nonneg hb, Bool.and_false, show ((a - b : ℤ) : ℚ) + (b : ℚ) = (a : ℚ) by push_cast; ring]
  exact ofRat_int (by rw [abs_le]; constructor <;> omega)

/-- Speed `n` and `n` times the times. -/
theorem steady_times (d d' : Difficulty F64) {n : ℤ} (h1 : 0 < n) (h2 : n ≤ 2 ^ 10) (hv : d.speed = lit 1)
    (hv' : d'.speed = ofInt n) (hm : d'.mods = d.mods) (hr : d'.circleRadius = d.circleRadius)
    (hw : d'.hit300 /. d'.speed = d.hit300 /. d.speed) : Steady d d' (IntTimes n) Eq Eq :=
  have bound : ∀ {m : ℤ}, 0 ≤ m → m ≤ 2 ^ 30 → 0 ≤ m * n ∧ m * n ≤ 2 ^ 40 := fun {m} hm hm1 =>
    ⟨mul_nonneg hm h1.le, (mul_le_mul hm1 h2 h1.le (by norm_num)).trans (by norm_num)⟩
  have hn : (ofInt n : F64) = fin (n : ℚ) false := ofInt64_exact (by rw [abs_le]; constructor <;> omega)
  { mods := hm
    radius := hr
    window := hw
    elapsed := by
      rintro _ _ _ _ ⟨a, ha, ha1, rfl, rfl⟩ ⟨b, hb, hb1, rfl, rfl⟩
      obtain ⟨a1, a2⟩ := bound ha ha1
      obtain ⟨b1, b2⟩ := bound hb hb1
      rw [hv, hv']
      show Fl.div (Fl.sub _ _) _ = Fl.div (Fl.sub _ _) _
      rw [sub_ints_exact a1 a2 b1 b2, sub_ints_exact ha (by omega) hb (by omega),
        div_one_int (by rw [abs_le]; constructor <;> omega), ← sub_mul, hn]
      exact div_ints (by rw [abs_le]; constructor <;> omega) h1
    back := by
      rintro _ _ _ _ ⟨a, ha, ha1, rfl, rfl⟩ ⟨b, hb, hb1, rfl, rfl⟩
      obtain ⟨a1, a2⟩ := bound ha ha1
      obtain ⟨b1, b2⟩ := bound hb hb1
      exact ⟨a, ha, ha1, back_ints ha (by omega) hb (by omega), back_ints a1 a2 b1 b2⟩
    scaled := by
      rintro _ _ ⟨a, ha, ha1, rfl, rfl⟩
      rw [hv, hv', hn]
      show Fl.div _ _ = Fl.div _ _
      rw [div_one_int (by rw [abs_le]; constructor <;> omega)]
      exact (div_ints (by rw [abs_le]; constructor <;> omega) h1).symm
    age := by rintro _ _ _ _ rfl rfl; rfl
    first := by rintro _ _ rfl; rfl
    past := by rintro _ _ _ _ rfl rfl; rfl
    since := by rintro _ _ _ _ rfl rfl; rfl
    next := by rintro _ _ _ _ rfl rfl _; rfl }

end GosuPP
