import Verif.Lemmas.Within
import Verif.Spec.PPBounds

/-! Bounds of the parts of performance points in IEEE arithmetic. -/

namespace GosuPP
open Go Fl Spec

/-- Proves that a numeral is a finite double. -/
macro "nice" : tactic => `(tactic| first
  | exact nice_zero
  | exact nice_one
  | exact nice_pow _ (by norm_num)
  | exact (nice_pow _ (by norm_num)).neg
  | exact nice_nat _ (by norm_num)
  | exact (nice_nat _ (by norm_num)).neg
  | exact nice_int (n := OfNat.ofNat _) (by norm_num))

theorem in_of_within {lo hi : ℚ} {x : F64} (h : Within lo hi x) (hl : Nice lo) (hh : Nice hi) : In lo hi x :=
  In.of_le h.1 h.2 hl hh

theorem In.within {lo hi : ℚ} {x : F64} (h : In lo hi x) (hl : Nice lo) (hh : Nice hi) : Within lo hi x :=
  ⟨h.lit_le hl, h.le_lit hh⟩

theorem nice_neg_pow (k : ℕ) (hk : k ≤ 1000) : Nice (1 / 2 ^ k) := by
  have e : (1 / 2 ^ k : ℚ) = pow2 (-(k : ℤ)) := by rw [pow2_eq, zpow_neg]; norm_num
  rw [e]
  refine ⟨Go.rep_pow2 (f := fmt64) (by show (-1074 : ℤ) ≤ _; omega), ?_⟩
  rw [abs_of_pos (pow2_pos _), pow2_lt]
  omega

theorem nice_half : Nice (1 / 2) := by have := nice_neg_pow 1 (by norm_num); norm_num at this ⊢; exact this

variable [GoLibm F64]

theorem pow_unit (hl : PowLaws) {x y : F64} {b : ℚ} (hx : In 0 1 x) (hy : In 0 b y) : In 0 1 (GoLibm.pow x y : F64) :=
  in_of_within (hl.unit x y (hx.within nice_zero nice_one) (hy.lit_le nice_zero)) nice_zero nice_one

theorem pow_large (hl : PowLaws) {x y : F64} {a : ℚ} {k m : ℕ} (hm : k * m ≤ 1000) (hk : k ≤ 1000) (hm' : m ≤ 1000)
    (hx : In 1 (2 ^ k) x) (hy : In a m y) : In 0 (2 ^ (k * m)) (GoLibm.pow x y : F64) :=
  in_of_within (hl.large x y k m hm (hx.within nice_one (nice_pow k (by omega))) (hy.le_lit (nice_nat m (by omega))))
    nice_zero (nice_pow _ (by omega))

theorem pow_up (hl : PowLaws) {x y : F64} (k m : ℕ) (hm : k * m ≤ 1000) (hk : k ≤ 1000) (hm' : m ≤ 1000)
    (hx : In 0 (2 ^ k) x) (hy : In 0 m y) : In 0 (2 ^ (k * m)) (GoLibm.pow x y : F64) := by
  obtain ⟨v, z, rfl, v1, v2⟩ := hx
  rcases le_total v 1 with h | h
  · refine (pow_unit hl ⟨v, z, rfl, v1, h⟩ hy).mono le_rfl ?_
    exact one_le_pow₀ (by norm_num)
  · exact pow_large hl hm hk hm' ⟨v, z, rfl, h, v2⟩ hy

theorem pow_sq (hl : PowLaws) {x : F64} (k : ℕ) (hk : k ≤ 500) (hx : In (-(2 ^ k)) (2 ^ k) x) :
    In 0 (2 ^ (2 * k)) (GoLibm.pow x (lit 2) : F64) :=
  in_of_within (hl.square x k hk (hx.within (nice_pow k (by omega)).neg (nice_pow k (by omega)))) nice_zero
    (nice_pow _ (by omega))

theorem one_sub_in {x : F64} (h : In 0 1 x) : In 0 1 (lit 1 -. x) :=
  (in_lit (q := 1) nice_one nice_one le_rfl le_rfl).sub h nice_zero nice_one (by norm_num) (by norm_num)

/-- What the components of performance points need of the state they are computed from. -/
structure Ordinary (p : PPv2 F64) : Prop where
  total : 0 ≤ p.totalHits ∧ p.totalHits ≤ 2 ^ 52
  misses : 0 ≤ p.effectiveMissCount ∧ p.effectiveMissCount ≤ p.totalHits
  combo : 0 ≤ p.scoreMaxCombo ∧ p.scoreMaxCombo ≤ 2 ^ 50
  maxCombo : 1 ≤ p.attribs.maxCombo ∧ p.attribs.maxCombo ≤ 2 ^ 50
  sliders : p.attribs.sliders ≤ 2 ^ 50
  great : 0 ≤ p.countGreat
  ok : 0 ≤ p.countOk
  meh : 0 ≤ p.countMeh
  miss : 0 ≤ p.countMiss
  hits : p.countGreat + p.countOk + p.countMeh ≤ p.totalHits
  amount : 0 ≤ p.amountHitObjectsWithAccuracy ∧ p.amountHitObjectsWithAccuracy ≤ 2 ^ 50
  spinners : 0 ≤ p.attribs.spinners ∧ (Modifier.active p.diff.mods Mod.SpunOut = true → 0 < p.totalHits →
    p.attribs.spinners ≤ p.totalHits)
  aim : In 0 (2 ^ 80) p.attribs.aim
  speed : In 0 (2 ^ 80) p.attribs.speed
  flashlight : In 0 (2 ^ 104) p.attribs.flashlight
  sliderFactor : Fl.WF p.attribs.sliderFactor ∧ In 0 (2 ^ 96) p.attribs.sliderFactor
  ar : In (-4096) 14 p.diff.arReal
  od : In (-4096) 14 p.diff.odReal
  accuracy : In 0 1 p.accuracy

/-- Integers up to `2 ^ k` as doubles. -/
theorem in_nat {n : ℤ} (k : ℕ) (hk : k ≤ 60) (h0 : 0 ≤ n) (h1 : n ≤ 2 ^ k) : In 0 (2 ^ k) (ofInt n : F64) :=
  in_ofInt nice_zero (nice_pow k (by omega)) (by exact_mod_cast h0) (by exact_mod_cast h1)

theorem in_pos {n : ℤ} (k : ℕ) (hk : k ≤ 60) (h0 : 1 ≤ n) (h1 : n ≤ 2 ^ k) : In 1 (2 ^ k) (ofInt n : F64) :=
  in_ofInt nice_one (nice_pow k (by omega)) (by exact_mod_cast h0) (by exact_mod_cast h1)

theorem ofInt_le {m n : ℤ} (h : m ≤ n) : ((ofInt m : F64) <=. ofInt n) = true := by
  rw [go_ofInt, go_ofInt]
  exact ofRat_mono (by exact_mod_cast h) _ _

/-- Constants between 0 and `2 ^ k`. -/
theorem lit_up {q : ℚ} (k : ℕ) (hk : k ≤ 60) (h0 : 0 ≤ q) (h1 : q ≤ 2 ^ k) : In 0 (2 ^ k) (lit q : F64) :=
  in_lit nice_zero (nice_pow k (by omega)) h0 h1

theorem lit_unit {q : ℚ} (h0 : 0 ≤ q) (h1 : q ≤ 1) : In 0 1 (lit q : F64) := in_lit nice_zero nice_one h0 h1

theorem In.mulU {x y : F64} {k l : ℕ} (hx : In 0 (2 ^ k) x) (hy : In 0 (2 ^ l) y) (h : k + l ≤ 1000) :
    In 0 (2 ^ (k + l)) (x *. y) :=
  hx.mul hy le_rfl le_rfl nice_zero (nice_pow _ (by omega)) (by norm_num) (by rw [pow_add])

theorem In.mul1 {x y : F64} {k : ℕ} (hx : In 0 (2 ^ k) x) (hy : In 0 1 y) (h : k ≤ 1000) :
    In 0 (2 ^ k) (x *. y) :=
  hx.mul hy le_rfl le_rfl nice_zero (nice_pow _ (by omega)) (by norm_num) (by rw [mul_one])

theorem In.unit_mul {x y : F64} (hx : In 0 1 x) (hy : In 0 1 y) : In 0 1 (x *. y) :=
  hx.mul hy le_rfl le_rfl nice_zero nice_one (by norm_num) (by norm_num)

theorem In.addU {x y : F64} {k : ℕ} (hx : In 0 (2 ^ k) x) (hy : In 0 (2 ^ k) y) (h : k ≤ 1000) :
    In 0 (2 ^ (k + 1)) (x +. y) :=
  hx.add hy nice_zero (nice_pow _ (by omega)) (by norm_num) (by rw [pow_succ]; linarith)

theorem In.up {x : F64} {a b : ℚ} (hx : In a b x) (k : ℕ) (ha : 0 ≤ a) (hb : b ≤ 2 ^ k) : In 0 (2 ^ k) x :=
  hx.mono ha hb

theorem lengthBonus_in' {n : ℤ} {x : F64} (hn : 0 ≤ n) (hn' : n ≤ 2 ^ 53) (hx : In 0 16 x) :
    In 0 16 (if n > 2000 then
      (lit 0.95 +. lit 0.4 *. fmin (lit 1) (ofInt n /. lit 2000)) +. x *. lit 0.5
      else lit 0.95 +. lit 0.4 *. fmin (lit 1) (ofInt n /. lit 2000) : F64) := by
  have h1 : In 0 (2 ^ 53) (ofInt n /. lit 2000 : F64) :=
    (in_nat 53 (by norm_num) hn hn').div (in_lit (q := 2000) (a := 1) (b := 2000) nice_one
      (by exact nice_nat 2000 (by norm_num)) (by norm_num) le_rfl) le_rfl (by norm_num) (nice_pow 53 (by norm_num)) (by norm_num)
  have h2 : In 0 1 (fmin (lit 1) (ofInt n /. lit 2000) : F64) :=
    ((in_lit (q := 1) nice_one nice_one le_rfl le_rfl).fmin h1).mono (by norm_num) (by norm_num)
  have h3 : In 0 1 (lit 0.4 *. fmin (lit 1) (ofInt n /. lit 2000) : F64) :=
    (lit_unit (by norm_num) (by norm_num)).unit_mul h2
  have h4 : In 0 2 (lit 0.95 +. lit 0.4 *. fmin (lit 1) (ofInt n /. lit 2000) : F64) :=
    (lit_unit (by norm_num) (by norm_num)).add h3 nice_zero (by exact nice_nat 2 (by norm_num)) (by norm_num) (by norm_num)
  split
  · have h5 : In 0 8 (x *. lit 0.5) :=
      hx.mul (in_lit (q := 0.5) (a := 0) (b := 1 / 2) nice_zero nice_half (by norm_num) (by norm_num))
        le_rfl le_rfl nice_zero (by exact nice_nat 8 (by norm_num)) (by norm_num) (by norm_num)
    exact h4.add h5 nice_zero (by exact nice_nat 16 (by norm_num)) (by norm_num) (by norm_num)
  · exact h4.mono le_rfl (by norm_num)

section
variable (hl : PowLaws)
include hl

theorem ppBase_in {x : F64} (hx : In 0 (2 ^ 80) x) : In 0 (2 ^ 261) (ppBase x) := by
  unfold ppBase
  have h1 : In 0 (2 ^ 84) (x /. lit 0.0675) :=
    hx.div (in_lit (a := 1 / 16) (b := 1) (q := 0.0675)
      (by have := nice_neg_pow 4 (by norm_num); norm_num at this ⊢; exact this) nice_one (by norm_num) (by norm_num))
      le_rfl (by norm_num) (nice_pow 84 (by norm_num)) (by norm_num)
  have h2 : In 1 (2 ^ 84) (fmax (lit 1) (x /. lit 0.0675)) :=
    ((in_lit (q := 1) nice_one nice_one le_rfl le_rfl).fmax h1).mono (by norm_num) (by norm_num)
  have h3 : In 5 (2 ^ 87) (lit 5 *. fmax (lit 1) (x /. lit 0.0675)) :=
    (in_lit (q := 5) (a := 5) (b := 5) (by exact nice_nat 5 (by norm_num)) (by exact nice_nat 5 (by norm_num)) le_rfl le_rfl).mul h2
      (by norm_num) (by norm_num) (by exact nice_nat 5 (by norm_num)) (nice_pow 87 (by norm_num)) (by norm_num) (by norm_num)
  have h4 : In 1 (2 ^ 87) (lit 5 *. fmax (lit 1) (x /. lit 0.0675) -. lit 4) :=
    h3.sub (in_lit (q := 4) (a := 4) (b := 4) (by exact nice_nat 4 (by norm_num)) (by exact nice_nat 4 (by norm_num)) le_rfl le_rfl)
      nice_one (nice_pow 87 (by norm_num)) (by norm_num) (by norm_num)
  have h5 : In 0 (2 ^ (87 * 3)) (GoLibm.pow (lit 5 *. fmax (lit 1) (x /. lit 0.0675) -. lit 4) (lit 3) : F64) :=
    pow_large hl (by norm_num) (by norm_num) (by norm_num) h4
      (in_lit (q := 3) (a := 3) (b := (3 : ℕ)) (by exact nice_nat 3 (by norm_num)) (nice_nat 3 (by norm_num)) le_rfl (by norm_num))
  exact h5.div (in_lit (q := 100000) (a := 1) (b := 100000) nice_one (by exact nice_nat 100000 (by norm_num)) (by norm_num) le_rfl)
    le_rfl (by norm_num) (nice_pow 261 (by norm_num)) (by rw [div_one])

variable {p : PPv2 F64} (hp : Ordinary p)
include hp

theorem lengthBonus_in : In 0 16 p.lengthBonus := by
  have hx : p.totalHits > 2000 → In 0 16 (GoLibm.log10 (ofInt p.totalHits /. lit 2000) : F64) := by
    intro h
    have h1 : In 0 (2 ^ 53) (ofInt p.totalHits /. lit 2000 : F64) :=
      (in_nat 53 (by norm_num) hp.total.1 (by have := hp.total.2; omega)).div (in_lit (q := 2000) (a := 1) (b := 2000) nice_one
        (by exact nice_nat 2000 (by norm_num)) (by norm_num) le_rfl) le_rfl (by norm_num) (nice_pow 53 (by norm_num)) (by norm_num)
    have h2 : In 1 (2 ^ 53) (ofInt p.totalHits /. lit 2000 : F64) := by
      obtain ⟨v, z, e, v1, v2⟩ := in_ofInt (n := p.totalHits) (a := 2000) (b := 2 ^ 53) (by exact nice_nat 2000 (by norm_num))
        (nice_pow 53 (by norm_num)) (by exact_mod_cast h.le) (by exact_mod_cast (by have := hp.total.2; omega : p.totalHits ≤ 2 ^ 53))
      have e' : (lit 2000 : F64) = fin 2000 false := by decide +kernel
      rw [e, e']
      show In 1 (2 ^ 53) (Fl.div (fin v z) (fin 2000 false))
      unfold Fl.div
      simp only
      rw [if_neg (by norm_num)]
      refine in_ofRat _ nice_one (nice_pow 53 (by norm_num)) ?_ ?_
      · rw [le_div_iff₀ (by norm_num)]; linarith
      · rw [div_le_iff₀ (by norm_num)]; linarith
    exact in_of_within (hl.log _ (h2.within nice_one (nice_pow 53 (by norm_num)))) nice_zero (by exact nice_nat 16 (by norm_num))
  unfold PPv2.lengthBonus
  simp only
  by_cases h : p.totalHits > 2000
  · exact lengthBonus_in' hp.total.1 (by have := hp.total.2; omega) (hx h)
  · have := lengthBonus_in' (n := p.totalHits) (x := lit 0) hp.total.1 (by have := hp.total.2; omega) (lit_up 0 (by norm_num) le_rfl (by norm_num) |>.mono le_rfl (by norm_num))
    rw [if_neg h] at this ⊢
    exact this

theorem comboScaling_in : In 0 1 p.comboScaling := by
  unfold PPv2.comboScaling
  have y : In 0 ((1 : ℕ) : ℚ) (lit 0.8 : F64) := (lit_unit (q := 0.8) (by norm_num) (by norm_num)).mono le_rfl (by norm_num)
  have h1 : In 0 (2 ^ (50 * 1)) (GoLibm.pow (ofInt p.scoreMaxCombo) (lit 0.8) : F64) :=
    pow_up hl 50 1 (by norm_num) (by norm_num) (by norm_num) (in_nat 50 (by norm_num) hp.combo.1 hp.combo.2) y
  have hm := in_pos 50 (by norm_num) hp.maxCombo.1 hp.maxCombo.2
  have h2 : In 0 (2 ^ (50 * 1)) (GoLibm.pow (ofInt p.attribs.maxCombo) (lit 0.8) : F64) :=
    pow_large hl (by norm_num) (by norm_num) (by norm_num) hm y
  have h3 : In 1 (2 ^ (50 * 1)) (GoLibm.pow (ofInt p.attribs.maxCombo) (lit 0.8) : F64) :=
    In.of_le (hl.root _ _ (hm.lit_le nice_one) (y.lit_le nice_zero)) (h2.le_lit (nice_pow _ (by norm_num))) nice_one (nice_pow _ (by norm_num))
  have h4 := h1.div h3 le_rfl (by norm_num) (b' := 2 ^ 50) (nice_pow _ (by norm_num)) (by norm_num)
  exact (h4.fmin (in_lit (q := 1) nice_one nice_one le_rfl le_rfl)).mono (by norm_num) (by norm_num)

theorem missPenalty_in {e : F64} {b : ℚ} (hm : p.effectiveMissCount > 0) (he : In 0 b e) : In 0 1 (p.missPenalty e) := by
  unfold PPv2.missPenalty
  have hn := in_pos 52 (by norm_num) (by have := hp.misses.2; omega) hp.total.2
  have h1 : In 0 1 (ofInt p.effectiveMissCount /. ofInt p.totalHits : F64) :=
    (in_nat 52 (by norm_num) hp.misses.1 (by have := hp.misses.2; have := hp.total.2; omega)).div_le hn (by norm_num) (ofInt_le hp.misses.2)
  have h2 := pow_unit hl h1 (lit_unit (q := 0.775) (by norm_num) (by norm_num))
  have h3 := pow_unit hl (one_sub_in h2) he
  exact (lit_unit (by norm_num) (by norm_num)).unit_mul h3

omit hl in
theorem hidden_in : In 0 (2 ^ 13) (lit 1 +. lit 0.04 *. (lit 12 -. p.diff.arReal)) := by
  have h1 : In (-2) (2 ^ 13) (lit 12 -. p.diff.arReal) :=
    (in_lit (q := 12) (a := 12) (b := 12) (by exact nice_nat 12 (by norm_num)) (by exact nice_nat 12 (by norm_num)) le_rfl le_rfl).sub hp.ar
      (by exact (nice_nat 2 (by norm_num)).neg) (nice_pow 13 (by norm_num)) (by norm_num) (by norm_num)
  have h2 : In (-1) (2 ^ 12) (lit 0.04 *. (lit 12 -. p.diff.arReal)) :=
    (in_lit (q := 0.04) (a := 0) (b := 1 / 2) nice_zero nice_half (by norm_num) (by norm_num)).scale h1 le_rfl (by norm_num) (by norm_num)
      nice_one.neg (nice_pow 12 (by norm_num)) (by norm_num) (by norm_num)
  exact (in_lit (q := 1) nice_one nice_one le_rfl le_rfl).add h2 nice_zero (nice_pow 13 (by norm_num)) (by norm_num) (by norm_num)

omit hl in
theorem arFactor_in : In 0 (2 ^ 13) (if p.diff.arReal >. lit 10.33 then lit 0.3 *. (p.diff.arReal -. lit 10.33)
    else if p.diff.arReal <. lit 8 then lit 0.1 *. (lit 8 -. p.diff.arReal) else lit 0) := by
  split
  · rename_i h
    obtain ⟨w, t, e, w1, w2⟩ := in_lit (q := 10.33) (a := 10) (b := 11) (by exact nice_nat 10 (by norm_num)) (by exact nice_nat 11 (by norm_num)) (by norm_num) (by norm_num)
    obtain ⟨v, z, e', v1, v2⟩ := hp.ar
    rw [e, e'] at h ⊢
    have hlt : w < v := by simpa [go_lt, Fl.lt] using h
    have h1 : In 0 (2 ^ 4) ((fin v z : F64) -. fin w t) := in_ofRat _ nice_zero (nice_pow 4 (by norm_num)) (by linarith) (by linarith)
    exact ((lit_up 0 (by norm_num) (by norm_num) (by norm_num)).mulU h1 (by norm_num)).mono le_rfl (by norm_num)
  · split
    · rename_i h
      obtain ⟨w, t, e, w1, w2⟩ := in_lit (q := 8) (a := 8) (b := 8) (by exact nice_nat 8 (by norm_num)) (by exact nice_nat 8 (by norm_num)) le_rfl le_rfl
      obtain ⟨v, z, e', v1, v2⟩ := hp.ar
      rw [e, e'] at h ⊢
      have hlt : v < w := by simpa [go_lt, Fl.lt] using h
      have h1 : In 0 (2 ^ 13) ((fin w t : F64) -. fin v z) := in_ofRat _ nice_zero (nice_pow 13 (by norm_num)) (by linarith) (by linarith)
      exact ((lit_up 0 (by norm_num) (by norm_num) (by norm_num)).mulU h1 (by norm_num)).mono le_rfl (by norm_num)
    · exact lit_up 13 (by norm_num) le_rfl (by norm_num)

theorem arBonus_in {f : F64} (hf : In 0 (2 ^ 13) f) : In 0 (2 ^ 18) (lit 1 +. f *. p.lengthBonus) := by
  have h1 := hf.mulU ((lengthBonus_in hl hp).up 4 le_rfl (by norm_num)) (by norm_num)
  exact (lit_up 17 (by norm_num) (by norm_num) (by norm_num)).addU h1 (by norm_num)

theorem odSquare_in : In 0 (2 ^ 24) (GoLibm.pow p.diff.odReal (lit 2) : F64) :=
  pow_sq hl 12 (by norm_num) (hp.od.mono (by norm_num) (by norm_num))

omit hl in
theorem sliderNerf_in {q : F64} (hq : In 0 1 q) :
    In 0 (2 ^ 98) ((lit 1 -. p.attribs.sliderFactor) *. q +. p.attribs.sliderFactor) := by
  obtain ⟨hw, v, z, e, v0, v1⟩ := hp.sliderFactor
  rw [e] at hw ⊢
  rcases le_total v 1 with h | h
  · have hv : In 0 1 (fin v z : F64) := ⟨v, z, rfl, v0, h⟩
    exact ((one_sub_in hv).unit_mul hq).add hv nice_zero (nice_pow _ (by norm_num)) (by norm_num) (by norm_num)
  · -- `1 - v` rounded is not less than `-v`
    have hn : Nice (-v) := Nice.neg ⟨hw.1, hw.2.1⟩
    have hv : In v v (fin v z : F64) := ⟨v, z, rfl, le_rfl, le_rfl⟩
    have hs : In (-v) 0 (lit 1 -. (fin v z : F64)) :=
      (in_lit (q := 1) nice_one nice_one le_rfl le_rfl).sub hv hn nice_zero (by linarith) (by linarith)
    have hm : In (-v) 0 ((lit 1 -. (fin v z : F64)) *. q) := by
      obtain ⟨w, t, e2, w1, w2⟩ := hs
      obtain ⟨u, s, rfl, u1, u2⟩ := hq
      rw [e2]
      refine in_ofRat _ hn nice_zero ?_ ?_
      · calc -v ≤ w := w1
          _ = w * 1 := (mul_one _).symm
          _ ≤ w * u := mul_le_mul_of_nonpos_left u2 w2
      · exact mul_nonpos_of_nonpos_of_nonneg w2 u1
    exact hm.add hv nice_zero (nice_pow _ (by norm_num)) (by linarith) (by linarith)

omit hl hp in
theorem mul_opt {x y : F64} {k l : ℕ} {c : Prop} [Decidable c] (hx : In 0 (2 ^ k) x) (hy : c → In 0 (2 ^ l) y)
    (h : k + l ≤ 1000) : In 0 (2 ^ (k + l)) (if c then x *. y else x) := by
  split
  · rename_i hc; exact hx.mulU (hy hc) h
  · exact hx.mono le_rfl (pow_le_pow_right₀ (by norm_num) (by omega))

theorem sliderTerm_in (hs : p.attribs.sliders > 0) :
    In 0 (2 ^ 98) ((lit 1 -. p.attribs.sliderFactor) *.
        GoLibm.pow (lit 1 -. clampF64 (ofInt (minI (p.countOk + p.countMeh + p.countMiss)
          (p.attribs.maxCombo - p.scoreMaxCombo))) (lit 0) (ofInt p.attribs.sliders *. lit 0.15) /.
            (ofInt p.attribs.sliders *. lit 0.15)) (lit 3) +. p.attribs.sliderFactor) := by
  have hest : In (1 / 8) (2 ^ 50) (ofInt p.attribs.sliders *. lit 0.15 : F64) :=
    (in_pos 50 (by norm_num) (by omega) hp.sliders).mul (in_lit (q := 0.15) (a := 1 / 8) (b := 1)
      (by have := nice_neg_pow 3 (by norm_num); norm_num at this ⊢; exact this) nice_one (by norm_num) (by norm_num)) (by norm_num) (by norm_num)
      (by have := nice_neg_pow 3 (by norm_num); norm_num at this ⊢; exact this) (nice_pow _ (by norm_num)) (by norm_num) (by norm_num)
  have hd : In 0 1 (clampF64 (ofInt (minI (p.countOk + p.countMeh + p.countMiss)
          (p.attribs.maxCombo - p.scoreMaxCombo))) (lit 0) (ofInt p.attribs.sliders *. lit 0.15) /.
            (ofInt p.attribs.sliders *. lit 0.15) : F64) := by
    have hn : In (-2 ^ 60) (2 ^ 60) (ofInt (minI (p.countOk + p.countMeh + p.countMiss)
          (p.attribs.maxCombo - p.scoreMaxCombo)) : F64) := by
      have h1 := hp.ok; have h2 := hp.meh; have h3 := hp.miss; have h4 := hp.maxCombo; have h5 := hp.combo
      refine in_ofInt (nice_pow 60 (by norm_num)).neg (nice_pow 60 (by norm_num)) ?_ ?_
      · have : -2 ^ 60 ≤ minI (p.countOk + p.countMeh + p.countMiss) (p.attribs.maxCombo - p.scoreMaxCombo) := by
          unfold minI; split <;> omega
        exact_mod_cast this
      · have : minI (p.countOk + p.countMeh + p.countMiss) (p.attribs.maxCombo - p.scoreMaxCombo) ≤ 2 ^ 60 := by
          unfold minI; split <;> omega
        exact_mod_cast this
    generalize hE : (ofInt p.attribs.sliders *. lit 0.15 : F64) = est at hest ⊢
    generalize hN : (ofInt (minI (p.countOk + p.countMeh + p.countMiss)
          (p.attribs.maxCombo - p.scoreMaxCombo)) : F64) = n at hn ⊢
    obtain ⟨w, t, rfl, w1, w2⟩ := hest
    have hw : 0 < w := by linarith
    have h1 := (lit_up (q := 0) 0 (by norm_num) le_rfl (by norm_num)).fmax hn
    have h2 := (show In (1 / 8) (2 ^ 50) (fin w t) from ⟨w, t, rfl, w1, w2⟩).fmin h1
    have h3 : In 0 (2 ^ 60) (clampF64 n (lit 0) (fin w t)) := h2.mono (by norm_num) (by norm_num)
    refine h3.div_le ⟨w, t, rfl, le_rfl, le_rfl⟩ hw ?_
    exact (fmin_spec (f := fmt64) (x := fin w t) (y := Go.fmax (lit 0) n) (by simp [NN]) h1.nn).1
  exact sliderNerf_in hp (pow_unit hl (one_sub_in hd) (lit_up (q := 3) 2 (by norm_num) (by norm_num) (by norm_num)))

omit hl hp in
theorem In.unit {x : F64} (h : In 0 1 x) : In 0 (2 ^ 0) x := by rw [pow_zero]; exact h

omit hl hp in
theorem od_bonus {c d : ℚ} {x : F64} (hx : In 0 (2 ^ 24) x) (hc0 : 0 ≤ c) (hc1 : c ≤ 1) (hd : 1 ≤ d) (hd' : d ≤ 2 ^ 12) :
    In 0 (2 ^ 25) (lit c +. x /. lit d : F64) :=
  (lit_up 24 (by norm_num) hc0 (hc1.trans (by norm_num))).addU
    (hx.div (in_lit (q := d) (a := 1) (b := 2 ^ 12) nice_one (nice_pow _ (by norm_num)) hd hd') le_rfl (by norm_num)
      (nice_pow _ (by norm_num)) (by norm_num)) (by norm_num)

theorem aim_in : In 0 (2 ^ 419) p.computeAimValue := by
  have hraw : In 0 (2 ^ 80) (if Modifier.active p.diff.mods Mod.TouchDevice then
      GoLibm.pow p.attribs.aim (lit 0.8) else p.attribs.aim : F64) := by
    split
    · exact pow_up hl 80 1 (by norm_num) (by norm_num) (by norm_num) hp.aim ((lit_unit (by norm_num) (by norm_num)).mono le_rfl (by norm_num))
    · exact hp.aim
  have hlb := (lengthBonus_in hl hp).up 4 le_rfl (by norm_num)
  have heff := in_nat 52 (by norm_num) hp.misses.1 (by have := hp.misses.2; have := hp.total.2; omega)
  unfold PPv2.computeAimValue
  simp only
  refine In.mulU (k := 394) (l := 25) ?_ (od_bonus (odSquare_in hl hp) (by norm_num) (by norm_num) (by norm_num) (by norm_num)) (by norm_num)
  refine In.mulU (k := 394) (l := 0) ?_ hp.accuracy.unit (by norm_num)
  refine mul_opt (k := 296) (l := 98) ?_ (fun h => sliderTerm_in hl hp h) (by norm_num)
  refine mul_opt (k := 283) (l := 13) ?_ (fun _ => hidden_in hp) (by norm_num)
  refine In.mulU (k := 265) (l := 18) ?_ (arBonus_in hl hp (arFactor_in hp)) (by norm_num)
  refine mul_opt (k := 265) (l := 0) ?_ (fun _ => (comboScaling_in hl hp).unit) (by norm_num)
  refine mul_opt (k := 265) (l := 0) ?_ (fun h => (missPenalty_in hl hp h heff).unit) (by norm_num)
  exact In.mulU (k := 261) (l := 4) (ppBase_in hl hraw) hlb (by norm_num)

theorem missExp_in : In 0 (2 ^ 52) (GoLibm.pow (ofInt p.effectiveMissCount) (lit 0.875) : F64) :=
  pow_up hl 52 1 (by norm_num) (by norm_num) (by norm_num)
    (in_nat 52 (by norm_num) hp.misses.1 (by have := hp.misses.2; have := hp.total.2; omega))
    ((lit_unit (by norm_num) (by norm_num)).mono le_rfl (by norm_num))

theorem speed_in : In 0 (2 ^ 419) p.computeSpeedValue := by
  have hlb := (lengthBonus_in hl hp).up 4 le_rfl (by norm_num)
  have harf : In 0 (2 ^ 13) (if p.diff.arReal >. lit 10.33 then lit 0.3 *. (p.diff.arReal -. lit 10.33) else lit 0) := by
    have := arFactor_in hp
    split
    · rename_i h; rw [if_pos h] at this; exact this
    · exact lit_up 13 (by norm_num) le_rfl (by norm_num)
  have hexp : In 0 8 ((lit 14.5 -. fmax p.diff.odReal (lit 8)) /. lit 2) := by
    have h1 : In 8 14 (fmax p.diff.odReal (lit 8)) :=
      (hp.od.fmax (in_lit (q := 8) (a := 8) (b := 8) (by exact nice_nat 8 (by norm_num)) (by exact nice_nat 8 (by norm_num)) le_rfl le_rfl)).mono
        (by norm_num) (by norm_num)
    have h2 : In 0 8 (lit 14.5 -. fmax p.diff.odReal (lit 8)) :=
      (in_lit (q := 14.5) (a := 14) (b := 15) (by exact nice_nat 14 (by norm_num)) (by exact nice_nat 15 (by norm_num)) (by norm_num) (by norm_num)).sub h1
        nice_zero (by exact nice_nat 8 (by norm_num)) (by norm_num) (by norm_num)
    exact h2.div (in_lit (q := 2) (a := 1) (b := 2) nice_one (by exact nice_nat 2 (by norm_num)) (by norm_num) le_rfl) le_rfl (by norm_num)
      (by exact nice_nat 8 (by norm_num)) (by norm_num)
  have hmeh : In 0 (2 ^ 53) (if (ofInt p.countMeh : F64) >=. ofInt p.totalHits /. lit 500 then
      ofInt p.countMeh -. ofInt p.totalHits /. lit 500 else lit 0) := by
    split
    · rename_i h
      have h1 : In 0 (2 ^ 52) (ofInt p.countMeh : F64) :=
        in_nat 52 (by norm_num) hp.meh (by have := hp.hits; have := hp.total.2; have := hp.great; have := hp.ok; omega)
      have h2 : In 0 (2 ^ 52) (ofInt p.totalHits /. lit 500 : F64) :=
        (in_nat 52 (by norm_num) hp.total.1 hp.total.2).div (in_lit (q := 500) (a := 1) (b := 500) nice_one
          (by exact nice_nat 500 (by norm_num)) (by norm_num) le_rfl) le_rfl (by norm_num) (nice_pow _ (by norm_num)) (by norm_num)
      obtain ⟨v, z, e, v1, v2⟩ := h1
      obtain ⟨w, t, e', w1, w2⟩ := h2
      rw [e, e'] at h ⊢
      have hle : w ≤ v := by simpa [go_le, Fl.le] using h
      exact in_ofRat _ nice_zero (nice_pow _ (by norm_num)) (by linarith) (by linarith)
    · exact lit_up 53 (by norm_num) le_rfl (by norm_num)
  unfold PPv2.computeSpeedValue
  simp only
  refine In.mono (b := 2 ^ 321) ?_ le_rfl (pow_le_pow_right₀ (by norm_num) (by norm_num))
  refine In.mulU (k := 321) (l := 0) ?_ (pow_unit hl (lit_unit (q := 0.98) (by norm_num) (by norm_num)) hmeh).unit (by norm_num)
  refine In.mulU (k := 296) (l := 25) ?_ ?_ (by norm_num)
  · refine mul_opt (k := 283) (l := 13) ?_ (fun _ => hidden_in hp) (by norm_num)
    refine In.mulU (k := 265) (l := 18) ?_ (arBonus_in hl hp harf) (by norm_num)
    refine mul_opt (k := 265) (l := 0) ?_ (fun _ => (comboScaling_in hl hp).unit) (by norm_num)
    refine mul_opt (k := 265) (l := 0) ?_ (fun h => (missPenalty_in hl hp h (missExp_in hl hp)).unit) (by norm_num)
    exact In.mulU (k := 261) (l := 4) (ppBase_in hl hp.speed) hlb (by norm_num)
  · exact In.mulU (k := 25) (l := 0) (od_bonus (odSquare_in hl hp) (by norm_num) (by norm_num) (by norm_num) (by norm_num))
      (pow_unit hl hp.accuracy hexp).unit (by norm_num)

omit hl in
theorem better_in (hA : p.amountHitObjectsWithAccuracy > 0) :
    ∃ v z, (ofInt ((p.countGreat - (p.totalHits - p.amountHitObjectsWithAccuracy)) * 6 +
          p.countOk * 2 + p.countMeh) /. (ofInt p.amountHitObjectsWithAccuracy *. lit 6) : F64) = fin v z ∧ v ≤ 1 := by
  obtain ⟨hA0, hA1⟩ := hp.amount
  have h1 := hp.great; have h2 := hp.ok; have h3 := hp.meh; have h4 := hp.hits; have h5 := hp.total
  generalize hA' : p.amountHitObjectsWithAccuracy = A at *
  generalize hN : (p.countGreat - (p.totalHits - A)) * 6 + p.countOk * 2 + p.countMeh = n
  have hn1 : n ≤ 6 * A := by omega
  have hn0 : -2 ^ 60 ≤ n := by omega
  have hden : In 1 (2 ^ 53) (ofInt A *. lit 6 : F64) :=
    (in_pos 50 (by norm_num) hA hA1).mul (in_lit (q := 6) (a := 6) (b := 6) (by exact nice_nat 6 (by norm_num)) (by exact nice_nat 6 (by norm_num)) le_rfl le_rfl)
      (by norm_num) (by norm_num) nice_one (nice_pow _ (by norm_num)) (by norm_num) (by norm_num)
  have hdv : In (6 * A) (6 * A) (ofInt A *. lit 6 : F64) := by
    have nA : Nice (A : ℚ) := nice_int (by rw [abs_of_nonneg hA0]; omega)
    have n6 : Nice (6 * A : ℚ) := by
      have := nice_int (n := 6 * A) (by rw [abs_of_nonneg (by omega)]; omega)
      push_cast at this; exact this
    have hA0' : (0 : ℚ) ≤ A := by exact_mod_cast hA0
    exact (in_ofInt nA nA le_rfl le_rfl).mul (in_lit (q := 6) (a := 6) (b := 6) (by exact nice_nat 6 (by norm_num)) (by exact nice_nat 6 (by norm_num)) le_rfl le_rfl)
      hA0' (by norm_num) n6 n6 (by rw [_root_.mul_comm]) (by rw [_root_.mul_comm])
  have hApos : (0 : ℚ) < 6 * A := by have : (0 : ℚ) < A := by exact_mod_cast hA
                                     linarith
  obtain ⟨w, t, e, w1, w2⟩ := hdv
  have hw : w = 6 * A := le_antisymm w2 w1
  rw [e]
  have n6 : Nice (6 * A : ℚ) := by
    have := nice_int (n := 6 * A) (by rw [abs_of_nonneg (by omega)]; omega)
    push_cast at this; exact this
  obtain ⟨v, z, e', v1, v2⟩ := in_ofInt (n := n) (a := -2 ^ 60) (b := 6 * A) (nice_pow 60 (by norm_num)).neg n6
    (by exact_mod_cast hn0) (by exact_mod_cast hn1)
  rw [e']
  have hA1' : (1 : ℚ) ≤ A := by exact_mod_cast hA
  have : In (-2 ^ 60) 1 (Fl.div (fin v z : F64) (fin w t)) := by
    unfold Fl.div
    simp only
    rw [if_neg (by rw [hw]; exact hApos.ne')]
    refine in_ofRat _ (nice_pow 60 (by norm_num)).neg nice_one ?_ ?_
    · rw [le_div_iff₀ (by rw [hw]; exact hApos), hw]; nlinarith
    · rw [div_le_iff₀ (by rw [hw]; exact hApos), hw]; linarith
  obtain ⟨u, s, hu, -, u2⟩ := this
  exact ⟨u, s, hu, u2⟩

omit hl hp in
theorem clip_in {x : F64} (h : ∃ v z, x = fin v z ∧ v ≤ 1) : In 0 1 (if x <. lit 0 then lit 0 else x) := by
  obtain ⟨v, z, rfl, hv⟩ := h
  have e : (lit 0 : F64) = fin 0 false := by rw [go_lit]; exact ofRat_zero _
  split
  · exact lit_unit le_rfl (by norm_num)
  · rename_i hlt
    rw [e] at hlt
    have : 0 ≤ v := by simpa [go_lt, Fl.lt] using hlt
    exact ⟨v, z, rfl, this, hv⟩

theorem acc_in : In 0 (2 ^ 419) p.computeAccuracyValue := by
  unfold PPv2.computeAccuracyValue
  split
  · exact lit_unit le_rfl (by norm_num) |>.up 419 le_rfl (one_le_pow₀ (by norm_num))
  have hb : In 0 1 (
      let better : F64 := if p.amountHitObjectsWithAccuracy > 0 then
        ofInt ((p.countGreat - (p.totalHits - p.amountHitObjectsWithAccuracy)) * 6 +
          p.countOk * 2 + p.countMeh) /. (ofInt p.amountHitObjectsWithAccuracy *. lit 6)
      else lit 0
      if better <. lit 0 then lit 0 else better) := by
    simp only
    apply clip_in
    split
    · rename_i h; exact better_in hp h
    · exact ⟨0, false, by rw [go_lit]; exact ofRat_zero _, by norm_num⟩
  simp only at hb ⊢
  refine In.mono (b := 2 ^ 19) ?_ le_rfl (pow_le_pow_right₀ (by norm_num) (by norm_num))
  refine mul_opt (k := 18) (l := 1) ?_ (fun _ => lit_up 1 (by norm_num) (by norm_num) (by norm_num)) (by norm_num)
  refine mul_opt (k := 17) (l := 1) ?_ (fun _ => lit_up 1 (by norm_num) (by norm_num) (by norm_num)) (by norm_num)
  refine In.mulU (k := 16) (l := 1) ?_ ?_ (by norm_num)
  · refine In.mulU (k := 14) (l := 2) ?_ (lit_up 2 (by norm_num) (by norm_num) (by norm_num)) (by norm_num)
    refine In.mulU (k := 14) (l := 0) ?_ (pow_unit hl hb (lit_up (q := 24) 5 (by norm_num) (by norm_num) (by norm_num))).unit (by norm_num)
    exact pow_large hl (k := 1) (m := 14) (by norm_num) (by norm_num) (by norm_num)
      (in_lit (q := 1.52163) nice_one (nice_pow 1 (by norm_num)) (by norm_num) (by norm_num)) (hp.od.mono le_rfl (by norm_num))
  · have h1 : In 0 (2 ^ 50) (ofInt p.amountHitObjectsWithAccuracy /. lit 1000 : F64) :=
      (in_nat 50 (by norm_num) hp.amount.1 hp.amount.2).div (in_lit (q := 1000) (a := 1) (b := 1000) nice_one
          (by exact nice_nat 1000 (by norm_num)) (by norm_num) le_rfl) le_rfl (by norm_num) (nice_pow _ (by norm_num)) (by norm_num)
    have h2 := pow_up hl 50 1 (by norm_num) (by norm_num) (by norm_num) h1 ((lit_unit (q := 0.3) (by norm_num) (by norm_num)).mono le_rfl (by norm_num))
    exact ((lit_up (q := 1.15) 1 (by norm_num) (by norm_num) (by norm_num)).fmin h2).mono (by norm_num) (by norm_num)

theorem flashlight_in : In 0 (2 ^ 419) p.computeFlashlightValue := by
  unfold PPv2.computeFlashlightValue
  split
  · exact lit_unit le_rfl (by norm_num) |>.up 419 le_rfl (one_le_pow₀ (by norm_num))
  have hraw : In 0 (2 ^ 104) (if p.diff.checkModActive Mod.TouchDevice then
      GoLibm.pow p.attribs.flashlight (lit 0.8) else p.attribs.flashlight : F64) := by
    split
    · exact pow_up hl 104 1 (by norm_num) (by norm_num) (by norm_num) hp.flashlight ((lit_unit (by norm_num) (by norm_num)).mono le_rfl (by norm_num))
    · exact hp.flashlight
  have hfrac : ∀ n : ℤ, 0 ≤ n → n ≤ 2 ^ 52 → In 0 1 (fmin (lit 1) (ofInt n /. lit 200) : F64) := by
    intro n h0 h1
    have h2 : In 0 (2 ^ 52) (ofInt n /. lit 200 : F64) :=
      (in_nat 52 (by norm_num) h0 h1).div (in_lit (q := 200) (a := 1) (b := 200) nice_one
          (by exact nice_nat 200 (by norm_num)) (by norm_num) le_rfl) le_rfl (by norm_num) (nice_pow _ (by norm_num)) (by norm_num)
    exact ((in_lit (q := 1) nice_one nice_one le_rfl le_rfl).fmin h2).mono (by norm_num) (by norm_num)
  have h1 : In 0 (2 ^ 1) (lit 0.7 +. lit 0.1 *. fmin (lit 1) (ofInt p.totalHits /. lit 200) : F64) :=
    (lit_unit (q := 0.7) (by norm_num) (by norm_num)).unit.addU
      ((lit_unit (q := 0.1) (by norm_num) (by norm_num)).unit_mul (hfrac _ hp.total.1 hp.total.2)).unit (by norm_num)
  have hscale : In 0 (2 ^ 2) (if p.totalHits > 200 then
      (lit 0.7 +. lit 0.1 *. fmin (lit 1) (ofInt p.totalHits /. lit 200)) +.
        lit 0.2 *. fmin (lit 1) (ofInt (p.totalHits - 200) /. lit 200)
      else lit 0.7 +. lit 0.1 *. fmin (lit 1) (ofInt p.totalHits /. lit 200) : F64) := by
    split
    · refine h1.addU (((lit_unit (q := 0.2) (by norm_num) (by norm_num)).unit_mul
        (hfrac _ (by omega) (by have := hp.total.2; omega))).up 1 le_rfl (by norm_num)) (by norm_num)
    · exact h1.mono le_rfl (by norm_num)
  have hacc : In 0 (2 ^ 1) (lit 0.5 +. p.accuracy /. lit 2 : F64) :=
    (lit_unit (q := 0.5) (by norm_num) (by norm_num)).unit.addU
      ((hp.accuracy.div (in_lit (q := 2) (a := 1) (b := 2) nice_one (by exact nice_nat 2 (by norm_num)) (by norm_num) le_rfl) le_rfl (by norm_num)
        nice_one (by norm_num)).unit) (by norm_num)
  simp only
  refine In.mono (b := 2 ^ 242) ?_ le_rfl (pow_le_pow_right₀ (by norm_num) (by norm_num))
  refine In.mulU (k := 217) (l := 25) ?_ (od_bonus (odSquare_in hl hp) (by norm_num) (by norm_num) (by norm_num) (by norm_num)) (by norm_num)
  refine In.mulU (k := 216) (l := 1) ?_ hacc (by norm_num)
  refine In.mulU (k := 214) (l := 2) ?_ hscale (by norm_num)
  refine mul_opt (k := 214) (l := 0) ?_ (fun _ => (comboScaling_in hl hp).unit) (by norm_num)
  refine mul_opt (k := 214) (l := 0) ?_ (fun h => (missPenalty_in hl hp h (missExp_in hl hp)).unit) (by norm_num)
  refine mul_opt (k := 213) (l := 1) ?_ (fun _ => lit_up 1 (by norm_num) (by norm_num) (by norm_num)) (by norm_num)
  exact In.mulU (k := 208) (l := 5) (pow_sq hl 104 (by norm_num) (hraw.mono (by norm_num) le_rfl))
    (lit_up 5 (by norm_num) (by norm_num) (by norm_num)) (by norm_num)

theorem multiplier_in : In 0 (2 ^ 1) p.finalMultiplier := by
  unfold PPv2.finalMultiplier
  simp only
  refine mul_opt (k := 1) (l := 0) ?_ (fun _ => (lit_unit (by norm_num) (by norm_num)).unit) (by norm_num)
  refine mul_opt (k := 1) (l := 0) ?_ (fun h => ?_) (by norm_num)
  · refine mul_opt (k := 1) (l := 0) (lit_up 1 (by norm_num) (by norm_num) (by norm_num)) (fun _ => ?_) (by norm_num)
    have heff := in_nat 52 (by norm_num) hp.misses.1 (by have := hp.misses.2; have := hp.total.2; omega)
    have h1 := (lit_unit (q := 0.02) (by norm_num) (by norm_num)).unit.mulU heff (by norm_num)
    have h2 : In (-2 ^ 52) 1 (lit 1 -. lit 0.02 *. ofInt p.effectiveMissCount : F64) :=
      (in_lit (q := 1) nice_one nice_one le_rfl le_rfl).sub h1 (nice_pow 52 (by norm_num)).neg nice_one (by norm_num) (by norm_num)
    exact ((lit_unit (q := 0.9) (by norm_num) (by norm_num)).fmax h2).mono (by norm_num) (by norm_num)
  · have h1 : In 0 1 (ofInt p.attribs.spinners /. ofInt p.totalHits : F64) :=
      (in_nat 52 (by norm_num) hp.spinners.1 (by have := hp.spinners.2 h.2 h.1; have := hp.total.2; omega)).div_le
        (in_pos 52 (by norm_num) (by have := h.1; omega) hp.total.2) (by norm_num) (ofInt_le (hp.spinners.2 h.2 h.1))
    exact (one_sub_in (pow_unit hl h1 (lit_unit (q := 0.85) (by norm_num) (by norm_num)))).unit

omit hp in
theorem total_in {a s c f m : F64} (ha : In 0 (2 ^ 419) a) (hs : In 0 (2 ^ 419) s) (hc : In 0 (2 ^ 419) c)
    (hf : In 0 (2 ^ 419) f) (hm : In 0 (2 ^ 1) m) : In 0 (2 ^ 842) (PPv2.total a s c f m) := by
  have hy : In 0 ((2 : ℕ) : ℚ) (lit 1.1 : F64) := (lit_up (q := 1.1) 1 (by norm_num) (by norm_num) (by norm_num)).mono le_rfl (by norm_num)
  have h : ∀ x : F64, In 0 (2 ^ 419) x → In 0 (2 ^ 838) (GoLibm.pow x (lit 1.1) : F64) := fun x hx =>
    pow_up hl 419 2 (by norm_num) (by norm_num) (by norm_num) hx hy
  have up : ∀ (x : F64) (k l : ℕ), k ≤ l → In 0 (2 ^ k) x → In 0 (2 ^ l) x := fun x k l hkl hx =>
    hx.mono le_rfl (pow_le_pow_right₀ (by norm_num) hkl)
  unfold PPv2.total
  refine In.mulU (k := 841) (l := 1) ?_ hm (by norm_num)
  refine pow_up hl 841 1 (by norm_num) (by norm_num) (by norm_num) ?_ ((lit_unit (by norm_num) (by norm_num)).mono le_rfl (by norm_num))
  refine In.addU (k := 840) ?_ (up _ _ _ (by norm_num) (h f hf)) (by norm_num)
  refine In.addU (k := 839) ?_ (up _ _ _ (by norm_num) (h c hc)) (by norm_num)
  exact In.addU (k := 838) (h a ha) (h s hs) (by norm_num)

end
end GosuPP
