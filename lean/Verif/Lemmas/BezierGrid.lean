import Verif.Lemmas.BezierLength

/-! Bezier curves through whole points in float32: all points are multiples of a power of two. -/

namespace GosuPP
open Go Fl Approximator
open GosuPP.Fl (NN0)

/-- A multiple of `2 ^ -e`. -/
def OnGrid (e : ℕ) (q : ℚ) : Prop := ∃ m : ℤ, q = m * pow2 (-(e : ℤ))

theorem OnGrid.mono {e e' : ℕ} {q : ℚ} (h : OnGrid e q) (he : e ≤ e') : OnGrid e' q := by
  obtain ⟨m, rfl⟩ := h
  refine ⟨m * 2 ^ (e' - e), ?_⟩
  have : pow2 (-(e : ℤ)) = 2 ^ (e' - e) * pow2 (-(e' : ℤ)) := by
    rw [← pow2_nat, ← pow2_add]
    congr 1
    omega
  rw [this]
  push_cast
  ring

theorem OnGrid.add {e : ℕ} {a b : ℚ} (ha : OnGrid e a) (hb : OnGrid e b) : OnGrid e (a + b) := by
  obtain ⟨m, rfl⟩ := ha
  obtain ⟨n, rfl⟩ := hb
  exact ⟨m + n, by push_cast; ring⟩

theorem OnGrid.neg {e : ℕ} {a : ℚ} (ha : OnGrid e a) : OnGrid e (-a) := by
  obtain ⟨m, rfl⟩ := ha
  exact ⟨-m, by push_cast; ring⟩

theorem OnGrid.half {e : ℕ} {a : ℚ} (ha : OnGrid e a) (n : ℕ) : OnGrid (e + n) (a * pow2 (-(n : ℤ))) := by
  obtain ⟨m, rfl⟩ := ha
  refine ⟨m, ?_⟩
  rw [_root_.mul_assoc, ← pow2_add]
  congr 2
  push_cast
  ring

theorem OnGrid.rndPos {f : Fmt} {e : ℕ} {q : ℚ} (h : OnGrid e q) : OnGrid e (Go.rndPos f q) := by
  obtain ⟨m, rfl⟩ := h
  unfold Go.rndPos
  simp only
  generalize ulpExp f _ = u
  rcases _root_.le_total (-(e : ℤ)) u with hu | hu
  · obtain ⟨d, hd⟩ := Int.eq_ofNat_of_zero_le (show 0 ≤ u + e by omega)
    have : pow2 u = 2 ^ d * pow2 (-(e : ℤ)) := by
      rw [← pow2_nat, ← pow2_add]
      congr 1
      omega
    refine ⟨roundEven (m * pow2 (-(e : ℤ)) / pow2 u) * 2 ^ d, ?_⟩
    rw [this]
    push_cast
    ring
  · obtain ⟨d, hd⟩ := Int.eq_ofNat_of_zero_le (show 0 ≤ -(e : ℤ) - u by omega)
    have h1 : pow2 (-(e : ℤ)) = 2 ^ d * pow2 u := by
      rw [← pow2_nat, ← pow2_add]
      congr 1
      omega
    have h2 : (m * pow2 (-(e : ℤ)) / pow2 u : ℚ) = ((m * 2 ^ d : ℤ) : ℚ) := by
      rw [h1]
      have := (pow2_pos u).ne'
      push_cast
      field_simp
    refine ⟨m, ?_⟩
    rw [h2, roundEven_int, ← h2, div_mul_cancel₀ _ (pow2_pos u).ne']

/-- Rounding keeps multiples of a power of two. -/
theorem OnGrid.rnd {f : Fmt} {e : ℕ} {q : ℚ} (h : OnGrid e q) : OnGrid e (Go.rnd f q) := by
  unfold Go.rnd
  split
  · exact ⟨0, by simp⟩
  · split
    · exact h.neg.rndPos.neg
    · exact h.rndPos

/-- A finite number is a multiple of `2 ^ -e`. -/
def GridF (e : ℕ) (x : F32) : Prop := ∀ v z, x = fin v z → OnGrid e v

def VGrid (e : ℕ) (p : Vec F32) : Prop := GridF e p.x ∧ GridF e p.y

theorem GridF.mono {e e' : ℕ} {x : F32} (h : GridF e x) (he : e ≤ e') : GridF e' x := fun v z hx => (h v z hx).mono he

theorem VGrid.mono {e e' : ℕ} {p : Vec F32} (h : VGrid e p) (he : e ≤ e') : VGrid e' p := ⟨h.1.mono he, h.2.mono he⟩

theorem GridF.add {e : ℕ} {x y : F32} (hx : GridF e x) (hy : GridF e y) : GridF e (x +. y) := by
  intro v z h
  cases x with
  | fin a za =>
    cases y with
    | fin b zb =>
      rw [ofRat_fin_eq (show ofRat fmt32 (a + b) _ = fin v z from h)]
      exact ((hx a za rfl).add (hy b zb rfl)).rnd
    | inf s => cases (show (inf s : F32) = fin v z from h)
    | nan => cases (show (nan : F32) = fin v z from h)
  | inf s =>
    cases y with
    | fin b zb => cases (show (inf s : F32) = fin v z from h)
    | inf t =>
      have : (if s = t then inf s else nan : F32) = fin v z := h
      split at this <;> cases this
    | nan => cases (show (nan : F32) = fin v z from h)
  | nan => cases (show (nan : F32) = fin v z from h)

theorem GridF.scale {e n : ℕ} {x : F32} {c : ℚ} {zc : Bool} (hx : GridF e x) (hc : ∀ a, OnGrid e a → OnGrid n (a * c)) :
    GridF n (x *. fin c zc) := by
  intro v z h
  cases x with
  | fin a za =>
    rw [ofRat_fin_eq (show ofRat fmt32 (a * c) _ = fin v z from h)]
    exact (hc a (hx a za rfl)).rnd
  | inf s =>
    have : (if c = 0 then nan else inf (Bool.xor s (signbit (fin c zc : F32))) : F32) = fin v z := h
    split at this <;> cases this
  | nan => cases (show (nan : F32) = fin v z from h)

theorem pow2_half : pow2 (-((1 : ℕ) : ℤ)) = 1 / 2 := by rw [pow2_eq]; norm_num

theorem pow2_quarter : pow2 (-((2 : ℕ) : ℤ)) = 1 / 4 := by rw [pow2_eq]; norm_num

theorem mid_grid {e : ℕ} {a b : F32} (ha : GridF e a) (hb : GridF e b) : GridF (e + 1) ((a +. b) *. lit 0.5) := by
  rw [half_lit]
  exact (ha.add hb).scale fun q hq => by have := hq.half 1; rwa [pow2_half] at this

theorem average_grid {e : ℕ} {a b c : F32} (ha : GridF e a) (hb : GridF e b) (hc : GridF e c) :
    GridF (e + 2) (((a +. b *. lit 2) +. c) *. lit 0.25) := by
  rw [two_lit32, quarter_lit32]
  refine GridF.scale (e := e) ((ha.add (hb.scale (n := e) fun q hq => ?_)).add hc) fun q hq => by
    have := hq.half 2; rwa [pow2_quarter] at this
  have := hq.add hq
  rwa [← two_mul, _root_.mul_comm] at this

theorem zero_grid (e : ℕ) : VGrid e (Vec.zero : Vec F32) := by
  have : GridF e (lit 0 : F32) := by
    intro v z h
    rw [show (lit 0 : F32) = fin 0 false from ofRat_zero _] at h
    cases h
    exact ⟨0, by simp⟩
  exact ⟨this, this⟩

/-- All points are multiples of `2 ^ -e`. -/
def AllGrid (e : ℕ) (cps : List (Vec F32)) : Prop := ∀ p ∈ cps, VGrid e p

theorem AllGrid.getD {e : ℕ} {cps : List (Vec F32)} (h : AllGrid e cps) (j : ℕ) : VGrid e (cps.getD j Vec.zero) := by
  rw [List.getD_eq_getElem?_getD]
  cases hj : cps[j]? with
  | none => exact zero_grid e
  | some p => exact h p (List.mem_of_getElem? hj)

theorem triangle_grid {e : ℕ} {cps : List (Vec F32)} (h : AllGrid e cps) (i : ℕ) : ∀ j, VGrid (e + i) (Spec.triangle cps i j) := by
  induction i with
  | zero => intro j; exact h.getD j
  | succ i ih =>
    intro j
    exact ⟨mid_grid (ih j).1 (ih (j + 1)).1, mid_grid (ih j).2 (ih (j + 1)).2⟩

theorem leftHalf_grid {e : ℕ} {cps : List (Vec F32)} (h : AllGrid e cps) : AllGrid (e + (cps.length - 1)) (Spec.leftHalf cps) := by
  intro p hp
  simp only [Spec.leftHalf, List.mem_map, List.mem_range] at hp
  obtain ⟨i, hi, rfl⟩ := hp
  exact (triangle_grid h i 0).mono (by omega)

theorem rightHalf_grid {e : ℕ} {cps : List (Vec F32)} (h : AllGrid e cps) : AllGrid (e + (cps.length - 1)) (Spec.rightHalf cps) := by
  intro p hp
  simp only [Spec.rightHalf, List.mem_map, List.mem_range] at hp
  obtain ⟨i, hi, rfl⟩ := hp
  exact (triangle_grid h _ i).mono (by omega)

theorem pieces_grid {e : ℕ} {cps : List (Vec F32)} (h : AllGrid e cps) : AllGrid (e + (cps.length - 1) + 2) (Spec.pieces cps) := by
  intro p hp
  unfold Spec.pieces at hp
  simp only [List.mem_append, List.mem_map] at hp
  rcases hp with hp | ⟨i, -, rfl⟩
  · exact (h p (List.mem_of_mem_take hp)).mono (by omega)
  · have m : AllGrid (e + (cps.length - 1)) (Spec.leftHalf cps ++ (Spec.rightHalf cps).tail) := by
      intro q hq
      rcases List.mem_append.mp hq with h1 | h1
      · exact leftHalf_grid h q h1
      · exact rightHalf_grid h q (List.mem_of_mem_tail h1)
    have a1 := m.getD (2 * i + 1)
    have a2 := m.getD (2 * i + 2)
    have a3 := m.getD (2 * i + 3)
    exact ⟨average_grid a1.1 a2.1 a3.1, average_grid a1.2 a2.2 a3.2⟩

theorem flattens_grid {k n : ℕ} (hk : k ≤ 17) (hn : n * 2 ^ k ≤ 2 ^ 21) (d : ℕ) :
    ∀ e (cps l : List (Vec F32)), cps.length = n → AllIn k cps → SmallDD (ddBound k n d) cps → AllGrid e cps → Spec.Flattens cps l →
      AllGrid (e + (d + 1) * (n - 1) + 2) l := by
  have in17 : ∀ cps : List (Vec F32), AllIn k cps → AllIn 17 cps := by
    intro cps h p hp
    exact ⟨(h p hp).1.mono (by omega), (h p hp).2.mono (by omega)⟩
  induction d with
  | zero =>
    intro e cps l hl hin h hg hf
    cases hf with
    | flat _ =>
      intro p hp
      exact (pieces_grid hg p hp).mono (by rw [hl]; omega)
    | split hf _ _ =>
      exfalso
      apply hf
      have hb := ddBound_zero hn
      exact flat_of_smallDD (in17 _ hin) fun i hi => ⟨(h i hi).1.trans hb, (h i hi).2.trans hb⟩
  | succ d ih =>
    intro e cps l hl hin h hg hf
    cases hf with
    | flat _ =>
      intro p hp
      refine (pieces_grid hg p hp).mono ?_
      rw [hl]
      have : 1 * (n - 1) ≤ (d + 1 + 1) * (n - 1) := Nat.mul_le_mul_right _ (by omega)
      omega
    | @split _ l r hf fl fr =>
      obtain ⟨h1, h2⟩ := smallDD_halves (by omega : k ≤ 100) hin h
      have e' : ddBound k n (d + 1) / 4 + (2 ^ k / 2 ^ 24 + 1 / 2 ^ 140) * cps.length = ddBound k n d := by
        unfold ddBound
        rw [hl, pow_succ]
        ring
      rw [e'] at h1 h2
      have i1 := ih _ _ _ (by rw [leftHalf_length, hl]) (leftHalf_in (by omega) hin) h1 (leftHalf_grid hg) fl
      have i2 := ih _ _ _ (by rw [rightHalf_length, hl]) (rightHalf_in (by omega) hin) h2 (rightHalf_grid hg) fr
      have ee : e + (cps.length - 1) + (d + 1) * (n - 1) + 2 = e + (d + 1 + 1) * (n - 1) + 2 := by rw [hl]; ring
      rw [ee] at i1 i2
      intro p hp
      rcases List.mem_append.mp hp with h | h
      · exact i1 p h
      · exact i2 p h

/-- Different multiples are apart. -/
theorem line_grid {k : ℕ} (hk : k ≤ 17) {l : Linear F32} (h1 : VBd k l.p1) (h2 : VBd k l.p2) (g1 : VGrid 47 l.p1) (g2 : VGrid 47 l.p2) : NotTiny l := by
  have key : ∀ {a b : F32}, Bd k a → Bd k b → GridF 47 a → GridF 47 b → rv b ≠ rv a → 1 / 2 ^ 47 ≤ |rv b - rv a| := by
    rintro _ _ ⟨v, z, rfl, -⟩ ⟨w, y, rfl, -⟩ ga gb hne
    obtain ⟨m, rfl⟩ := ga _ _ rfl
    obtain ⟨n, rfl⟩ := gb _ _ rfl
    show 1 / 2 ^ 47 ≤ |(n : ℚ) * pow2 (-((47 : ℕ) : ℤ)) - m * pow2 (-((47 : ℕ) : ℤ))|
    have e : pow2 (-((47 : ℕ) : ℤ)) = 1 / 2 ^ 47 := by rw [pow2_eq, zpow_neg]; norm_num
    have hmn : n ≠ m := fun h => hne (by rw [h]; rfl)
    have : (1 : ℤ) ≤ |n - m| := Int.one_le_abs (sub_ne_zero.mpr hmn)
    have q : (1 : ℚ) ≤ |(n : ℚ) - m| := by exact_mod_cast this
    rw [e, ← sub_mul, abs_mul, abs_of_pos (by positivity : (0:ℚ) < 1 / 2 ^ 47)]
    linarith [mul_le_mul_of_nonneg_right q (by positivity : (0:ℚ) ≤ 1 / 2 ^ 47)]
  exact line_apart hk h1 h2 (key h1.1 h2.1 g1.1 g2.1) (key h1.2 h2.2 g1.2 g2.2)

end GosuPP
