import Verif.Lemmas.ArcIEEE
import Verif.Lemmas.BezierGrid

/-! Catmull sliders through whole points in IEEE arithmetic. -/

namespace GosuPP
open Go Fl MultiCurve

/-- The times of the points on a part and their powers: rounded, between zero and one, and multiples of `2 ^ -41`. -/
theorem times_table : ∀ i : Fin 51,
    let t := rnd fmt32 ((i.val : ℚ) / 50)
    let t2 := rnd fmt32 (t * t)
    let t3 := rnd fmt32 (t * t2)
    (0 ≤ t ∧ t ≤ 1 ∧ (t * 2 ^ 41).den = 1) ∧ (0 ≤ t2 ∧ t2 ≤ 1 ∧ (t2 * 2 ^ 41).den = 1) ∧ (0 ≤ t3 ∧ t3 ≤ 1 ∧ (t3 * 2 ^ 41).den = 1) := by
  decide +kernel

/-- A finite number of magnitude at most `N` that is a multiple of `2 ^ -41`. -/
def OnTime (N : ℕ) (x : F32) : Prop := ∃ v z, x = fin v z ∧ |v| ≤ N ∧ OnGrid 41 v

theorem ofRat_small {N : ℕ} (hN : N ≤ 2 ^ 24) {q : ℚ} (hq : |q| ≤ N) (z : Bool) : ∃ c, ofRat fmt32 q z = fin (rnd fmt32 q) c ∧ |rnd fmt32 q| ≤ N := by
  have h24 : (N : ℚ) ≤ 2 ^ 24 := by exact_mod_cast hN
  obtain ⟨c, hc⟩ := ofRat32_fin (hq.trans (h24.trans (by norm_num))) z
  have r : Rep fmt32 (N : ℚ) := rep32_nat hN
  refine ⟨c, hc, abs_le.mpr ⟨le_rnd r.neg (abs_le.mp hq).1, rnd_le r (abs_le.mp hq).2⟩⟩

namespace OnTime
variable {M N : ℕ} {x y : F32}

theorem add (hx : OnTime M x) (hy : OnTime N y) (h : M + N ≤ 2 ^ 24) : OnTime (M + N) (x +. y) := by
  obtain ⟨v, a, rfl, hv, gv⟩ := hx
  obtain ⟨w, b, rfl, hw, gw⟩ := hy
  obtain ⟨c, hc, hb⟩ := ofRat_small h (q := v + w) ((abs_add_le _ _).trans (by push_cast; linarith)) (signbit (fin v a : F32) && signbit (fin w b : F32))
  exact ⟨_, c, hc, hb, (gv.add gw).rnd⟩

theorem whole {n : ℤ} (hx : Wh x n) (h : |n| ≤ N) : OnTime N x := by
  obtain ⟨z, rfl⟩ := hx
  refine ⟨n, z, rfl, by exact_mod_cast h, n * 2 ^ 41, ?_⟩
  have e : pow2 (-((41 : ℕ) : ℤ)) = 1 / 2 ^ 41 := by rw [pow2_eq, zpow_neg]; norm_num
  rw [e]
  push_cast
  ring

/-- A whole number times a time. -/
theorem times {n : ℤ} {t : ℚ} {z : Bool} (hx : Wh x n) (h : |n| ≤ N) (hN : N ≤ 2 ^ 24) (t0 : 0 ≤ t) (t1 : t ≤ 1) (tg : (t * 2 ^ 41).den = 1) :
    OnTime N (x *. fin t z) := by
  obtain ⟨a, rfl⟩ := hx
  have hn : |(n : ℚ)| ≤ N := by exact_mod_cast h
  have hb : |(n : ℚ) * t| ≤ N := by
    rw [abs_mul, abs_of_nonneg t0]
    nlinarith [abs_nonneg (n : ℚ)]
  obtain ⟨c, hc, hr⟩ := ofRat_small hN hb (signbit (fin (n : ℚ) a : F32) ^^ signbit (fin t z : F32))
  refine ⟨_, c, hc, hr, OnGrid.rnd ⟨n * (t * 2 ^ 41).num, ?_⟩⟩
  have e : pow2 (-((41 : ℕ) : ℤ)) = 1 / 2 ^ 41 := by rw [pow2_eq, zpow_neg]; norm_num
  have e2 : ((t * 2 ^ 41).num : ℚ) = t * 2 ^ 41 := Rat.coe_int_num_of_den_eq_one tg
  rw [e]
  push_cast
  rw [e2]
  ring

end OnTime

theorem wh_lit (n : ℕ) (h : n ≤ 2 ^ 24) : Wh (lit (n : ℚ) : F32) n := by
  have := Wh.ofRat' (n := n) (by rw [abs_of_nonneg (by positivity)]; exact_mod_cast h) false
  push_cast at this
  exact this

/-- A coordinate of a point on a part through whole points. -/
theorem catmullCoord_whole {a b c d : F32} {x y z w : ℤ} (ha : Wh a x) (hb : Wh b y) (hc : Wh c z) (hd : Wh d w) (bx : |x| ≤ 1023)
    (by' : |y| ≤ 1023) (bz : |z| ≤ 1023) (bw : |w| ≤ 3069) {i : ℕ} (hi : i ≤ 50) :
    ∃ v s, catmullCoord a b c d (ofInt (i : ℤ) /. ofInt 50) = fin v s ∧ |v| ≤ 2 ^ 14 ∧ OnGrid 42 v := by
  obtain ⟨⟨t0, t1, tg⟩, ⟨s0, s1, sg⟩, ⟨r0, r1, rg⟩⟩ := times_table ⟨i, by omega⟩
  simp only at t0 t1 tg s0 s1 sg r0 r1 rg
  set t := rnd fmt32 ((i : ℚ) / 50) with ht
  set t2 := rnd fmt32 (t * t) with ht2
  set t3 := rnd fmt32 (t * t2) with ht3
  obtain ⟨zt, et⟩ : ∃ zt, (ofInt (i : ℤ) /. ofInt 50 : F32) = fin t zt := by
    have h1 : Wh (ofInt (i : ℤ) : F32) i := Wh.ofRat' (by rw [abs_of_nonneg (by positivity)]; exact_mod_cast hi.trans (by norm_num)) false
    have h2 : Wh (ofInt 50 : F32) 50 := Wh.ofRat' (n := 50) (by norm_num) false
    obtain ⟨p, e1⟩ := h1
    obtain ⟨q, e2⟩ := h2
    have hq : |((i : ℤ) : ℚ) / ((50 : ℤ) : ℚ)| ≤ (1 : ℕ) := by
      rw [abs_of_nonneg (by positivity)]
      have : (i : ℚ) ≤ 50 := by exact_mod_cast hi
      push_cast
      rw [div_le_one (by norm_num)]
      exact this
    obtain ⟨c, hc, -⟩ := ofRat_small (N := 1) (by norm_num) hq (signbit (fin ((i : ℤ) : ℚ) p : F32) ^^ signbit (fin ((50 : ℤ) : ℚ) q : F32))
    refine ⟨c, ?_⟩
    rw [e1, e2, ht]
    have h0 : ((50 : ℤ) : ℚ) ≠ 0 := by norm_num
    have : (fin ((i : ℤ) : ℚ) p /. fin ((50 : ℤ) : ℚ) q : F32) =
        ofRat fmt32 (((i : ℤ) : ℚ) / ((50 : ℤ) : ℚ)) (signbit (fin ((i : ℤ) : ℚ) p : F32) ^^ signbit (fin ((50 : ℤ) : ℚ) q : F32)) := by
      show Fl.div (fin ((i : ℤ) : ℚ) p : F32) (fin ((50 : ℤ) : ℚ) q) = _
      unfold Fl.div
      simp only [h0, if_false]
    rw [this, hc]
    push_cast
    rfl
  rw [et]
  obtain ⟨z2, e2⟩ : ∃ z2, (fin t zt *. fin t zt : F32) = fin t2 z2 := by
    obtain ⟨c, hc, -⟩ := ofRat_small (N := 1) (by norm_num) (q := t * t) (by rw [abs_of_nonneg (by positivity)]; push_cast; nlinarith) (signbit (fin t zt : F32) ^^ signbit (fin t zt : F32))
    exact ⟨c, hc⟩
  obtain ⟨z3, e3⟩ : ∃ z3, (fin t zt *. fin t2 z2 : F32) = fin t3 z3 := by
    obtain ⟨c, hc, -⟩ := ofRat_small (N := 1) (by norm_num) (q := t * t2) (by rw [abs_of_nonneg (by positivity)]; push_cast; nlinarith) (signbit (fin t zt : F32) ^^ signbit (fin t2 z2 : F32))
    exact ⟨c, hc⟩
  unfold catmullCoord
  simp only
  rw [e2, e3]
  have l2 : Wh (lit 2 : F32) 2 := wh_lit 2 (by norm_num)
  have l3 : Wh (lit 3 : F32) 3 := wh_lit 3 (by norm_num)
  have l4 : Wh (lit 4 : F32) 4 := wh_lit 4 (by norm_num)
  have l5 : Wh (lit 5 : F32) 5 := wh_lit 5 (by norm_num)
  rw [abs_le] at bx by' bz bw
  have T1 : OnTime 2046 (lit 2 *. b : F32) := OnTime.whole (l2.mul hb (by rw [abs_le]; omega)) (by rw [abs_le]; push_cast; omega)
  have T2 : OnTime 2046 ((fneg a +. c) *. fin t zt : F32) :=
    OnTime.times (Wh.add ha.neg hc (by rw [abs_le]; omega)) (by rw [abs_le]; push_cast; omega) (by norm_num) t0 t1 tg
  have T3 : OnTime 14322 ((lit 2 *. a -. lit 5 *. b +. lit 4 *. c -. d) *. fin t2 z2 : F32) :=
    OnTime.times ((((l2.mul ha (by rw [abs_le]; omega)).sub (l5.mul hb (by rw [abs_le]; omega)) (by rw [abs_le]; omega)).add
      (l4.mul hc (by rw [abs_le]; omega)) (by rw [abs_le]; omega)).sub hd (by rw [abs_le]; omega)) (by rw [abs_le]; push_cast; omega) (by norm_num) s0 s1 sg
  have T4 : OnTime 10230 ((fneg a +. lit 3 *. b -. lit 3 *. c +. d) *. fin t3 z3 : F32) :=
    OnTime.times (((Wh.add ha.neg (l3.mul hb (by rw [abs_le]; omega)) (by rw [abs_le]; omega)).sub (l3.mul hc (by rw [abs_le]; omega)) (by rw [abs_le]; omega)).add
      hd (by rw [abs_le]; omega)) (by rw [abs_le]; push_cast; omega) (by norm_num) r0 r1 rg
  obtain ⟨v, zv, hv, bv, gv⟩ := ((T1.add T2 (by norm_num)).add T3 (by norm_num)).add T4 (by norm_num)
  rw [hv, half_lit]
  have gh : OnGrid 42 (1 / 2 * v) := by
    have := gv.half 1
    rw [pow2_half] at this
    rwa [_root_.mul_comm]
  obtain ⟨c, hc, hr⟩ := ofRat_small (N := 14322) (by norm_num) (q := 1 / 2 * v) (by
    rw [abs_mul, abs_of_pos (by norm_num : (0:ℚ) < 1 / 2)]
    push_cast at bv ⊢
    linarith) (signbit (fin (1 / 2) false : F32) ^^ signbit (fin v zv : F32))
  exact ⟨_, c, hc, hr.trans (by norm_num), gh.rnd⟩

/-- A point with whole coordinates of at most 1023 in magnitude. -/
def WhPoint (p : Vec F32) : Prop := (∃ n : ℤ, Wh p.x n ∧ |n| ≤ 1023) ∧ ∃ n : ℤ, Wh p.y n ∧ |n| ≤ 1023

/-- A point on a part through whole points. -/
def CatmullEnd (p : Vec F32) : Prop := VBd 14 p ∧ VGrid 47 p

theorem catmullPoint_whole {a b c d : Vec F32} (ha : WhPoint a) (hb : WhPoint b) (hc : WhPoint c)
    (hd : (∃ n : ℤ, Wh d.x n ∧ |n| ≤ 3069) ∧ ∃ n : ℤ, Wh d.y n ∧ |n| ≤ 3069) {i : ℕ} (hi : i ≤ 50) :
    CatmullEnd (catmullPoint a b c d (ofInt (i : ℤ) /. ofInt 50)) := by
  obtain ⟨⟨_, ax, bax⟩, ⟨_, ay, bay⟩⟩ := ha
  obtain ⟨⟨_, bx, bbx⟩, ⟨_, by', bby⟩⟩ := hb
  obtain ⟨⟨_, cx, bcx⟩, ⟨_, cy, bcy⟩⟩ := hc
  obtain ⟨⟨_, dx, bdx⟩, ⟨_, dy, bdy⟩⟩ := hd
  obtain ⟨v, s, e, bv, gv⟩ := catmullCoord_whole ax bx cx dx bax bbx bcx bdx hi
  obtain ⟨w, r, e', bw, gw⟩ := catmullCoord_whole ay by' cy dy bay bby bcy bdy hi
  have e14 : pow2 14 = 2 ^ 14 := pow2_nat 14
  refine ⟨⟨⟨v, s, e, by rw [e14]; exact bv⟩, ⟨w, r, e', by rw [e14]; exact bw⟩⟩, fun q z h => ?_, fun q z h => ?_⟩
  · rw [show (catmullPoint a b c d (ofInt (i : ℤ) /. ofInt 50)).x = _ from e] at h
    cases h
    exact gv.mono (by norm_num)
  · rw [show (catmullPoint a b c d (ofInt (i : ℤ) /. ofInt 50)).y = _ from e'] at h
    cases h
    exact gw.mono (by norm_num)

theorem catmullLoop_ends {a b c d : Vec F32} (ha : WhPoint a) (hb : WhPoint b) (hc : WhPoint c)
    (hd : (∃ n : ℤ, Wh d.x n ∧ |n| ≤ 3069) ∧ ∃ n : ℤ, Wh d.y n ∧ |n| ≤ 3069) (k : ℕ) : ∀ i : ℕ, i + k ≤ 50 →
    (catmullLoop a b c d 50 k i).length = k ∧ ∀ l ∈ catmullLoop a b c d 50 k i, CatmullEnd l.p1 ∧ CatmullEnd l.p2 := by
  induction k with
  | zero => intro i _; exact ⟨rfl, fun l hl => by cases hl⟩
  | succ k ih =>
    intro i hi
    rw [catmullLoop]
    obtain ⟨h1, h2⟩ := ih (i + 1) (by omega)
    push_cast at h1 h2
    refine ⟨by rw [List.length_cons, h1], fun l hl => ?_⟩
    rcases List.mem_cons.mp hl with rfl | hl
    · have := catmullPoint_whole ha hb hc hd (i := i + 1) (by omega)
      push_cast at this
      exact ⟨catmullPoint_whole ha hb hc hd (by omega), this⟩
    · exact h2 l hl

theorem catmull_ends (l : List (Vec F32)) : ∀ p : Vec F32, WhPoint p → (∀ q ∈ l, WhPoint q) →
    (processCatmullLoop p l).length = 50 * (l.length - 1) ∧ ∀ e ∈ processCatmullLoop p l, CatmullEnd e.p1 ∧ CatmullEnd e.p2 := by
  induction l with
  | nil => intro p _ _; exact ⟨rfl, fun e he => by cases he⟩
  | cons a t ih =>
    intro p hp h
    cases t with
    | nil => exact ⟨rfl, fun e he => by cases he⟩
    | cons b rest =>
      obtain ⟨h1, h2⟩ := ih a (h a (by simp)) fun q hq => h q (List.mem_cons_of_mem _ hq)
      have ha := h a (by simp)
      have hb := h b (by simp)
      have hd : ∀ d : Vec F32, d = rest[0]?.getD (b.add (b.sub a)) →
          (∃ n : ℤ, Wh d.x n ∧ |n| ≤ 3069) ∧ ∃ n : ℤ, Wh d.y n ∧ |n| ≤ 3069 := by
        intro d e
        cases rest with
        | cons q _ =>
          obtain ⟨⟨m, hm, bm⟩, ⟨n, hn, bn⟩⟩ := h q (by simp)
          rw [e]
          exact ⟨⟨m, hm, bm.trans (by norm_num)⟩, ⟨n, hn, bn.trans (by norm_num)⟩⟩
        | nil =>
          obtain ⟨⟨m, hm, bm⟩, ⟨n, hn, bn⟩⟩ := ha
          obtain ⟨⟨m', hm', bm'⟩, ⟨n', hn', bn'⟩⟩ := hb
          rw [abs_le] at bm bn bm' bn'
          rw [e]
          exact ⟨⟨m' + (m' - m), hm'.add (hm'.sub hm (by rw [abs_le]; omega)) (by rw [abs_le]; omega), by rw [abs_le]; omega⟩,
            ⟨n' + (n' - n), hn'.add (hn'.sub hn (by rw [abs_le]; omega)) (by rw [abs_le]; omega), by rw [abs_le]; omega⟩⟩
      obtain ⟨g1, g2⟩ := catmullLoop_ends hp ha hb (hd _ rfl) 50 0 (by norm_num)
      have hcons : processCatmullLoop p (a :: b :: rest) =
          catmullLoop p a b (rest[0]?.getD (b.add (b.sub a))) 50 50 ((0 : ℕ) : ℤ) ++ processCatmullLoop a (b :: rest) := by
        conv_lhs => unfold processCatmullLoop
        cases rest <;> rfl
      rw [hcons]
      refine ⟨?_, fun e he => ?_⟩
      · rw [List.length_append, h1, g1]
        simp only [List.length_cons]
        omega
      · rcases List.mem_append.mp he with he | he
        · exact g2 e he
        · exact h2 e he

/-- The path of a Catmull slider through whole points. -/
theorem catmull_path [GoLibm F64] {ps : List (Vec F32)} (h : ∀ p ∈ ps, WhPoint p) {m : ℕ} (hm : ps.length = m + 1) (hm1 : m ≤ 64)
    {fuel : ℕ} {P : ℚ} {z : Bool} (hP0 : 1 ≤ P) (hP1 : P ≤ 2 ^ 14) {mc : MultiCurve F32}
    (hmc : MultiCurve.newT fuel ['C'] ps (fin P z : F64) = .ok mc) :
    Props.TamePath mc ∧ ∃ C zC, mc.length = fin C zC ∧ 0 ≤ C ∧ C ≤ P + 62 + 80 * (m : ℚ) ^ 2 := by
  obtain ⟨raw, hraw, hcnt, hends⟩ : ∃ raw, processType (D := F64) fuel ['C'] ps = .ok raw ∧ raw.length = 50 * m ∧
      ∀ e ∈ raw, CatmullEnd e.p1 ∧ CatmullEnd e.p2 := by
    refine ⟨_, rfl, ?_⟩
    cases ps with
    | nil => simp at hm
    | cons p l =>
      have := catmull_ends (p :: l) p (h p (by simp)) h
      rw [hm, Nat.add_sub_cancel] at this
      exact this
  have hfine : ∀ l ∈ raw, l.p1.eq l.p2 = true ∨ Fl.le (fin (1 / 2 ^ 48) false) (l.getLength (D := F64)) = true := fun l hl =>
    line_grid (k := 14) (by norm_num) (hends l hl).1.1 (hends l hl).2.1 (hends l hl).1.2 (hends l hl).2.2
  obtain ⟨L, zL, hL, L0, L1⟩ : In32 0 (_ * pow2 16) (MultiCurve.totalLength (D := F64) raw) :=
    totalLength_bound raw (by norm_num) (by norm_num) (fun l hl =>
      length_in (k := 14) (hends l hl).1.1 (hends l hl).2.1 (by norm_num) (by decide +kernel)) (by omega)
  have at' : ∀ p, VBd ((14 : ℕ) : ℤ) p → ∃ x y, Spec.At p x y ∧ |x| ≤ 2 ^ 14 ∧ |y| ≤ 2 ^ 14 := by
    rintro p ⟨⟨x, a, ex, hx⟩, ⟨y, b, ey, hy⟩⟩
    rw [pow2_nat] at hx hy
    exact ⟨x, y, ⟨a, b, by rw [← ex, ← ey]⟩, hx, hy⟩
  have hin : ∀ l ∈ raw, (∃ x y, Spec.At l.p1 x y ∧ |x| ≤ 2 ^ 14 ∧ |y| ≤ 2 ^ 14) ∧ ∃ x y, Spec.At l.p2 x y ∧ |x| ≤ 2 ^ 14 ∧ |y| ≤ 2 ^ 14 :=
    fun l hl => ⟨at' _ (hends l hl).1.1, at' _ (hends l hl).2.1⟩
  have hcnt20 : raw.length ≤ 2 ^ 20 := by omega
  refine ⟨⟨fuel, ['C'], ps, P, z, raw, hmc, hraw, hcnt20, ?_, ?_, hfine, by linarith, ?_⟩, ?_⟩
  · intro p hp
    obtain ⟨⟨i, ⟨c, ei⟩, bi⟩, ⟨j, ⟨d, ej⟩, bj⟩⟩ := h p (List.mem_of_getElem? hp)
    have e17 : pow2 17 = 2 ^ 17 := pow2_nat 17
    refine ⟨⟨_, c, ei, ?_⟩, ⟨_, d, ej, ?_⟩⟩
    · rw [e17]
      exact_mod_cast bi.trans (by norm_num)
    · rw [e17]
      exact_mod_cast bj.trans (by norm_num)
  · intro l hl'
    obtain ⟨⟨x, y, a1, a2, a3⟩, ⟨x', y', b1, b2, b3⟩⟩ := hin l hl'
    exact ⟨⟨x, y, a1, a2.trans (by norm_num), a3.trans (by norm_num)⟩, ⟨x', y', b1, b2.trans (by norm_num), b3.trans (by norm_num)⟩⟩
  · intro L' z' h'
    rw [hL] at h'
    cases h'
    linarith
  have hR : (raw.length : ℚ) = 50 * m := by exact_mod_cast hcnt
  rw [show pow2 16 = 2 ^ 16 from pow2_nat 16, hR] at L1
  have m0 : (0:ℚ) ≤ m := Nat.cast_nonneg _
  have m2 : (m : ℚ) ≤ (m : ℚ) ^ 2 := by exact_mod_cast Nat.le_self_pow (by norm_num) m
  rcases lt_or_eq_of_le L0 with hLpos | hLz
  · have e14 : pow2 14 = 2 ^ 14 := pow2_nat 14
    by_cases hcase : P ≤ L + 1 / 9000 ∨ ∀ l, raw.getLast? = some l → l.p1.eq l.p2 = false
    · obtain ⟨C, zC, hC, C0, hCP⟩ := C84_length (k := 14) (j := 14) hmc hraw hcnt20 (by norm_num) (by norm_num) (by norm_num)
        hin hfine hL hLpos (by linarith) (by rw [e14]; linarith) hcase
      refine ⟨C, zC, hC, C0, ?_⟩
      have t : (raw.length : ℚ) * (L + P) ≤ 50 * m * (50 * m * 2 ^ 16 + 2 ^ 14) := by
        rw [hR]
        exact mul_le_mul_of_nonneg_left (by linarith) (by positivity)
      have t' := div_le_div_of_nonneg_right t (by positivity : (0:ℚ) ≤ 2 ^ 21)
      have c := (abs_le.mp hCP).2
      rw [e14] at c
      have e : (50 * (m : ℚ) * (50 * m * 2 ^ 16 + 2 ^ 14) / 2 ^ 21) = 625 / 8 * (m : ℚ) ^ 2 + 25 / 64 * m := by ring
      rw [e] at t'
      norm_num at t' c ⊢
      linarith
    · push Not at hcase
      obtain ⟨h1, l, hl, hq⟩ := hcase
      rw [ne_eq, Bool.not_eq_false] at hq
      obtain ⟨-, hC⟩ := C84_not_extended hmc hraw hL h1.le (by linarith [show (2:ℚ) ^ 14 ≤ 2 ^ 40 by norm_num]) hl hq
      exact ⟨L, zL, hC, L0, by nlinarith⟩
  · refine ⟨L, zL, ?_, L0, by nlinarith⟩
    unfold MultiCurve.newT at hmc
    rw [hraw] at hmc
    obtain ⟨lines, e1, hmc⟩ := bind_ok hmc
    cases e1
    obtain ⟨fp, -, hmc⟩ := bind_ok hmc
    cases hmc
    show MultiCurve.totalLength (D := F64) _ = _
    rw [if_neg]
    · exact hL
    · rw [hL, show (lit 0 : F32) = fin 0 false from ofRat_zero _]
      change ¬ Fl.lt (fin 0 false) (fin L zL) = true
      simp [Fl.lt, ← hLz]

end GosuPP
