import Verif.Lemmas.Curve
import Verif.Lemmas.Bounds
import Verif.Lemmas.Sorting
import Verif.Lemmas.Bezier

/-! Slider paths in IEEE arithmetic: where `PointAt` starts. -/

namespace Go.Fl
variable {f : Fmt}

theorem Fin.of_add {x y : Fl f} (h : Fin (add x y)) : Fin x ∧ Fin y := by
  obtain ⟨v, b, h⟩ := h
  cases x with
  | nan => cases h
  | inf s =>
    cases y with
    | nan => cases h
    | inf t => simp only [add] at h; split at h <;> cases h
    | fin w c => cases h
  | fin u a =>
    cases y with
    | nan => cases h
    | inf t => cases h
    | fin w c => exact ⟨⟨_, _, rfl⟩, ⟨_, _, rfl⟩⟩

theorem Fin.of_neg {x : Fl f} (h : Fin (neg x)) : Fin x := by
  obtain ⟨v, b, h⟩ := h
  cases x with
  | nan => cases h
  | inf s => cases h
  | fin u a => exact ⟨_, _, rfl⟩

theorem Fin.of_sub {x y : Fl f} (h : Fin (sub x y)) : Fin x ∧ Fin y :=
  ⟨(Fin.of_add h).1, (Fin.of_add h).2.of_neg⟩

theorem Fin.of_mul_self {x : Fl f} (h : Fin (mul x x)) : Fin x := by
  obtain ⟨v, b, h⟩ := h
  cases x with
  | nan => cases h
  | inf s => cases h
  | fin u a => exact ⟨_, _, rfl⟩

theorem Fin.of_cvt {g : Fmt} {x : Fl f} (h : Fin (cvt g x)) : Fin x := by
  obtain ⟨v, b, h⟩ := h
  cases x with
  | nan => cases h
  | inf s => cases h
  | fin u a => exact ⟨_, _, rfl⟩

theorem Fin.of_sqrt {x : Fl f} (h : Fin (sqrt x)) : Fin x := by
  obtain ⟨v, b, h⟩ := h
  cases x with
  | nan => cases h
  | inf s => simp only [sqrt] at h; split at h <;> cases h
  | fin u a => exact ⟨_, _, rfl⟩

theorem sqrtPos_nonneg (f : Fmt) (v : ℚ) : 0 ≤ sqrtPos f v := by
  unfold sqrtPos
  simp only
  have h := (pow2_pos (max (ilog2 v / 2 + 1 - f.p) f.emin)).le
  have hs : (0 : ℚ) ≤ (Nat.sqrt (⌊v / (pow2 (max (ilog2 v / 2 + 1 - f.p) f.emin) *
      pow2 (max (ilog2 v / 2 + 1 - f.p) f.emin))⌋).toNat : ℚ) := Nat.cast_nonneg _
  split
  · exact _root_.mul_nonneg hs h
  · split
    · exact _root_.mul_nonneg (by linarith) h
    · split
      · exact _root_.mul_nonneg hs h
      · exact _root_.mul_nonneg (by linarith) h

theorem sqrt_nonneg {x : Fl f} (h : NN (sqrt x)) : NonNeg (sqrt x) := by
  cases x with
  | nan => exact absurd rfl h
  | inf s =>
    cases s
    · rfl
    · exact absurd rfl h
  | fin v b =>
    unfold sqrt at h ⊢
    simp only at h ⊢
    split
    · rename_i hv; rw [nonNeg_fin, hv]
    · rename_i hv
      rw [if_neg hv] at h
      split
      · rename_i hv'; rw [if_pos hv'] at h; exact absurd rfl h
      · rw [nonNeg_fin]; exact sqrtPos_nonneg f v

theorem cvt_nonneg {g : Fmt} [g.Ok] {x : Fl f} (h : NonNeg x) : NonNeg (cvt g x) := by
  have := cvt_mono (g := g) h
  have e : cvt g (fin 0 false : Fl f) = fin 0 false := ofRat_zero _
  rwa [e] at this

/-- `math.Max(0, t)` for `t ≤ 0` is zero. -/
theorem fmax_zero [f.Ok] {t : Fl f} (h : le t (fin 0 false) = true) : fmax (fin 0 false) t = fin 0 false := by
  cases t with
  | nan => cases h
  | inf s =>
    cases s
    · cases h
    · unfold fmax
      simp [go_isPosInf, go_isNaN, go_eq, go_lt, go_signbit, isPosInf, isNaN, eq, lt]
  | fin v b =>
    have hv : v ≤ 0 := by simpa [le] using h
    unfold fmax
    have hl : (lit 0 : Fl f) = fin 0 false := ofRat_zero _
    simp only [go_isPosInf, go_isNaN, go_eq, go_lt, go_signbit, isPosInf, isNaN, hl, eq, lt, signbit]
    by_cases h0 : v = 0
    · subst h0; simp
    · have : v < 0 := lt_of_le_of_ne hv h0
      simp [this, Ne.symm h0]

end Go.Fl

namespace GosuPP
open Go Fl

theorem up_zero : (up (fin 0 false : F32) : F64) = fin 0 false := by
  decide +kernel

theorem down_zero : (down (fin 0 false : F64) : F32) = fin 0 false := by
  show ofRat fmt32 0 false = _
  exact ofRat_zero (f := fmt32) false

theorem up_one : (up (fin 1 false : F32) : F64) = fin 1 false := by
  show ofRat fmt64 1 false = _
  decide +kernel

theorem down_one : (down (fin 1 false : F64) : F32) = fin 1 false := by
  show ofRat fmt32 1 false = _
  decide +kernel

theorem clampF32_of_nonpos {t : F32} (h : Fl.le t (fin 0 false) = true) :
    clampF32 (D := F64) t (lit 0) (lit 1) = fin 0 false := by
  have h0 : (lit 0 : F32) = fin 0 false := ofRat_zero _
  have h1 : (lit 1 : F32) = fin 1 false := by decide +kernel
  have u0 := up_zero
  have u1 := up_one
  have hd := down_zero
  unfold clampF32 Math32.max Math32.min
  rw [h0, h1, u0, u1]
  have hm := cvt_mono (g := fmt64) h
  have e : cvt fmt64 (fin 0 false : F32) = fin 0 false := up_zero
  rw [e] at hm
  have : fmax (fin 0 false : F64) (up t) = fin 0 false := fmax_zero hm
  rw [this, hd, u0]
  decide +kernel

theorem clampF32_of_ge_one {t : F32} (h : Fl.le (fin 1 false) t = true) :
    clampF32 (D := F64) t (lit 0) (lit 1) = fin 1 false := by
  have h0 : (lit 0 : F32) = fin 0 false := ofRat_zero _
  have h1 : (lit 1 : F32) = fin 1 false := by decide +kernel
  have u0 := up_zero
  have u1 := up_one
  have hd := down_one
  unfold clampF32 Math32.max Math32.min
  rw [h0, h1, u0, u1]
  have hm := cvt_mono (g := fmt64) h
  have e : cvt fmt64 (fin 1 false : F32) = fin 1 false := u1
  rw [e] at hm
  have hnn : NN (cvt fmt64 t) := (le_nn hm).2
  obtain ⟨-, hmax, -⟩ := fmax_spec (x := (fin 0 false : F64)) (y := cvt fmt64 t) (by simp) hnn
  have h2 : Fl.le (fin 1 false) (fmax (fin 0 false : F64) (cvt fmt64 t)) = true := Fl.le_trans hm hmax
  have h3 := cvt_mono (g := fmt64) (cvt_mono (g := fmt32) h2)
  have e2 : cvt fmt64 (cvt fmt32 (fin 1 false : F64)) = fin 1 false := by decide +kernel
  rw [e2] at h3
  show cvt fmt32 (fmin (fin 1 false : F64) (cvt fmt64 (cvt fmt32 (fmax (fin 0 false : F64) (cvt fmt64 t))))) = _
  generalize cvt fmt64 (cvt fmt32 (fmax (fin 0 false : F64) (cvt fmt64 t))) = y at h3
  have : fmin (fin 1 false : F64) y = fin 1 false ∨ fmin (fin 1 false : F64) y = y := (fmin_spec (by simp) (le_nn h3).2).2.2
  cases y with
  | nan => cases h3
  | inf s =>
    cases s
    · decide +kernel
    · cases h3
  | fin v b =>
    have hv : 1 ≤ v := by simpa [Fl.le] using h3
    unfold fmin
    have hl : (lit 0 : F64) = fin 0 false := ofRat_zero _
    simp only [go_isNegInf, go_isNaN, go_eq, go_lt, go_signbit, isNegInf, Fl.isNaN, hl, Fl.eq, Fl.lt]
    by_cases h1 : v = 1
    · subst h1
      have hw : Fl.le (fin 1 b : F64) (fin 1 false) = true ∧ True := by simp [Fl.le]
      simp only [Bool.or_self, Bool.false_eq_true, if_false, one_ne_zero, decide_false, Bool.false_and,
        lt_self_iff_false]
      cases b
      · exact hd
      · show ofRat fmt32 1 true = _
        decide +kernel
    · have : 1 < v := lt_of_le_of_ne hv (Ne.symm h1)
      simp only [Bool.or_self, Bool.false_eq_true, if_false, one_ne_zero, decide_false, Bool.false_and,
        this, decide_true, if_true]
      exact hd

/-! ### Numeric equality -/

theorem Fl.eq_symm' {f : Fmt} {x y : Fl f} (h : Fl.eq x y = true) : Fl.eq y x = true := by
  rw [eq_iff_le] at h ⊢
  exact ⟨h.2, h.1⟩

theorem Fl.eq_trans' {f : Fmt} {x y z : Fl f} (h : Fl.eq x y = true) (h' : Fl.eq y z = true) :
    Fl.eq x z = true := by
  rw [eq_iff_le] at h h' ⊢
  exact ⟨Fl.le_trans h.1 h'.1, Fl.le_trans h'.2 h.2⟩

theorem Vec.eq_symm {a b : Vec F32} (h : a.eq b = true) : b.eq a = true := by
  simp only [Vec.eq, Bool.and_eq_true] at h ⊢
  exact ⟨Fl.eq_symm' h.1, Fl.eq_symm' h.2⟩

theorem Vec.eq_trans {a b c : Vec F32} (h : a.eq b = true) (h' : b.eq c = true) : a.eq c = true := by
  simp only [Vec.eq, Bool.and_eq_true] at h h' ⊢
  exact ⟨Fl.eq_trans' h.1 h'.1, Fl.eq_trans' h.2 h'.2⟩

theorem Vec.eq_self {a : Vec F32} (hx : NN a.x) (hy : NN a.y) : a.eq a = true := by
  simp only [Vec.eq, Bool.and_eq_true]
  exact ⟨eq_iff_le.mpr ⟨Fl.le_refl hx, Fl.le_refl hx⟩, eq_iff_le.mpr ⟨Fl.le_refl hy, Fl.le_refl hy⟩⟩

/-! ### Lengths -/

theorem getLength_fin {l : Linear F32} (h : Fin (l.getLength (D := F64))) :
    NonNeg (l.getLength (D := F64)) ∧ Fin l.p1.x ∧ Fin l.p1.y ∧ Fin (sub l.p2.x l.p1.x) ∧
      Fin (sub l.p2.y l.p1.y) := by
  unfold Linear.getLength Vec.dst Math32.sqrt at *
  have h1 : Fin (Fl.sqrt (cvt fmt64 (add (mul (sub l.p2.x l.p1.x) (sub l.p2.x l.p1.x))
      (mul (sub l.p2.y l.p1.y) (sub l.p2.y l.p1.y))))) := h.of_cvt
  have h2 := h1.of_sqrt.of_cvt.of_add
  refine ⟨cvt_nonneg (sqrt_nonneg h1.nn), ?_, ?_, h2.1.of_mul_self, h2.2.of_mul_self⟩
  · exact h2.1.of_mul_self.of_sub.2
  · exact h2.2.of_mul_self.of_sub.2

theorem foldl_fin (ls : List (Linear F32)) (p : F32)
    (h : Fin (ls.foldl (fun acc l => acc +. l.getLength (D := F64)) p)) :
    Fin p ∧ ∀ l ∈ ls, Fin (l.getLength (D := F64)) := by
  induction ls generalizing p with
  | nil => exact ⟨h, fun l hl => by cases hl⟩
  | cons l ls ih =>
    obtain ⟨h1, h2⟩ := ih _ h
    obtain ⟨h3, h4⟩ := Fin.of_add h1
    refine ⟨h3, fun l' hl' => ?_⟩
    rcases List.mem_cons.mp hl' with rfl | hl'
    · exact h4
    · exact h2 l' hl'

theorem sectionsFrom_nonneg (ls : List (Linear F32)) (p : F32) (hp : NonNeg p)
    (h : ∀ l ∈ ls, Fin (l.getLength (D := F64))) :
    ∀ s ∈ MultiCurve.sectionsFrom (D := F64) p ls, NonNeg s := by
  induction ls generalizing p with
  | nil => intro s hs; cases hs
  | cons l ls ih =>
    have hn := add_nonneg hp (getLength_fin (h l (by simp))).1
    intro s hs
    rcases List.mem_cons.mp hs with rfl | hs
    · exact hn
    · exact ih _ hn (fun l' hl' => h l' (by simp [hl'])) s hs

theorem search_all (n : Nat) (p : Nat → Bool) (h : ∀ i, i < n → p i = true) : search n p = 0 := by
  by_contra hne
  have h1 := (search_switch n p).2 (Nat.pos_of_ne_zero hne)
  have h2 := search_le n p
  rw [h _ (by omega)] at h1
  cases h1

theorem mul_zero_fin {f : Fmt} [f.Ok] {x : Fl f} (h : Fin x) (b : Bool) : ∃ c, mul x (fin 0 b) = fin 0 c := by
  obtain ⟨v, a, rfl⟩ := h
  refine ⟨Bool.xor (signbit (fin v a : Fl f)) (signbit (fin 0 b : Fl f)), ?_⟩
  show ofRat f (v * 0) _ = _
  rw [mul_zero]
  exact ofRat_zero _

theorem zero_div_fin {f : Fmt} [f.Ok] {v : ℚ} (b c : Bool) (hv : v ≠ 0) :
    ∃ d, div (fin 0 b) (fin v c : Fl f) = fin 0 d := by
  refine ⟨Bool.xor (signbit (fin 0 b : Fl f)) (signbit (fin v c : Fl f)), ?_⟩
  simp only [div, if_neg hv, zero_div]
  exact ofRat_zero _

theorem zero_add_fin {f : Fmt} [f.Ok] {x : Fl f} (h : Fin x) (hw : WF x) (b : Bool) :
    Fl.eq (add (fin 0 b) x) x = true := by
  obtain ⟨v, a, rfl⟩ := h
  show Fl.eq (ofRat f (0 + v) _) _ = true
  rw [zero_add, ofRat_of_rep hw.1 hw.2.1]
  simp [Fl.eq]

/-- The lengths and sections of a path belong to its lines. -/
def MultiCurve.Measured (mc : MultiCurve F32) : Prop :=
  mc.length = totalLength (D := F64) mc.lines ∧ mc.sections = mkSections (D := F64) mc.lines

theorem newT_measured [GoLibm F64] {fuel : Nat} {typ : Str} {points : List (Vec F32)} {len : F64}
    {mc : MultiCurve F32} (h : MultiCurve.newT fuel typ points len = .ok mc) : mc.Measured := by
  unfold MultiCurve.newT at h
  obtain ⟨lines, h1, h⟩ := bind_ok h
  obtain ⟨fp, h2, h⟩ := bind_ok h
  cases h
  exact ⟨rfl, rfl⟩

theorem eq_fin_false {f : Fmt} {x : Fl f} {v : ℚ} {b : Bool} (h : Fl.eq x (fin v b) = false) (w : ℚ) (c : Bool)
    (hx : x = fin w c) : w ≠ v := by
  subst hx
  simpa [Fl.eq] using h

theorem pointAt_start {mc : MultiCurve F32} (hm : mc.Measured) (hf : Fin mc.length) {t : F32}
    (ht : Fl.le t (fin 0 false) = true) (hw : ∀ l, mc.lines.head? = some l → WF l.p1.x ∧ WF l.p1.y) :
    mc.pointAt (D := F64) t = .ok mc.firstPoint ∨
    ∃ l ls p, mc.lines = l :: ls ∧ mc.pointAt (D := F64) t = .ok p ∧ p.eq l.p1 = true := by
  unfold MultiCurve.pointAt
  cases hl : mc.lines with
  | nil => exact .inl (by simp)
  | cons l ls =>
    split
    · exact .inl rfl
    · right
      refine ⟨l, ls, ?_⟩
      have hfin := hf
      rw [hm.1] at hfin
      obtain ⟨-, hlens⟩ := foldl_fin _ _ hfin
      have hz : (lit 0 : F32) = fin 0 false := ofRat_zero _
      have hsec : ∀ s ∈ mc.sections.tail, NonNeg s := by
        rw [hm.2]
        exact sectionsFrom_nonneg mc.lines (lit 0) (by rw [hz]; rfl) hlens
      obtain ⟨z, hz2⟩ := mul_zero_fin hf false
      have hdw : mc.length *. clampF32 (D := F64) t (lit 0) (lit 1) = fin 0 z := by
        rw [clampF32_of_nonpos ht]
        exact hz2
      have hidx : mc.lineIndex (fin 0 z) = 0 := by
        unfold MultiCurve.lineIndex
        simp only
        rw [search_all]
        · rw [hl]
          unfold minI
          simp only [List.length_cons]
          split <;> push_cast at * <;> omega
        · intro i hi
          rw [List.getElem?_eq_getElem hi]
          simp only
          have := hsec _ (List.getElem_mem hi)
          have h0 : Fl.le (fin 0 z : F32) (fin 0 false) = true := by simp [Fl.le]
          exact Fl.le_trans h0 this
      have hs : mc.sections = lit 0 :: (lit 0 +. l.getLength (D := F64)) ::
          MultiCurve.sectionsFrom (D := F64) (lit 0 +. l.getLength (D := F64)) ls := by
        rw [hm.2, hl]
        rfl
      simp only [hdw, hidx]
      have i1 : index mc.sections (0 + 1) = .ok (lit 0 +. l.getLength (D := F64)) := by
        rw [hs]; rfl
      have i0 : index mc.sections 0 = .ok (lit 0) := by rw [hs]; rfl
      have i2 : index (l :: ls) 0 = .ok l := rfl
      simp only [i1, i0, i2, ok_bind]
      obtain ⟨gn, fx, fy, fdx, fdy⟩ := getLength_fin (hlens l (by rw [hl]; simp))
      obtain ⟨wx, wy⟩ := hw l (by rw [hl]; simp)
      split
      · exact ⟨_, trivial, rfl, Vec.eq_self fx.nn fy.nn⟩
      · rename_i hne
        refine ⟨_, trivial, rfl, ?_⟩
        obtain ⟨v, b, hv⟩ := hlens l (by rw [hl]; simp)
        rw [hv] at hne gn ⊢
        rw [nonNeg_fin] at gn
        rw [hz] at hne ⊢
        have hsum : ∃ w c, add (fin 0 false) (fin v b : F32) = fin w c ∧ w = v := by
          have hwv : WF (fin v b : F32) := by
            rw [← hv]
            exact cvt_wf
          refine ⟨v, decide (v = 0) && (signbit (fin 0 false : F32) && signbit (fin v b : F32)), ?_, rfl⟩
          show ofRat fmt32 (0 + v) _ = _
          rw [zero_add, ofRat_of_rep hwv.1 hwv.2.1]
        obtain ⟨w, c, hsum, rfl⟩ := hsum
        have hsum' : (fin 0 false : F32) +. fin w b = fin w c := hsum
        rw [hsum'] at hne ⊢
        have hww : WF (fin w c : F32) := by
          rw [← hsum]
          have hwv : WF (fin w b : F32) := by
            rw [← hv]
            exact cvt_wf
          exact add_wf ⟨Rep.zero, by simpa using pow2_pos _, by simp⟩ hwv
        have hsub : ∃ d, (fin w c : F32) -. fin 0 false = fin w d := by
          refine ⟨decide (w = 0) && (signbit (fin w c : F32) && signbit (neg (fin 0 false) : F32)), ?_⟩
          show ofRat fmt32 (w + -0) (signbit (fin w c : F32) && signbit (neg (fin 0 false : F32))) = _
          rw [neg_zero, add_zero, ofRat_of_rep hww.1 hww.2.1]
        obtain ⟨d, hsub⟩ := hsub
        rw [hsub] at hne ⊢
        have hw0 : w ≠ 0 := by
          intro h0
          apply hne
          show Fl.eq _ _ = true
          simp [Fl.eq, h0]
        have hsub0 : ∃ e, (fin 0 z : F32) -. fin 0 false = fin 0 e := by
          refine ⟨signbit (fin 0 z : F32) && signbit (neg (fin 0 false) : F32), ?_⟩
          show ofRat fmt32 (0 + -0) (signbit (fin 0 z : F32) && signbit (neg (fin 0 false : F32))) = _
          rw [neg_zero, add_zero]
          exact ofRat_zero _
        obtain ⟨e, hsub0⟩ := hsub0
        rw [hsub0]
        obtain ⟨g, hg⟩ := zero_div_fin (f := fmt32) e d hw0
        have hg' : (fin 0 e : F32) /. fin w d = fin 0 g := hg
        rw [hg']
        unfold Linear.pointAt Vec.lerp
        obtain ⟨c1, hc1⟩ := mul_zero_fin fdx g
        obtain ⟨c2, hc2⟩ := mul_zero_fin fdy g
        have hc1' : (l.p2.x -. l.p1.x) *. (fin 0 g) = fin 0 c1 := hc1
        have hc2' : (l.p2.y -. l.p1.y) *. (fin 0 g) = fin 0 c2 := hc2
        rw [hc1', hc2']
        simp only [Vec.eq, Bool.and_eq_true]
        exact ⟨zero_add_fin fx wx c1, zero_add_fin fy wy c2⟩

/-! ### Where the first line starts -/

section
variable {S D : Type} [GoFloat S] [GoFloat D] [GoConv S D]

theorem trimRev_last (l : List (Linear S)) (d : D) :
    MultiCurve.trimRev l d = [] ∨
      (MultiCurve.trimRev l d).getLast?.map Linear.p1 = l.getLast?.map Linear.p1 := by
  induction l generalizing d with
  | nil => exact .inl rfl
  | cons line rest ih =>
    rw [MultiCurve.trimRev]
    split
    · right
      cases rest with
      | nil => split <;> rfl
      | cons a t => simp
    · cases rest with
      | nil => exact .inl rfl
      | cons a t => simpa using ih _

/-- The first line of a path starts where the first line of the untrimmed polyline starts. -/
theorem newT_head [GoLibm D] {fuel : Nat} {typ : Str} {points : List (Vec S)} {len : D}
    {mc : MultiCurve S} (h : MultiCurve.newT fuel typ points len = .ok mc) :
    ∃ lines, processType (D := D) fuel typ points = .ok lines ∧ (mc.lines = [] ∨
      mc.lines.head?.map Linear.p1 = lines.head?.map Linear.p1) := by
  unfold MultiCurve.newT at h
  obtain ⟨lines, h1, h⟩ := bind_ok h
  obtain ⟨fp, h2, h⟩ := bind_ok h
  cases h
  refine ⟨lines, h1, ?_⟩
  simp only
  split
  · have := trimRev_last lines.reverse (up (MultiCurve.totalLength (D := D) lines) -. len)
    rcases this with h | h
    · left; simp [h]
    · right
      rw [List.head?_reverse, h, List.getLast?_reverse]
  · exact .inr rfl

omit [GoConv S D] [GoFloat D] in
theorem joinPoints_head (a b : Vec S) (l : List (Vec S)) :
    (joinPoints (a :: (l ++ [b]))).head?.map Linear.p1 = some a := by
  cases l <;> simp [joinPoints]

omit [GoConv S D] [GoFloat D] in
theorem approximateBezier_head {fuel : Nat} {p : Vec S} {ps : List (Vec S)} {ls : List (Linear S)}
    (h : approximateBezier fuel (p :: ps) = .ok ls) : ls.head?.map Linear.p1 = some p := by
  unfold approximateBezier Approximator.createBezier at h
  obtain ⟨out, h1, h⟩ := bind_ok h
  obtain ⟨st, h2, h1⟩ := bind_ok h1
  cases h1
  cases h
  have key := Approximator.createBezierState_ok (cps := p :: ps) (by simp) fuel
  cases ha : Approximator.absLoop fuel [p :: ps] [] with
  | none => rw [key.2 ha] at h2; cases h2
  | some res =>
    obtain ⟨st', h3, h4, -⟩ := key.1 res ha
    rw [h3] at h2
    cases h2
    obtain ⟨l, hf, hr⟩ := Approximator.absLoop_sound fuel _ _ _ ha
    cases hf with
    | cons hc hn =>
      cases hn
      simp only [List.nil_append, List.flatten_cons, List.flatten_nil, List.append_nil] at hr
      subst hr
      have hh := Approximator.flattens_head hc (by simp)
      rw [h4]
      cases res with
      | nil => cases hh
      | cons x t =>
        simp only [List.head?_cons, Option.some.injEq] at hh
        subst hh
        exact joinPoints_head _ _ _

omit [GoConv S D] [GoFloat D] in
theorem processBezierLoop_head {fuel : Nat} {p : Vec S} {ps : List (Vec S)} (k i : Nat)
    (hk : i + k = (p :: ps).length) (hk0 : 0 < k) {ls : List (Linear S)}
    (h : processBezierLoop fuel (p :: ps) k i 0 = .ok ls) : ls.head?.map Linear.p1 = some p := by
  induction k generalizing i with
  | zero => omega
  | succ k ih =>
    rw [processBezierLoop] at h
    have hi : i < (p :: ps).length := by omega
    rw [List.getElem?_eq_getElem hi] at h
    simp only at h
    generalize hm : (decide (i + 2 < (p :: ps).length) &&
        match (p :: ps)[i + 1]? with
        | some q => (p :: ps)[i].eq q
        | none => false) = multi at h
    split at h
    · have hsub : ((p :: ps).drop 0).take (i + 1 - 0) = p :: ps.take i := by simp
      rw [hsub] at h
      have hfin : ∀ ls', ls'.head?.map Linear.p1 = some p → ∀ rest : List (Linear S),
          (ls' ++ rest).head?.map Linear.p1 = some p := by
        intro ls' h' rest
        cases ls' with
        | nil => cases h'
        | cons x t => simpa using h'
      split at h
      · rename_i a b he
        obtain ⟨hpa, -⟩ := List.cons.inj he
        subst hpa
        obtain ⟨ls', h1, h⟩ := bind_ok h
        obtain ⟨rest, h2, h⟩ := bind_ok h
        cases h1
        cases h
        rfl
      · obtain ⟨ls', h1, h⟩ := bind_ok h
        obtain ⟨rest, h2, h⟩ := bind_ok h
        cases h
        exact hfin _ (approximateBezier_head h1) _
    · rename_i hn
      simp only [Bool.or_eq_true, beq_iff_eq, not_or] at hn
      exact ih (i + 1) (by omega) (by simp only [List.length_cons] at *; omega) h

end

theorem processLinear_head (a : Vec F32) (l : List (Vec F32)) (p : Vec F32)
    (h : (processLinear (a :: l)).head?.map Linear.p1 = some p) : p = a ∨ p ∈ l ∧ p.eq a = true := by
  induction l generalizing a with
  | nil => cases h
  | cons b t ih =>
    rw [processLinear] at h
    split at h
    · rename_i hab
      rcases ih b h with rfl | ⟨hm, he⟩
      · exact .inr ⟨by simp, Vec.eq_symm hab⟩
      · exact .inr ⟨by simp [hm], Vec.eq_trans he (Vec.eq_symm hab)⟩
    · left
      simpa using h.symm

end GosuPP
