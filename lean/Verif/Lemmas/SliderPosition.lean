import Verif.Lemmas.Slider
import Verif.Lemmas.SliderIEEE
import Verif.Lemmas.PathTrim

/-! Positions of sliders over time in IEEE arithmetic. -/

namespace GosuPP
open Go Fl

theorem rnd_between {f : Fmt} [f.Ok] {a b : ℤ} {q : ℚ} (ha : f.emin ≤ a) (hb : f.emin ≤ b) (h1 : pow2 a ≤ q) (h2 : q ≤ pow2 b) :
    pow2 a ≤ rnd f q ∧ rnd f q ≤ pow2 b :=
  ⟨le_rnd (Go.rep_pow2 ha) h1, rnd_le (Go.rep_pow2 hb) h2⟩

theorem ofRat64_fin' {q : ℚ} {k : ℤ} (hk0 : -1074 ≤ k) (hk : k < 1024) (h : |q| ≤ pow2 k) (z : Bool) :
    ∃ c, ofRat fmt64 q z = fin (rnd fmt64 q) c := by
  have hr : Rep fmt64 (pow2 k) := Go.rep_pow2 hk0
  have h1 : |rnd fmt64 q| ≤ pow2 k := by
    rw [abs_le] at h ⊢
    exact ⟨le_rnd hr.neg h.1, rnd_le hr h.2⟩
  unfold ofRat
  simp only
  rw [if_neg (not_le.mpr (_root_.lt_of_le_of_lt h1 (pow2_lt.mpr hk)))]
  exact ⟨_, rfl⟩

theorem fmod_fin {f : Fmt} {v w : ℚ} {a b : Bool} (hw : w ≠ 0) : ∃ r c, Fl.fmod (fin v a : Fl f) (fin w b) = fin r c := by
  simp only [Fl.fmod, if_neg hw]
  exact ⟨_, _, rfl⟩

/-- The progress on the path at a time that is a number. -/
theorem progress_nn {start end_ sd time : F64} {s e d : ℚ} {zs ze zd : Bool} (hs : start = fin s zs) (he : end_ = fin e ze)
    (hd : sd = fin d zd) (hsb : |s| ≤ pow2 200) (heb : |e| ≤ pow2 200) (hd0 : pow2 (-200) ≤ d) (ht : NN time) :
    NN (down (let progress := GoFloat.fmod ((clampF64 time start end_ -. start) /. sd) (lit 2)
      if progress >=. lit 1 then lit 2 -. progress else progress) : F32) := by
  subst hs he hd
  obtain ⟨t1, z1, h1, hb1⟩ : ∃ t z, clampF64 time (fin s zs : F64) (fin e ze) = fin t z ∧ |t| ≤ pow2 200 := by
    unfold clampF64
    obtain ⟨m1, -, m3⟩ := fmax_spec (x := (fin s zs : F64)) (y := time) (by simp) ht
    obtain ⟨n1, n2, n3⟩ := fmin_spec (x := (fin e ze : F64)) (y := fmax (fin s zs : F64) time) (by simp) (le_nn m1).2
    rcases n3 with h | h
    · exact ⟨e, ze, h, heb⟩
    · rw [h] at n1
      rw [h]
      generalize fmax (fin s zs : F64) time = y at m1 n1
      cases y with
      | nan => simp [Fl.le] at m1
      | inf b => cases b <;> simp_all [Fl.le]
      | fin t z =>
        refine ⟨t, z, rfl, ?_⟩
        have k1 : s ≤ t := by simpa [Fl.le] using m1
        have k2 : t ≤ e := by simpa [Fl.le] using n1
        rw [abs_le] at *
        exact ⟨by linarith, by linarith⟩
  rw [h1]
  have hdp : 0 < d := _root_.lt_of_lt_of_le (pow2_pos _) hd0
  have e201 : pow2 201 = pow2 200 + pow2 200 := by
    rw [show (201 : ℤ) = 200 + 1 by norm_num, pow2_add, show pow2 1 = 2 from rfl]; ring
  have hdiff : |t1 + -s| ≤ pow2 201 := by
    rw [e201, ← sub_eq_add_neg]
    linarith [abs_sub t1 s]
  obtain ⟨c1, g1⟩ := ofRat64_fin' (k := 201) (by norm_num) (by norm_num) hdiff (signbit (fin t1 z1 : F64) && signbit (neg (fin s zs) : F64))
  have g1' : (fin t1 z1 : F64) -. fin s zs = fin (rnd fmt64 (t1 + -s)) c1 := g1
  have hr : Rep fmt64 (pow2 201) := Go.rep_pow2 (by decide)
  have hdb : |rnd fmt64 (t1 + -s)| ≤ pow2 201 := by
    rw [abs_le] at hdiff ⊢
    exact ⟨le_rnd hr.neg hdiff.1, rnd_le hr hdiff.2⟩
  rw [g1']
  generalize rnd fmt64 (t1 + -s) = w at hdb
  have hq : |w / d| ≤ pow2 401 := by
    rw [abs_div, abs_of_pos hdp, div_le_iff₀ hdp, show (401 : ℤ) = 201 + 200 by norm_num, pow2_add]
    have : pow2 200 * pow2 (-200) = 1 := by rw [← pow2_add]; rfl
    calc |w| ≤ pow2 201 * (pow2 200 * pow2 (-200)) := by rw [this, mul_one]; exact hdb
      _ = pow2 201 * pow2 200 * pow2 (-200) := by ring
      _ ≤ pow2 201 * pow2 200 * d := mul_le_mul_of_nonneg_left hd0 (mul_pos (pow2_pos _) (pow2_pos _)).le
  obtain ⟨c2, g2⟩ := ofRat64_fin' (k := 401) (by norm_num) (by norm_num) hq (Bool.xor (signbit (fin w c1 : F64)) (signbit (fin d zd : F64)))
  have g2' : (fin w c1 : F64) /. fin d zd = fin (rnd fmt64 (w / d)) c2 := by
    rw [← g2]
    show Fl.div _ _ = _
    simp [Fl.div, hdp.ne']
  rw [g2']
  have l2 : (lit 2 : F64) = fin 2 false := by decide +kernel
  rw [l2]
  obtain ⟨r, c3, g3⟩ := fmod_fin (f := fmt64) (v := rnd fmt64 (w / d)) (a := c2) (w := 2) (b := false) (by norm_num)
  have g3' : GoFloat.fmod (fin (rnd fmt64 (w / d)) c2 : F64) (fin 2 false) = fin r c3 := g3
  rw [g3']
  have cvt_nn : ∀ x : F64, NN x → NN (down x : F32) := by
    intro x hx
    cases x with
    | nan => exact absurd rfl hx
    | inf s => intro h; cases h
    | fin v b => exact ofRat_nn _ _
  apply cvt_nn
  simp only
  split
  · exact ofRat_nn _ _
  · simp

/-- Where a timed slider is at a time that is a number. -/
theorem sliderPosition_cases {h : HitObject F32 F64} {s : SliderData F32 F64} {v : F64} {S V : ℚ} {zs zv : Bool}
    (hs : h.startTime = fin S zs) (hsb : |S| ≤ pow2 60) (hws : Rep fmt64 S)
    (hsd : s.spanDuration = up s.multiCurve.length *. lit 1000 /. v)
    (hend : h.endTime = h.startTime +. up s.multiCurve.length *. lit 1000 *. ofInt s.repeatCount /. v)
    (hv : v = fin V zv) (hV0 : pow2 (-20) ≤ V) (hV1 : V ≤ pow2 40) (hR0 : 1 ≤ s.repeatCount) (hR1 : s.repeatCount ≤ 2 ^ 20)
    (hm : s.multiCurve.Measured) (hf : Fin s.multiCurve.length) :
    NN h.endTime ∧ ∀ time : F64, NN time →
      sliderPositionAt h s time = .ok h.startPosRaw ∨ ∃ t, NN t ∧ sliderPositionAt h s time = s.multiCurve.pointAt (D := F64) t := by
  unfold sliderPositionAt
  by_cases hret : isRetarded h = true
  · refine ⟨?_, fun time ht => .inl (if_pos hret)⟩
    intro hn
    unfold isRetarded at hret
    rw [hn, hs] at hret
    cases hret
  obtain ⟨c, zc, hc⟩ := hf
  have hz : (lit 0 : F32) = fin 0 false := ofRat_zero _
  have hwc : WF (fin c zc : F32) := by
    rw [← hc, hm.1]
    have w0 : WF (lit 0 : F32) := by rw [hz]; exact ⟨Rep.zero, by simpa using pow2_pos _, by simp⟩
    have : ∀ (ls : List (Linear F32)) (p : F32), WF p → WF (ls.foldl (fun acc l => acc +. l.getLength (D := F64)) p) := by
      intro ls
      induction ls with
      | nil => intro p hp; exact hp
      | cons l ls ih => intro p hp; exact ih _ (add_wf hp cvt_wf)
    exact this _ _ w0
  have hc0 : 0 ≤ c := by
    have hfin : Fin (MultiCurve.totalLength (D := F64) s.multiCurve.lines) := by rw [← hm.1]; exact ⟨c, zc, hc⟩
    have w0 : WF (lit 0 : F32) := by rw [hz]; exact ⟨Rep.zero, by simpa using pow2_pos _, by simp⟩
    have n0 : NonNeg (lit 0 : F32) := by rw [hz]; rfl
    obtain ⟨-, h2, -⟩ := sections_spec s.multiCurve.lines (lit 0) n0 w0 hfin
    have hmem := List.mem_of_getElem? h2
    change MultiCurve.totalLength (D := F64) s.multiCurve.lines ∈ _ at hmem
    rw [List.mem_cons] at hmem
    rw [← hm.1, hc] at hmem
    rcases hmem with h | h
    · rw [hz] at h; cases h; exact le_rfl
    · exact nonNeg_fin.mp (sectionsFrom_nonneg _ _ n0 (foldl_fin _ _ hfin).2 _ h)
  have hup : (up s.multiCurve.length : F64) = fin c zc := by rw [hc]; exact up_fin hwc
  rw [hup, hv] at hsd hend
  have l1000 : (lit 1000 : F64) = fin 1000 false := by decide +kernel
  rw [l1000] at hsd hend
  have hVp : 0 < V := _root_.lt_of_lt_of_le (pow2_pos _) hV0
  have hR : (ofInt s.repeatCount : F64) = fin s.repeatCount false := by
    have : |s.repeatCount| ≤ 2 ^ 53 := by rw [abs_of_nonneg (by omega)]; exact hR1.trans (by norm_num)
    show ofRat fmt64 _ false = _
    rw [ofRat_of_rep (Fl.rep_int this (by decide)) ?_]
    · simp
    · have : |(s.repeatCount : ℚ)| ≤ 2 ^ 53 := by exact_mod_cast this
      refine _root_.lt_of_le_of_lt this ?_
      have : (2:ℚ) ^ 53 = pow2 53 := by rw [show (53 : ℤ) = ((53 : ℕ) : ℤ) from rfl, pow2_nat]
      rw [this]
      exact pow2_lt.mpr (by decide)
  rw [hR] at hend
  have hRq1 : (1:ℚ) ≤ s.repeatCount := by exact_mod_cast hR0
  have hRq2 : (s.repeatCount : ℚ) ≤ pow2 20 := by
    rw [show (20 : ℤ) = ((20 : ℕ) : ℤ) from rfl, pow2_nat]
    exact_mod_cast hR1
  rcases eq_or_lt_of_le hc0 with h0 | h0
  · -- no length
    exfalso
    apply hret
    subst h0
    have e1 : ∃ z, (fin 0 zc : F64) *. fin 1000 false = fin 0 z := by
      refine ⟨Bool.xor (signbit (fin 0 zc : F64)) (signbit (fin 1000 false : F64)), ?_⟩
      show ofRat fmt64 (0 * 1000) _ = _
      rw [zero_mul]; exact ofRat_zero _
    obtain ⟨z1, e1⟩ := e1
    rw [e1] at hend
    have e2 : ∃ z, (fin 0 z1 : F64) *. fin s.repeatCount false = fin 0 z := by
      refine ⟨Bool.xor (signbit (fin 0 z1 : F64)) (signbit (fin s.repeatCount false : F64)), ?_⟩
      show ofRat fmt64 (0 * _) _ = _
      rw [zero_mul]; exact ofRat_zero _
    obtain ⟨z2, e2⟩ := e2
    rw [e2] at hend
    obtain ⟨z3, e3⟩ := zero_div_fin (f := fmt64) z2 zv hVp.ne'
    have e3' : (fin 0 z2 : F64) /. fin V zv = fin 0 z3 := e3
    rw [e3', hs] at hend
    unfold isRetarded
    rw [hend, hs]
    have : (fin S zs : F64) +. fin 0 z3 = fin S (decide (S = 0) && (signbit (fin S zs : F64) && signbit (fin 0 z3 : F64))) := by
      show ofRat fmt64 (S + 0) _ = _
      rw [add_zero, ofRat_of_rep hws (_root_.lt_of_le_of_lt hsb (pow2_lt.mpr (by decide)))]
    rw [this]
    simp [go_eq, Fl.eq]
  · -- a positive length
    have c0 : pow2 (-149) ≤ c := by
      obtain ⟨m, e, he, -, rfl⟩ := hwc.1
      have hm0 : 0 < m := by
        have := pos_of_mul_pos_left h0 (pow2_pos e).le
        exact_mod_cast this
      have h1 : pow2 (-149) ≤ pow2 e := pow2_mono he
      have : (1 : ℚ) ≤ m := by exact_mod_cast hm0
      nlinarith [pow2_pos e]
    have c1 : c ≤ pow2 128 := (le_abs_self c).trans hwc.2.1.le
    have k1000 : pow2 0 ≤ 1000 ∧ (1000 : ℚ) ≤ pow2 10 := by constructor <;> decide +kernel
    have a0 : pow2 (-149) ≤ c * 1000 := by
      have : c * 1 ≤ c * 1000 := mul_le_mul_of_nonneg_left (by norm_num) h0.le
      linarith
    have a1 : c * 1000 ≤ pow2 138 := by
      rw [show (138 : ℤ) = 128 + 10 by norm_num, pow2_add]
      exact mul_le_mul c1 k1000.2 (by norm_num) (pow2_pos _).le
    have p149 := pow2_pos (-149)
    obtain ⟨x1, g1⟩ := ofRat64_fin' (q := c * 1000) (k := 138) (by norm_num) (by norm_num) (by rw [abs_of_pos (by positivity)]; exact a1)
      (Bool.xor (signbit (fin c zc : F64)) (signbit (fin 1000 false : F64)))
    have g1' : (fin c zc : F64) *. fin 1000 false = fin (rnd fmt64 (c * 1000)) x1 := g1
    rw [g1'] at hsd hend
    obtain ⟨A0, A1⟩ := rnd_between (f := fmt64) (by decide) (by decide) a0 a1
    generalize rnd fmt64 (c * 1000) = A at A0 A1 hsd hend
    have hA : 0 < A := _root_.lt_of_lt_of_le p149 A0
    have inv40 : pow2 40 * pow2 (-40) = 1 := by rw [← pow2_add]; rfl
    have inv20 : pow2 20 * pow2 (-20) = 1 := by rw [← pow2_add]; rfl
    have divlo : ∀ (y : ℚ) (a : ℤ), pow2 a ≤ y → pow2 (a - 40) ≤ y / V := by
      intro y a hy
      rw [le_div_iff₀ hVp, sub_eq_add_neg, pow2_add]
      calc pow2 a * pow2 (-40) * V ≤ pow2 a * pow2 (-40) * pow2 40 :=
            mul_le_mul_of_nonneg_left hV1 (mul_pos (pow2_pos _) (pow2_pos _)).le
        _ = pow2 a * (pow2 40 * pow2 (-40)) := by ring
        _ = pow2 a := by rw [inv40, mul_one]
        _ ≤ y := hy
    have divhi : ∀ (y : ℚ) (a : ℤ), 0 ≤ y → y ≤ pow2 a → y / V ≤ pow2 (a + 20) := by
      intro y a hy0 hy
      rw [div_le_iff₀ hVp, pow2_add]
      calc y ≤ pow2 a * (pow2 20 * pow2 (-20)) := by rw [inv20, mul_one]; exact hy
        _ = pow2 a * pow2 20 * pow2 (-20) := by ring
        _ ≤ pow2 a * pow2 20 * V := mul_le_mul_of_nonneg_left hV0 (mul_pos (pow2_pos _) (pow2_pos _)).le
    -- the span
    have s0 := divlo A (-149) A0
    have s1 := divhi A 138 hA.le A1
    norm_num at s0 s1
    have sq0 : 0 < A / V := by positivity
    obtain ⟨x2, g2⟩ := ofRat64_fin' (q := A / V) (k := 158) (by norm_num) (by norm_num) (by rw [abs_of_pos sq0]; exact s1)
      (Bool.xor (signbit (fin A x1 : F64)) (signbit (fin V zv : F64)))
    have g2' : (fin A x1 : F64) /. fin V zv = fin (rnd fmt64 (A / V)) x2 := by
      rw [← g2]
      show Fl.div _ _ = _
      simp [Fl.div, hVp.ne']
    rw [g2'] at hsd
    have sd0 : pow2 (-200) ≤ rnd fmt64 (A / V) := (pow2_mono (by norm_num)).trans (rnd_between (f := fmt64) (by decide) (by decide) s0 s1).1
    -- the end
    have b0 : 0 ≤ A * s.repeatCount := by positivity
    have b1 : A * s.repeatCount ≤ pow2 158 := by
      rw [show (158 : ℤ) = 138 + 20 by norm_num, pow2_add]
      exact mul_le_mul A1 hRq2 (by linarith) (pow2_pos _).le
    obtain ⟨x3, g3⟩ := ofRat64_fin' (q := A * s.repeatCount) (k := 158) (by norm_num) (by norm_num) (by rw [abs_of_nonneg b0]; exact b1)
      (Bool.xor (signbit (fin A x1 : F64)) (signbit (fin s.repeatCount false : F64)))
    have g3' : (fin A x1 : F64) *. fin s.repeatCount false = fin (rnd fmt64 (A * s.repeatCount)) x3 := g3
    rw [g3'] at hend
    have B0 : 0 ≤ rnd fmt64 (A * s.repeatCount) := le_rnd Rep.zero b0
    have B1 : rnd fmt64 (A * s.repeatCount) ≤ pow2 158 := rnd_le (Go.rep_pow2 (by decide)) b1
    generalize rnd fmt64 (A * s.repeatCount) = B at B0 B1 hend
    have e1 := divhi B 158 B0 B1
    norm_num at e1
    have e0 : 0 ≤ B / V := by positivity
    obtain ⟨x4, g4⟩ := ofRat64_fin' (q := B / V) (k := 178) (by norm_num) (by norm_num) (by rw [abs_of_nonneg e0]; exact e1)
      (Bool.xor (signbit (fin B x3 : F64)) (signbit (fin V zv : F64)))
    have g4' : (fin B x3 : F64) /. fin V zv = fin (rnd fmt64 (B / V)) x4 := by
      rw [← g4]
      show Fl.div _ _ = _
      simp [Fl.div, hVp.ne']
    rw [g4', hs] at hend
    have E0 : 0 ≤ rnd fmt64 (B / V) := le_rnd Rep.zero e0
    have E1 : rnd fmt64 (B / V) ≤ pow2 178 := rnd_le (Go.rep_pow2 (by decide)) e1
    generalize rnd fmt64 (B / V) = E at E0 E1 hend
    have hsum : |S + E| ≤ pow2 200 := by
      have h1 := abs_add_le S E
      rw [abs_of_nonneg E0] at h1
      have h2 : pow2 60 + pow2 178 ≤ pow2 200 := by
        have := pow2_mono (show (60:ℤ) ≤ 178 by norm_num)
        have h3 : pow2 179 = pow2 178 + pow2 178 := by
          rw [show (179 : ℤ) = 178 + 1 by norm_num, pow2_add, show pow2 1 = 2 from rfl]; ring
        have := pow2_mono (show (179:ℤ) ≤ 200 by norm_num)
        linarith
      linarith
    obtain ⟨x5, g5⟩ := ofRat64_fin' (q := S + E) (k := 200) (by norm_num) (by norm_num) hsum
      (signbit (fin S zs : F64) && signbit (fin E x4 : F64))
    have g5' : (fin S zs : F64) +. fin E x4 = fin (rnd fmt64 (S + E)) x5 := g5
    rw [g5'] at hend
    have hr200 : Rep fmt64 (pow2 200) := Go.rep_pow2 (by decide)
    have hEb : |rnd fmt64 (S + E)| ≤ pow2 200 := by
      rw [abs_le] at hsum ⊢
      exact ⟨le_rnd hr200.neg hsum.1, rnd_le hr200 hsum.2⟩
    refine ⟨by rw [hend]; simp, fun time ht => .inr ⟨_, progress_nn hs hend hsd (hsb.trans (pow2_mono (by norm_num))) hEb sd0 ht, ?_⟩⟩
    rw [if_neg hret]

end GosuPP
