import Verif.Lemmas.Within32
import Verif.Lemmas.PPBounds
import Verif.Spec.StarBounds

/-! Bounds of lazy sliders. -/

namespace GosuPP
open Go Fl Spec
open GosuPP.Fl (NN0)

/-- A position as in `Placed`. -/
abbrev Near (x : F32) : Prop := In32 (-(2 ^ 20 - 1)) (2 ^ 20 - 1) x

theorem near_of_le {x : F32} (h1 : ((lit (-1048575) : F32) <=. x) = true) (h2 : (x <=. (lit 1048575 : F32)) = true) : Near x := by
  have e1 : (lit (-1048575) : F32) = fin (-1048575) false := by decide +kernel
  have e2 : (lit 1048575 : F32) = fin 1048575 false := by decide +kernel
  rw [e1] at h1
  rw [e2] at h2
  cases x with
  | nan => cases h1
  | inf s => cases s <;> [cases h2; cases h1]
  | fin v z =>
    have a : (-1048575 : ℚ) ≤ v := by simpa [go_le, Fl.le] using h1
    have b : v ≤ (1048575 : ℚ) := by simpa [go_le, Fl.le] using h2
    exact ⟨v, z, rfl, by norm_num; exact a, by norm_num; exact b⟩

theorem near_bd {x : F32} (h : Near x) : Bd 20 x := by
  obtain ⟨v, z, rfl, h1, h2⟩ := h
  refine ⟨v, z, rfl, ?_⟩
  have e : pow2 20 = 2 ^ 20 := pow2_nat 20
  rw [e, abs_le]
  constructor <;> linarith

/-- Coordinates of a position as in `Placed`. -/
def VNear (v : Vec F32) : Prop := Near v.x ∧ Near v.y

theorem VNear.bd {v : Vec F32} (h : VNear v) : VBd 20 v := ⟨near_bd h.1, near_bd h.2⟩

theorem placed_near {v : Vec F32} (h : Placed v) : VNear v :=
  ⟨near_of_le h.1.1 h.1.2, near_of_le h.2.1 h.2.2⟩

theorem fin_of_ofRat {f : Fmt} [f.Ok] {q : ℚ} {z : Bool} {k : ℤ} (h : |q| ≤ pow2 k) (h1 : f.emin ≤ k) (h2 : k < f.emax) :
    ∃ t, ofRat f q z = fin (rnd f q) t := by
  obtain ⟨v, b, e, -⟩ := bd_ofRat h h1 h2 z
  unfold ofRat at e ⊢
  simp only at e ⊢
  split at e
  · cases e
  · rename_i hc
    rw [if_neg hc]
    exact ⟨_, rfl⟩

/-- The cursor stays in the square when it moves by a part of the way to a point inside. -/
theorem cursor_step {c p r : F32} (hc : Bd 20 c) (hp : Near p) (hr : In32 0 1 r) : Bd 20 (c +. (p -. c) *. r) := by
  have hd : Bd 21 (p -. c) := Bd.sub (near_bd hp) hc (by decide) (by decide)
  obtain ⟨c, zc, rfl, hc⟩ := hc
  obtain ⟨p, zp, rfl, p1, p2⟩ := hp
  obtain ⟨r, zr, rfl, r1, r2⟩ := hr
  have e20 : pow2 20 = 2 ^ 20 := pow2_nat 20
  have hc' := abs_le.mp hc
  rw [e20] at hc'
  have hq : |p + -c| ≤ pow2 21 := by
    have e21 : pow2 21 = 2 ^ 21 := pow2_nat 21
    rw [e21, abs_le]
    constructor <;> linarith
  have herr := rnd_error_rel (f := fmt32) (p + -c)
  have h3 : pow2 (-(fmt32.p : ℤ)) = 1 / 2 ^ 24 := by
    show pow2 (-((24 : ℕ) : ℤ)) = _
    rw [pow2_eq, zpow_neg]; norm_num
  have h4 : pow2 (fmt32.emin - 1) ≤ 1 / 4 := by
    have : pow2 (fmt32.emin - 1) ≤ pow2 (-2) := pow2_mono (by decide)
    have e : pow2 (-2) = 1 / 4 := by rw [show (-2 : ℤ) = -((2 : ℕ) : ℤ) from rfl, pow2_eq, zpow_neg]; norm_num
    rwa [e] at this
  have herr2 : |rnd fmt32 (p + -c) - (p + -c)| ≤ 1 := by
    have e21 : pow2 21 = 2 ^ 21 := pow2_nat 21
    rw [h3] at herr
    rw [e21] at hq
    linarith
  have hsub : ∃ t, ((fin p zp : F32) -. fin c zc) = fin (rnd fmt32 (p + -c)) t := fin_of_ofRat hq (by decide) (by decide)
  obtain ⟨td, ed⟩ := hsub
  rw [ed] at hd ⊢
  have hrep : Rep fmt32 (rnd fmt32 (p + -c)) := rnd_rep _
  generalize rnd fmt32 (p + -c) = d at herr2 hd hrep ⊢
  have hdw : Rep fmt32 d ∧ |d| ≤ pow2 21 := by
    obtain ⟨v, b, e, hv⟩ := hd
    cases e
    exact ⟨hrep, hv⟩
  have hdr : |d * r| ≤ pow2 21 := by
    rw [abs_mul, abs_of_nonneg r1]
    calc |d| * r ≤ |d| * 1 := mul_le_mul_of_nonneg_left r2 (abs_nonneg _)
      _ ≤ pow2 21 := by rw [mul_one]; exact hdw.2
  have hmul : ∃ t, ((fin d td : F32) *. fin r zr) = fin (rnd fmt32 (d * r)) t := fin_of_ofRat hdr (by decide) (by decide)
  obtain ⟨tm, em⟩ := hmul
  rw [em]
  have herr3 := abs_le.mp herr2
  refine bd_ofRat (f := fmt32) ?_ (by decide) (by decide) _
  rw [e20, abs_le]
  rcases le_total 0 d with h0 | h0
  · have m1 : 0 ≤ rnd fmt32 (d * r) := le_rnd Rep.zero (mul_nonneg h0 r1)
    have m2 : rnd fmt32 (d * r) ≤ d := rnd_le hdw.1 (mul_le_of_le_one_right h0 r2)
    constructor <;> linarith
  · have m1 : rnd fmt32 (d * r) ≤ 0 := rnd_le Rep.zero (mul_nonpos_of_nonpos_of_nonneg h0 r1)
    have m2 : d ≤ rnd fmt32 (d * r) := le_rnd hdw.1 (by nlinarith)
    constructor <;> linarith

theorem cursor_vstep {c p : Vec F32} {r : F32} (hc : VBd 20 c) (hp : VNear p) (hr : In32 0 1 r) :
    VBd 20 (c.add ((p.sub c).scl r)) :=
  ⟨cursor_step hc.1 hp.1 hr, cursor_step hc.2 hp.2 hr⟩

/-- The part of the way the cursor moves. -/
theorem ratio_in {x r : F64} {b : ℚ} (hw : WF x) (hx : In 0 b x) (hr : In 1 100 r) (h : (r <. x) = true) :
    In 0 1 ((x -. r) /. x) := by
  obtain ⟨v, z, rfl, v1, v2⟩ := hx
  obtain ⟨w, t, rfl, w1, w2⟩ := hr
  have hlt : w < v := by simpa [go_lt, Fl.lt] using h
  have hv : |v| < pow2 1024 := hw.2.1
  have hsub : In 0 v ((fin v z : F64) -. fin w t) :=
    in_ofRat _ nice_zero ⟨hw.1, hv⟩ (by linarith) (by linarith)
  refine hsub.div_le (c := v) (d := v) ⟨v, z, rfl, le_rfl, le_rfl⟩ (by linarith) ?_
  obtain ⟨u, s, e, u1, u2⟩ := hsub
  rw [e, fin_le_fin]
  exact u2

theorem in32_down {x : F64} (h : In 0 1 x) : In32 0 1 (down x : F32) := by
  obtain ⟨v, z, rfl, h1, h2⟩ := h
  have hb : Bd 0 (down (fin v z : F64) : F32) := bd_down ⟨v, z, rfl, by
    have : pow2 0 = 1 := by simp [pow2]
    rw [this, abs_of_nonneg h1]; exact h2⟩ (by decide) (by decide)
  have := in32_of_bd hb (fun _ => ofRat_nonneg h1 _)
  have e : pow2 0 = 1 := by simp [pow2]
  rwa [e] at this

/-- Adding to a travel distance. -/
theorem travel_add {t : F32} {x : F64} {n : ℕ} (ht : In32 0 (n * 2 ^ 28) t) (hx : In 0 (2 ^ 28) x) (hn : n < 2 ^ 20) :
    In32 0 ((n + 1 : ℕ) * 2 ^ 28) (t +. down x) := by
  have hd : In32 0 (2 ^ 28) (down x : F32) := by
    have hb : Bd 28 (down x : F32) := bd_down (hx.bd 28 (by norm_num) (by norm_num)) (by decide) (by decide)
    obtain ⟨v, z, rfl, h1, h2⟩ := hx
    have := in32_of_bd hb (fun _ => ofRat_nonneg h1 _)
    rwa [show pow2 28 = 2 ^ 28 from pow2_nat 28] at this
  obtain ⟨v, z, rfl, v1, v2⟩ := ht
  obtain ⟨w, s, e, w1, w2⟩ := hd
  rw [e]
  have hn' : (n : ℚ) ≤ 2 ^ 20 := by exact_mod_cast hn.le
  have hq : |v + w| ≤ pow2 49 := by
    rw [show pow2 49 = 2 ^ 49 from pow2_nat 49, abs_of_nonneg (by linarith)]
    nlinarith
  have hadd : ∃ b, ((fin v z : F32) +. fin w s) = fin (rnd fmt32 (v + w)) b := fin_of_ofRat hq (by decide) (by decide)
  obtain ⟨b, eb⟩ := hadd
  have hrep : Rep fmt32 (((n + 1 : ℕ) : ℚ) * 2 ^ 28) := by
    refine ⟨n + 1, 28, by decide, ?_, ?_⟩
    · rw [abs_of_nonneg (by positivity)]
      show ((n : ℤ) + 1) ≤ 2 ^ 24
      omega
    · rw [show pow2 28 = 2 ^ 28 from pow2_nat 28]; push_cast; ring
  rw [eb]
  refine ⟨_, _, rfl, le_rnd Rep.zero (by linarith), rnd_le hrep ?_⟩
  push_cast
  linarith

structure LazyFine (n : ℕ) (st : LazyState F32) : Prop where
  cursor : VBd 20 st.cursor
  travel : In32 0 (n * 2 ^ 28) st.travelDistance

theorem lazyMove_fine {n : ℕ} (hn : n < 2 ^ 20) {st : LazyState F32} (hs : LazyFine n st) {sf r : F64} (hsf : In 0 64 sf)
    (hr : In 1 100 r) {p : Vec F32} (hp : VNear p) :
    LazyFine (n + 1) (if sf *. up (p.sub st.cursor).len >. r then
      { st with
        cursor := st.cursor.add ((p.sub st.cursor).scl (down ((sf *. up (p.sub st.cursor).len -. r) /. (sf *. up (p.sub st.cursor).len))))
        travelDistance := st.travelDistance +. down (sf *. up (p.sub st.cursor).len *.
          ((sf *. up (p.sub st.cursor).len -. r) /. (sf *. up (p.sub st.cursor).len))) } else st) := by
  have hl : Bd ((22 : ℕ) : ℤ) (p.sub st.cursor).len := VBd.len (k := 21)
    (VBd.sub (k := 20) hp.bd hs.cursor (by norm_num) (by norm_num)) (by norm_num) (by decide +kernel)
  have hlen : In 0 (2 ^ 22) (up (p.sub st.cursor).len : F64) :=
    in_of_nn0 (bd_up hl (by norm_num) (by norm_num)) (NN0.up (math32_sqrt_nn0 _))
  have hx : In 0 (2 ^ 28) (sf *. up (p.sub st.cursor).len) :=
    hsf.mul hlen le_rfl le_rfl nice_zero (nice_pow 28 (by norm_num)) (by norm_num) (by norm_num)
  have hw : WF (sf *. up (p.sub st.cursor).len) := mul_wf
  generalize sf *. up (p.sub st.cursor).len = x at hx hw ⊢
  split
  · rename_i hlt
    have hq := ratio_in hw hx hr hlt
    refine ⟨cursor_vstep hs.cursor hp (in32_down hq), travel_add hs.travel ?_ hn⟩
    exact hx.mul hq le_rfl le_rfl nice_zero (nice_pow 28 (by norm_num)) (by norm_num) (by norm_num)
  · refine ⟨hs.cursor, ?_⟩
    obtain ⟨v, z, e, v1, v2⟩ := hs.travel
    refine ⟨v, z, e, v1, v2.trans ?_⟩
    push_cast
    nlinarith

theorem lazyStep_fine {o : Obj F32 F64} {m : Modifier} {sf : F64} {p : TickPoint F64} {last : Bool} {n : ℕ}
    (hn : n < 2 ^ 20) {st st' : LazyState F32} (h : lazyStep o m sf p last st = .ok st') (hs : LazyFine n st)
    (hsf : In 0 64 sf) (he : VNear st.endPosition)
    (hp : ∀ v, o.getStackedPositionAtMod (if last then o.base.endTime else p.time) m = .ok v → VNear v) :
    LazyFine (n + 1) st' ∧ (last = false → st'.endPosition = st.endPosition) ∧ (last = true → VBd 20 st'.endPosition) := by
  have h90 : In 1 100 (lit 90 : F64) := in_lit nice_one (by exact nice_nat 100 (by norm_num)) (by norm_num) (by norm_num)
  have h50 : In 1 100 (lit 50 : F64) := in_lit nice_one (by exact nice_nat 100 (by norm_num)) (by norm_num) (by norm_num)
  unfold lazyStep at h
  cases last
  · simp only [Bool.false_eq_true, if_false, Bool.not_false, Bool.true_and] at h hp
    obtain ⟨pos, hpos, h⟩ := bind_ok h
    have h := Except.ok.inj h
    have hr : In 1 100 (if p.isReverse = true then (lit 50 : F64) else lit 90) := by split <;> assumption
    have := lazyMove_fine hn hs hsf hr (hp _ hpos)
    rw [h] at this
    refine ⟨this, fun _ => ?_, fun h => nomatch h⟩
    rw [← h]
    exact apply_ite LazyState.endPosition _ _ _ |>.trans (ite_self _)
  · simp only [if_true, Bool.not_true, Bool.false_and, Bool.false_eq_true, if_false] at h hp
    obtain ⟨pos, hpos, h⟩ := bind_ok h
    have h := Except.ok.inj h
    have key : ∀ q : Vec F32, VNear q → ∀ mv, mv = q.sub st.cursor → LazyFine (n + 1) (if sf *. up mv.len >. lit 90 then
      { st with
        cursor := st.cursor.add (mv.scl (down ((sf *. up mv.len -. lit 90) /. (sf *. up mv.len))))
        travelDistance := st.travelDistance +. down (sf *. up mv.len *.
          ((sf *. up mv.len -. lit 90) /. (sf *. up mv.len))) } else st) := by
      rintro q hq mv rfl
      exact lazyMove_fine hn hs hsf h90 hq
    obtain ⟨q, hq, hmv⟩ : ∃ q, VNear q ∧ (if ((st.endPosition.sub st.cursor).len <. (pos.sub st.cursor).len) = true
        then st.endPosition.sub st.cursor else pos.sub st.cursor) = q.sub st.cursor := by
      split
      · exact ⟨_, he, rfl⟩
      · exact ⟨_, hp _ hpos, rfl⟩
    have := key q hq _ hmv
    rw [← h]
    exact ⟨⟨this.1, this.2⟩, (by intro h; cases h), fun _ => this.1⟩

theorem lazyLoop_fine {o : Obj F32 F64} {m : Modifier} {sf : F64} (hsf : In 0 64 sf) {ps : List (TickPoint F64)} {n : ℕ}
    (hn : n + ps.length ≤ 2 ^ 20) {st st' : LazyState F32} (h : lazyLoop o m sf ps st = .ok st') (hs : LazyFine n st)
    (he : VNear st.endPosition)
    (hp : ∀ t ∈ o.base.endTime :: ps.map (·.time), ∀ v, o.getStackedPositionAtMod t m = .ok v → VNear v) :
    LazyFine (2 ^ 20) st' ∧ VBd 20 st'.endPosition := by
  have weaken : ∀ {k : ℕ} {s : LazyState F32}, k ≤ 2 ^ 20 → LazyFine k s → LazyFine (2 ^ 20) s := by
    intro k s hk hs
    refine ⟨hs.1, ?_⟩
    obtain ⟨v, z, e, v1, v2⟩ := hs.travel
    refine ⟨v, z, e, v1, v2.trans ?_⟩
    have : (k : ℚ) ≤ ((2 ^ 20 : ℕ) : ℚ) := by exact_mod_cast hk
    nlinarith
  induction ps generalizing st n with
  | nil => cases h; exact ⟨weaken (by simpa using hn) hs, he.bd⟩
  | cons p ps ih =>
    cases ps with
    | nil =>
      simp only [List.length_cons, List.length_nil] at hn
      obtain ⟨h1, -, h2⟩ := lazyStep_fine (last := true) (by omega) h hs hsf he (hp _ (by simp))
      exact ⟨weaken (by omega) h1, h2 rfl⟩
    | cons q qs =>
      rw [lazyLoop] at h
      · obtain ⟨s1, h1, h2⟩ := bind_ok h
        simp only [List.length_cons] at hn
        obtain ⟨g1, g2, -⟩ := lazyStep_fine (last := false) (by omega) h1 hs hsf he (hp _ (by simp))
        refine ih (n := n + 1) (by simp only [List.length_cons]; omega) h2 g1 (by rw [g2 rfl]; exact he) ?_
        intro t ht
        exact hp t (by simp only [List.mem_cons, List.map_cons] at ht ⊢; tauto)
      · intro hc; cases hc

/-- What the difficulty objects need to know of a decorated slider. -/
structure LazyOk (l : Lazy F32 F64) : Prop where
  endPosition : VBd 20 l.endPosition
  travel : In 0 (2 ^ 68) (up l.travelDistance : F64)
  wf : WF l.travelDistance
  time : In (-2 ^ 41) (2 ^ 41) l.travelTime

variable [GoLibm F64]

theorem newLazySlider_ok (hl : PowLaws) {o : Obj F32 F64} {s : SliderData F32 F64} {d : Difficulty F64}
    {l : Lazy F32 F64} (h : newLazySlider o s d = .ok l) (hd : In 1 1024 d.circleRadius)
    (ho : OrdinaryObject d o) (hs : OrdinarySlider d o s) : LazyOk l := by
  unfold newLazySlider at h
  obtain ⟨last, hlast, h⟩ := bind_ok h
  simp only at h
  obtain ⟨pos, hpos, h⟩ := bind_ok h
  obtain ⟨st, hst, h⟩ := bind_ok h
  rw [← Except.ok.inj h]
  have hlast' : s.scorePoints.getLast? = some last := by
    unfold index at hlast
    split at hlast
    · cases hlast
    · rename_i hlt
      rw [show ((s.scorePoints.length : ℤ) - 1).toNat = s.scorePoints.length - 1 by omega] at hlast
      rw [List.getLast?_eq_getElem?]
      split at hlast
      · rename_i e; cases hlast; exact e
      · cases hlast
  have hmem : last ∈ s.scorePoints := List.mem_of_getLast? hlast'
  have hsf : In 0 64 (lit 50 /. d.circleRadius) :=
    (in_lit (q := 50) (a := 0) (b := 64) nice_zero (by exact nice_nat 64 (by norm_num)) (by norm_num) (by norm_num)).div hd le_rfl
      (by norm_num) (by exact nice_nat 64 (by norm_num)) (by norm_num)
  have hp : ∀ t ∈ usedTimes o s, ∀ v, o.getStackedPositionAtMod t d.mods = .ok v → VNear v :=
    fun t ht v hv => placed_near (hs.placed t ht v hv)
  have n40 : Nice (2 ^ 40) := nice_pow 40 (by norm_num)
  have n41 : Nice (2 ^ 41) := nice_pow 41 (by norm_num)
  obtain ⟨h1, h2⟩ := lazyLoop_fine (n := 0) hsf (by have := hs.points; omega) hst
    ⟨(placed_near ho.startPos).bd, ⟨0, false, (by decide +kernel : (lit 0 : F32) = fin 0 false), le_rfl, by norm_num⟩⟩
    (hp _ (by simp [usedTimes, hlast']) _ hpos)
    (fun t ht => hp t (by simp only [usedTimes, List.mem_append]; exact .inl ht))
  have htt : In (-2 ^ 41) (2 ^ 41) (last.time -. o.base.startTime) :=
    (in_of_within (hs.times _ hmem) n40.neg n40).sub (in_of_within ho.start n40.neg n40) n41.neg n41 (by norm_num) (by norm_num)
  have hb1 : In 0 (2 ^ 19) (ofInt (s.repeatCount - 1) /. lit 2.5 : F64) :=
    (in_nat 20 (by norm_num) (by have := hs.repeats.1; omega) (by have := hs.repeats.2; omega)).div
      (in_lit (q := 2.5) (a := 2) (b := 3) (by exact nice_nat 2 (by norm_num)) (by exact nice_nat 3 (by norm_num)) (by norm_num) (by norm_num))
      le_rfl (by norm_num) (nice_pow 19 (by norm_num)) (by norm_num)
  have hb2 : In 1 (2 ^ 20) (lit 1 +. ofInt (s.repeatCount - 1) /. lit 2.5 : F64) :=
    (in_lit (q := 1) nice_one nice_one le_rfl le_rfl).add hb1 nice_one (nice_pow 20 (by norm_num)) (by norm_num) (by norm_num)
  have hb3 : In 0 (2 ^ (20 * 1)) (GoLibm.pow (lit 1 +. ofInt (s.repeatCount - 1) /. lit 2.5) (lit (1 / 2.5)) : F64) :=
    pow_large hl (by norm_num) (by norm_num) (by norm_num) hb2
      ((lit_unit (q := 1 / 2.5) (by norm_num) (by norm_num)).mono le_rfl (by norm_num))
  have hbd : Bd 20 (down (GoLibm.pow (lit 1 +. ofInt (s.repeatCount - 1) /. lit 2.5) (lit (1 / 2.5)) : F64) : F32) :=
    bd_down (hb3.bd 20 (by norm_num) (by norm_num)) (by norm_num) (by norm_num)
  have hbn : NN0 (down (GoLibm.pow (lit 1 +. ofInt (s.repeatCount - 1) /. lit 2.5) (lit (1 / 2.5)) : F64) : F32) := by
    obtain ⟨v, z, e, v1, v2⟩ := hb3
    rw [e]
    exact fun _ => ofRat_nonneg v1 _
  have htd : Bd 48 st.travelDistance ∧ NN0 st.travelDistance := by
    obtain ⟨v, z, e, v1, v2⟩ := h1.travel
    rw [e]
    refine ⟨⟨v, z, rfl, ?_⟩, fun _ => nonNeg_fin.mpr v1⟩
    rw [show pow2 48 = 2 ^ 48 from pow2_nat 48, abs_of_nonneg v1]
    push_cast at v2
    norm_num at v2 ⊢
    exact v2
  have hm := Bd.mul (f := fmt32) htd.1 hbd (by decide) (by decide)
  exact ⟨h2, in_of_nn0 (k := 68) (bd_up hm (by norm_num) (by norm_num)) (NN0.up (NN0.mul htd.2 hbn)), mul_wf, htt⟩

/-- What the difficulty objects need to know of a decorated object. -/
structure DecoOk (d : Difficulty F64) (p : PObj F32 F64) : Prop where
  start : In (-2 ^ 40) (2 ^ 40) p.obj.base.startTime
  startPos : VBd 20 (p.obj.base.getStackedStartPositionMod d.mods)
  endPos : VBd 20 (p.obj.base.getStackedEndPositionMod d.mods)
  lazy : ∀ l, p.lazy = some l → LazyOk l
  spinner : p.lazy.isSome = true → p.obj.isSpinner = false

theorem decorate_ok (hl : PowLaws) {d : Difficulty F64} {o : Obj F32 F64} {p : PObj F32 F64} (h : decorate d o = .ok p)
    (hd : In 1 1024 d.circleRadius) (ho : OrdinaryObject d o) : DecoOk d p := by
  have n40 : Nice (2 ^ 40) := nice_pow 40 (by norm_num)
  have h1 := in_of_within ho.start n40.neg n40
  have h2 := (placed_near ho.startPos).bd
  have h3 := (placed_near ho.endPos).bd
  unfold decorate at h
  cases hk : o.kind with
  | slider s =>
    rw [hk] at h
    obtain ⟨l', hl', h⟩ := bind_ok h
    cases h
    refine ⟨h1, h2, h3, ?_, fun _ => by simp [Obj.isSpinner, hk]⟩
    intro l e
    cases e
    exact newLazySlider_ok hl hl' hd ho (ho.slider s hk)
  | circle =>
    rw [hk] at h; cases h
    exact ⟨h1, h2, h3, (by intro l e; cases e), (by intro e; cases e)⟩
  | spinner =>
    rw [hk] at h; cases h
    exact ⟨h1, h2, h3, (by intro l e; cases e), (by intro e; cases e)⟩

end GosuPP
