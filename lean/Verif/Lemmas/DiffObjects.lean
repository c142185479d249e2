import Verif.Lemmas.Calc
import Verif.Lemmas.CurveIEEE
import Verif.Lemmas.SliderIEEE
import Verif.Spec.DiffObjects

/-! Difficulty objects: the i-th object comes from the hit objects i and i + 1. -/

namespace GosuPP
open Go Spec

section
variable {S D : Type} [GoFloat S] [GoFloat D] [GoConv S D] [GoLibm D]

theorem diffObjectLoop_get (d : Difficulty D) (ll : Option (PObj S D)) (l : PObj S D)
    (ps : List (PObj S D)) (i : Nat) {o : DiffObject S D} (h : (diffObjectLoop d ll l ps)[i]? = some o) :
    ∃ a b c, (l :: ps)[i]? = some a ∧ ps[i]? = some b ∧ o = newDiffObject b c a d ∧
      c = if i = 0 then ll else (l :: ps)[i - 1]? := by
  induction ps generalizing ll l i with
  | nil => simp [diffObjectLoop] at h
  | cons p ps ih =>
    rw [diffObjectLoop] at h
    cases i with
    | zero => cases h; exact ⟨l, p, ll, rfl, rfl, rfl, rfl⟩
    | succ i =>
      obtain ⟨a, b, c, h1, h2, h3, h4⟩ := ih (some l) p i h
      refine ⟨a, b, c, h1, h2, h3, ?_⟩
      rw [h4]
      cases i <;> rfl

theorem createDifficultyObjects_get {d : Difficulty D} {objs : List (Obj S D)}
    {ds : List (DiffObject S D)} (h : createDifficultyObjects objs d = .ok ds) {i : Nat}
    {o : DiffObject S D} (ho : ds[i]? = some o) :
    ∃ a b c x y, objs[i]? = some x ∧ objs[i + 1]? = some y ∧ decorate d x = .ok a ∧
      decorate d y = .ok b ∧ o = newDiffObject b c a d := by
  obtain ⟨ps, hps, rfl⟩ := createDifficultyObjects_ok h
  cases ps with
  | nil => simp at ho
  | cons p rest =>
    obtain ⟨a, b, c, h1, h2, h3, -⟩ := diffObjectLoop_get d none p rest i ho
    have hf := decorateAll_ok hps
    have h2' : (p :: rest)[i + 1]? = some b := h2
    have get : ∀ (j : Nat) q, (p :: rest)[j]? = some q → ∃ x, objs[j]? = some x ∧ decorate d x = .ok q := by
      intro j q hq
      have hj : j < (p :: rest).length := (List.getElem?_eq_some_iff.mp hq).1
      have hj' : j < objs.length := hf.length_eq ▸ hj
      refine ⟨objs[j], List.getElem?_eq_getElem hj', ?_⟩
      have := hf.get hj' hj
      rw [(List.getElem?_eq_some_iff.mp hq).2.symm]
      simpa using this
    obtain ⟨x, hx, hx'⟩ := get i a h1
    obtain ⟨y, hy, hy'⟩ := get (i + 1) b h2'
    exact ⟨a, b, c, x, y, hx, hy, hx', hy', h3⟩

omit [GoLibm D] in
theorem setTravel_movement {d : Difficulty D} {a : PObj S D} {l : Lazy S D} (hl : a.lazy = some l)
    (o : DiffObject S D) : ∃ z : D, (setTravel d a o).movementDistance = fmax (lit 0) z := by
  unfold setTravel; simp only; rw [hl]; exact ⟨_, rfl⟩

/-- `SetDistances` leaves the times and the base object alone. -/
theorem newDiffObject_times (b : PObj S D) (c : Option (PObj S D)) (a : PObj S D) (d : Difficulty D) :
    (newDiffObject b c a d).baseObject = b ∧
    (newDiffObject b c a d).startTime = b.obj.base.startTime /. d.speed ∧
    (newDiffObject b c a d).endTime = b.obj.base.endTime /. d.speed ∧
    (newDiffObject b c a d).deltaTime = (b.obj.base.startTime -. a.obj.base.startTime) /. d.speed ∧
    (newDiffObject b c a d).strainTime =
      fmax ((b.obj.base.startTime -. a.obj.base.startTime) /. d.speed) (lit 25) := by
  unfold newDiffObject setDistances
  simp only
  split
  · exact ⟨rfl, rfl, rfl, rfl, rfl⟩
  · unfold setAngle setTravel
    split <;> split <;> try split
    all_goals exact ⟨rfl, rfl, rfl, rfl, rfl⟩

end

namespace Fl
open Go.Fl
variable {f : Fmt}

theorem atLeast_iff {a x : Fl f} : AtLeast a x ↔ (NN x → Fl.le a x = true) := by
  unfold AtLeast
  rw [go_isNaN, go_le, isNaN_iff]
  constructor
  · rintro (h | h) hn
    · exact absurd h hn
    · exact h
  · intro h
    by_cases hx : x = .nan
    · exact .inl hx
    · exact .inr (h hx)

/-- The sign test used below: not a number, or nonnegative. -/
def NN0 (x : Fl f) : Prop := NN x → NonNeg x

theorem atLeast_zero [f.Ok] {x : Fl f} : AtLeast (lit 0) x ↔ NN0 x := by
  rw [atLeast_iff]
  unfold NN0 NonNeg
  rw [go_lit, ofRat_zero]

theorem nn0_zero [f.Ok] : NN0 (lit 0 : Fl f) := by
  intro _
  rw [go_lit, ofRat_zero, nonNeg_fin]

theorem nan_add (x : Fl f) : add .nan x = .nan := by cases x <;> rfl
theorem add_nan (x : Fl f) : add x .nan = .nan := by cases x <;> rfl
theorem nan_mul (x : Fl f) : mul .nan x = .nan := by cases x <;> rfl
theorem mul_nan (x : Fl f) : mul x .nan = .nan := by cases x <;> rfl

theorem NN0.add [f.Ok] {x y : Fl f} (hx : NN0 x) (hy : NN0 y) : NN0 (Fl.add x y) := by
  intro h
  refine add_nonneg (hx ?_) (hy ?_)
  · rintro rfl; exact h (nan_add y)
  · rintro rfl; exact h (add_nan x)

theorem NN0.mul [f.Ok] {x y : Fl f} (hx : NN0 x) (hy : NN0 y) : NN0 (Fl.mul x y) := by
  intro h
  refine mul_nonneg (hx ?_) (hy ?_) h
  · rintro rfl; exact h (nan_mul y)
  · rintro rfl; exact h (mul_nan x)

theorem NN0.cvt {g : Fmt} [g.Ok] {x : Fl f} (hx : NN0 x) : NN0 (Fl.cvt g x) :=
  fun h => cvt_nonneg (hx (cvt_nn.mp h))

theorem nn0_sqrt (x : Fl f) : NN0 (Fl.sqrt x) := sqrt_nonneg

/-- `math.Max` is at least its second argument unless it is NaN. -/
theorem fmax_right [f.Ok] {x y : Fl f} (hy : NN y) (h : NN (fmax x y)) : Fl.le y (fmax x y) = true := by
  by_cases hx : NN x
  · exact (fmax_spec hx hy).2.1
  · have hx : x = .nan := not_not.mp hx
    subst hx
    by_cases hp : isPosInf y = true
    · have : y = .inf false := by cases y with
        | inf s => cases s <;> simp_all [isPosInf]
        | _ => simp [isPosInf] at hp
      subst this
      rfl
    · rw [fmax_nan_left y (by simpa using hp)] at h
      exact absurd rfl h

theorem fmax_left [f.Ok] {x y : Fl f} (hx : NN x) (h : NN (fmax x y)) : Fl.le x (fmax x y) = true := by
  by_cases hy : NN y
  · exact (fmax_spec hx hy).1
  · have hy : y = .nan := not_not.mp hy
    subst hy
    by_cases hp : isPosInf x = true
    · have : x = .inf false := by cases x with
        | inf s => cases s <;> simp_all [isPosInf]
        | _ => simp [isPosInf] at hp
      subst this
      rfl
    · rw [fmax_nan_right x (by simpa using hp)] at h
      exact absurd rfl h

theorem atLeast_fmax [f.Ok] (x : Fl f) (q : ℚ) : AtLeast (lit q) (fmax x (lit q)) :=
  atLeast_iff.mpr (fmax_right (lit_nn q))

theorem atLeast_fmax_left [f.Ok] (x : Fl f) (q : ℚ) : AtLeast (lit q) (fmax (lit q) x) :=
  atLeast_iff.mpr (fmax_left (lit_nn q))

theorem NN0.up {x : F32} (hx : NN0 x) : NN0 (GoConv.up x : F64) := NN0.cvt hx
theorem NN0.down {x : F64} (hx : NN0 x) : NN0 (GoConv.down x : F32) := NN0.cvt hx

theorem nn0_abs (x : Fl f) : NN0 (Fl.abs x) := by
  intro h
  cases x with
  | nan => exact absurd rfl h
  | inf s => rfl
  | fin v b => show NonNeg (fin |v| false : Fl f); rw [nonNeg_fin]; exact abs_nonneg v

end Fl
end GosuPP

namespace GosuPP
open Go Spec Go.Fl
open GosuPP.Fl (NN0 nn0_zero atLeast_zero atLeast_fmax atLeast_fmax_left nn0_abs nn0_sqrt)

theorem math32_sqrt_nn0 (x : F32) : NN0 (Math32.sqrt x) := NN0.down (nn0_sqrt _)

theorem dst_nn0 (a b : Vec F32) : NN0 (a.dst b) := math32_sqrt_nn0 _

/-- `(x - r) / x` is nonnegative (or NaN) when `x` exceeds the positive number `r`. -/
theorem ratio_nn0 {x r : F64} (hr : Go.Fl.lt (fin 0 false) r = true) (h : Go.Fl.lt r x = true) :
    NN0 (Go.Fl.div (Go.Fl.sub x r) x) ∧ NN0 x := by
  have hx := Go.Fl.lt_trans hr h
  refine ⟨?_, fun _ => Go.Fl.le_of_lt hx⟩
  intro hn
  cases x with
  | nan => exact absurd rfl (lt_nn h).2
  | inf s =>
    cases s
    · exfalso
      apply hn
      cases r with
      | nan => cases h
      | inf s => cases s <;> rfl
      | fin w c => rfl
    · cases hx
  | fin v b =>
    cases r with
    | nan => cases h
    | inf s => cases s
               · cases h
               · cases hr
    | fin w c =>
      rw [lt_fin_iff] at hx h hr
      refine div_nonneg ?_ hx b
      show NonNeg (Go.Fl.add (fin v b) (fin (-w) _))
      unfold Go.Fl.add
      simp only
      exact ofRat_nonneg (by linarith) _

variable [GoLibm F64]

theorem lazyStep_travel {o : Obj F32 F64} {m : Modifier} {sf : F64} {p : TickPoint F64} {last : Bool}
    {st st' : LazyState F32} (h : lazyStep o m sf p last st = .ok st') (hs : NN0 st.travelDistance) :
    NN0 st'.travelDistance := by
  have key : ∀ (len req : F64) (cu : Vec F32), Go.Fl.lt (fin 0 false) req = true →
      NN0 (if len >. req then
        ({ st with cursor := cu, travelDistance :=
          st.travelDistance +. down (len *. ((len -. req) /. len)) } : LazyState F32) else st).travelDistance := by
    intro len req cu hr
    split
    · rename_i hlt
      obtain ⟨h1, h2⟩ := ratio_nn0 hr hlt
      exact NN0.add hs (NN0.down (NN0.mul h2 h1))
    · exact hs
  have hreq : ∀ b : Bool, Go.Fl.lt (fin 0 false) (if b then (lit 50 : F64) else lit 90) = true := by
    intro b
    cases b <;> decide +kernel
  unfold lazyStep at h
  cases last
  · simp only [Bool.false_eq_true, if_false, Bool.not_false, Bool.true_and] at h
    obtain ⟨pos, -, h⟩ := bind_ok h
    rw [← Except.ok.inj h]
    exact key _ _ _ (hreq p.isReverse)
  · simp only [if_true, Bool.not_true, Bool.false_and, Bool.false_eq_true, if_false] at h
    obtain ⟨pos, -, h⟩ := bind_ok h
    rw [← Except.ok.inj h]
    exact key _ _ _ (hreq false)

theorem lazyLoop_travel {o : Obj F32 F64} {m : Modifier} {sf : F64} {ps : List (TickPoint F64)}
    {st st' : LazyState F32} (h : lazyLoop o m sf ps st = .ok st') (hs : NN0 st.travelDistance) :
    NN0 st'.travelDistance := by
  induction ps generalizing st with
  | nil => cases h; exact hs
  | cons p ps ih =>
    cases ps with
    | nil => exact lazyStep_travel h hs
    | cons q qs =>
      rw [lazyLoop] at h
      · obtain ⟨s1, h1, h2⟩ := bind_ok h
        exact ih h2 (lazyStep_travel h1 hs)
      · intro hc; cases hc

/-- The library's `math.Pow(x, 0.4)` is never negative. -/
def PowSign : Prop := ∀ x : F64, AtLeast (lit 0) (GoLibm.pow x (lit (1 / 2.5)) : F64)

theorem newLazySlider_travel (hp : PowSign) {o : Obj F32 F64} {s : SliderData F32 F64} {d : Difficulty F64}
    {l : Lazy F32 F64} (h : newLazySlider o s d = .ok l) : NN0 l.travelDistance := by
  unfold newLazySlider at h
  obtain ⟨last, -, h⟩ := bind_ok h
  simp only at h
  obtain ⟨pos, -, h⟩ := bind_ok h
  obtain ⟨st, hst, h⟩ := bind_ok h
  have h := Except.ok.inj h
  rw [← h]
  exact NN0.mul (lazyLoop_travel hst nn0_zero) (NN0.down (atLeast_zero.mp (hp _)))

theorem decorate_travel (hp : PowSign) {d : Difficulty F64} {o : Obj F32 F64} {p : PObj F32 F64}
    (h : decorate d o = .ok p) : ∀ l, p.lazy = some l → NN0 l.travelDistance := by
  intro l hl
  unfold decorate at h
  cases hk : o.kind with
  | slider s =>
    rw [hk] at h
    obtain ⟨l', hl', h⟩ := bind_ok h
    cases h
    cases hl
    exact newLazySlider_travel hp hl'
  | circle => rw [hk] at h; cases h; cases hl
  | spinner => rw [hk] at h; cases h; cases hl

theorem newDiffObject_describes (hp : PowSign) {d : Difficulty F64} {x y : Obj F32 F64} {a b : PObj F32 F64}
    (ha : decorate d x = .ok a) (hb : decorate d y = .ok b) (c : Option (PObj F32 F64)) :
    Describes d.speed x y (newDiffObject b c a d) := by
  obtain ⟨t1, t2, t3, t4, t5⟩ := newDiffObject_times b c a d
  obtain ⟨ea, la⟩ := decorate_obj ha
  obtain ⟨eb, -⟩ := decorate_obj hb
  have htr := decorate_travel hp ha
  have hst : AtLeast (lit 25) (newDiffObject b c a d).strainTime := by rw [t5]; exact atLeast_fmax _ _
  have hz : AtLeast (lit 0) (lit 0 : F64) := atLeast_zero.mpr nn0_zero
  have hn : AtLeast (lit 0) (GoFloat.nan : F64) := .inl rfl
  by_cases hs : b.obj.isSpinner || a.obj.isSpinner
  · have e : ∀ P : DiffObject F32 F64 → Prop, P { baseObject := b
                                                  deltaTime := (b.obj.base.startTime -. a.obj.base.startTime) /. d.speed
                                                  startTime := b.obj.base.startTime /. d.speed
                                                  endTime := b.obj.base.endTime /. d.speed
                                                  angle := GoFloat.nan
                                                  strainTime := fmax ((b.obj.base.startTime -. a.obj.base.startTime) /. d.speed) (lit 25)
                                                  jumpDistance := lit 0, movementDistance := lit 0, travelDistance := lit 0
                                                  movementTime := lit 0, travelTime := lit 0 } →
        P (newDiffObject b c a d) := by
      intro P hP
      unfold newDiffObject setDistances
      simp only
      rw [if_pos hs]
      exact hP
    refine ⟨by rw [t1, eb], by rw [t2, eb], by rw [t3, eb], by rw [t4, ea, eb], hst, ?_, ?_, ?_, ?_, ?_, ?_, ?_⟩
    · exact e (fun o => AtLeast (lit 0) o.jumpDistance) hz
    · exact e (fun o => AtLeast (lit 0) o.travelDistance) hz
    · exact e (fun o => AtLeast (lit 0) o.movementDistance) hz
    · intro _
      exact e (fun o => o.jumpDistance = lit 0 ∧ o.travelDistance = lit 0 ∧ o.movementDistance = lit 0 ∧
        o.travelTime = lit 0 ∧ o.movementTime = lit 0 ∧ o.angle = GoFloat.nan) ⟨rfl, rfl, rfl, rfl, rfl, rfl⟩
    · intro h1 h2
      rw [ea, eb, h2] at hs
      exfalso
      unfold Obj.isSlider at h1
      unfold Obj.isSpinner at hs
      cases hk : x.kind <;> rw [hk] at h1 hs <;> simp_all
    · intro _ h2 h3
      rw [ea, eb, h2, h3] at hs
      cases hs
    · exact e (fun o => AtLeast (lit 0) o.angle) hn
  · have hs' : (b.obj.isSpinner || a.obj.isSpinner) = false := by simpa using hs
    have e : newDiffObject b c a d = setAngle d c a (setTravel d a { baseObject := b
                                                                     deltaTime := (b.obj.base.startTime -. a.obj.base.startTime) /. d.speed
                                                                     startTime := b.obj.base.startTime /. d.speed
                                                                     endTime := b.obj.base.endTime /. d.speed
                                                                     angle := GoFloat.nan
                                                                     strainTime := fmax ((b.obj.base.startTime -. a.obj.base.startTime) /. d.speed) (lit 25)
                                                                     jumpDistance := lit 0, movementDistance := lit 0, travelDistance := lit 0
                                                                     movementTime := lit 0, travelTime := lit 0 }) := by
      unfold newDiffObject setDistances
      simp only
      rw [if_neg hs]
    generalize ho : ({ baseObject := b
                       deltaTime := (b.obj.base.startTime -. a.obj.base.startTime) /. d.speed
                       startTime := b.obj.base.startTime /. d.speed
                       endTime := b.obj.base.endTime /. d.speed
                       angle := GoFloat.nan
                       strainTime := fmax ((b.obj.base.startTime -. a.obj.base.startTime) /. d.speed) (lit 25)
                       jumpDistance := lit 0, movementDistance := lit 0, travelDistance := lit 0
                       movementTime := lit 0, travelTime := lit 0 } : DiffObject F32 F64) = o0 at e
    have ang : ∀ o : DiffObject F32 F64, AtLeast (lit 0) o.angle →
        AtLeast (lit 0) (setAngle d c a o).angle ∧
        (setAngle d c a o).jumpDistance = o.jumpDistance ∧ (setAngle d c a o).travelDistance = o.travelDistance ∧
        (setAngle d c a o).movementDistance = o.movementDistance ∧ (setAngle d c a o).travelTime = o.travelTime ∧
        (setAngle d c a o).movementTime = o.movementTime ∧ (setAngle d c a o).strainTime = o.strainTime := by
      intro o h
      unfold setAngle
      split
      · exact ⟨h, rfl, rfl, rfl, rfl, rfl, rfl⟩
      · split
        · exact ⟨h, rfl, rfl, rfl, rfl, rfl, rfl⟩
        · refine ⟨?_, rfl, rfl, rfl, rfl, rfl, rfl⟩
          exact atLeast_zero.mpr (NN0.up (NN0.down (nn0_abs _)))
    have h0 : AtLeast (lit 0) o0.angle := by rw [← ho]; exact hn
    have h1 : AtLeast (lit 25) o0.strainTime := by rw [← ho]; exact atLeast_fmax _ _
    have hta : (setTravel d a o0).angle = o0.angle := by unfold setTravel; simp only; split <;> rfl
    obtain ⟨g1, g2, g3, g4, g5, g6, g7⟩ := ang (setTravel d a o0) (by rw [hta]; exact h0)
    rw [e]
    have hj : AtLeast (lit 0) (setTravel d a o0).jumpDistance := by
      have : ∃ u v : Vec F32, (setTravel d a o0).jumpDistance = up (u.dst v) := by
        unfold setTravel; simp only; split <;> exact ⟨_, _, rfl⟩
      obtain ⟨u, v, huv⟩ := this
      rw [huv]
      exact atLeast_zero.mpr (NN0.up (dst_nn0 u v))
    rw [e] at t1 t2 t3 t4 hst
    have hsp : x.isSpinner = false ∧ y.isSpinner = false := by
      rw [ea, eb] at hs'
      cases hx : x.isSpinner <;> cases hy : y.isSpinner <;> rw [hx, hy] at hs' <;> simp_all
    cases hl : a.lazy with
    | none =>
      have et : setTravel d a o0 = { o0 with
          jumpDistance := (setTravel d a o0).jumpDistance
          movementTime := o0.strainTime, movementDistance := (setTravel d a o0).jumpDistance } := by
        unfold setTravel; simp only; rw [hl]
      have e1 : (setTravel d a o0).movementDistance = (setTravel d a o0).jumpDistance := by rw [et]
      have e2 : (setTravel d a o0).travelDistance = lit 0 := by rw [et, ← ho]
      have e3 : (setTravel d a o0).travelTime = lit 0 := by rw [et, ← ho]
      have e4 : (setTravel d a o0).movementTime = (setTravel d a o0).strainTime := by rw [et]
      refine ⟨by rw [t1, eb], by rw [t2, eb], by rw [t3, eb], by rw [t4, ea, eb], hst, ?_, ?_, ?_, ?_, ?_, ?_, g1⟩
      · rw [g2]; exact hj
      · rw [g3, e2]; exact hz
      · rw [g4, e1]; exact hj
      · rintro (h | h)
        · rw [hsp.1] at h; cases h
        · rw [hsp.2] at h; cases h
      · intro h
        rw [← la, hl] at h
        cases h
      · intro _ _ _
        exact ⟨by rw [g6, g7, e4], by rw [g4, g2, e1], by rw [g3, e2], by rw [g5, e3]⟩
    | some l =>
      have et : setTravel d a o0 = { o0 with
          jumpDistance := (setTravel d a o0).jumpDistance
          travelDistance := up l.travelDistance
          travelTime := (setTravel d a o0).travelTime
          movementTime := (setTravel d a o0).movementTime
          movementDistance := (setTravel d a o0).movementDistance } := by
        unfold setTravel; simp only; rw [hl]
      have e1 : ∃ z : F64, (setTravel d a o0).movementDistance = fmax (lit 0) z := setTravel_movement hl o0
      have e2 : (setTravel d a o0).travelDistance = up l.travelDistance := by rw [et]
      have e3 : ∃ z : F64, (setTravel d a o0).travelTime = fmax z (lit 25) := by
        unfold setTravel; simp only; rw [hl]; exact ⟨_, rfl⟩
      have e4 : ∃ z : F64, (setTravel d a o0).movementTime = fmax z (lit 25) := by
        unfold setTravel; simp only; rw [hl]; exact ⟨_, rfl⟩
      refine ⟨by rw [t1, eb], by rw [t2, eb], by rw [t3, eb], by rw [t4, ea, eb], hst, ?_, ?_, ?_, ?_, ?_, ?_, g1⟩
      · rw [g2]; exact hj
      · rw [g3, e2]; exact atLeast_zero.mpr (NN0.up (htr l hl))
      · obtain ⟨z, hz'⟩ := e1
        rw [g4, hz']
        exact atLeast_fmax_left _ _
      · rintro (h | h)
        · rw [hsp.1] at h; cases h
        · rw [hsp.2] at h; cases h
      · intro _ _
        obtain ⟨z, hz'⟩ := e3
        obtain ⟨w, hw⟩ := e4
        rw [g5, g6, hz', hw]
        exact ⟨atLeast_fmax _ _, atLeast_fmax _ _⟩
      · intro h
        rw [← la, hl] at h
        cases h

end GosuPP
