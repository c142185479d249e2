import Verif.Lemmas.LazyBounds

/-! Bounds of difficulty objects. -/

namespace GosuPP
open Go Fl Spec
open GosuPP.Fl (NN0)

/-- Division with a lower bound. -/
theorem In.div' {a b c d a' b' : ℚ} {x y : F64} (hx : In a b x) (hy : In c d y) (ha0 : 0 ≤ a) (hc0 : 0 < c)
    (ha : Nice a') (hb : Nice b') (h1 : a' ≤ a / d) (h2 : b / c ≤ b') : In a' b' (x /. y) := by
  obtain ⟨v, z, rfl, v1, v2⟩ := hx
  obtain ⟨w, t, rfl, w1, w2⟩ := hy
  have hv : 0 ≤ v := ha0.trans v1
  have hw : 0 < w := _root_.lt_of_lt_of_le hc0 w1
  show In a' b' (Fl.div (fin v z) (fin w t))
  unfold Fl.div
  simp only
  rw [if_neg hw.ne']
  refine in_ofRat _ ha hb (h1.trans ?_) (_root_.le_trans ?_ h2)
  · calc a / d ≤ a / w := div_le_div_of_nonneg_left ha0 hw w2
      _ ≤ v / w := div_le_div_of_nonneg_right v1 hw.le
  · calc v / w ≤ v / c := div_le_div_of_nonneg_left hv hc0 w1
      _ ≤ b / c := div_le_div_of_nonneg_right v2 hc0.le

/-- Division of a signed number. -/
theorem In.divS {b c d b' : ℚ} {x y : F64} (hx : In (-b) b x) (hy : In c d y) (hc0 : 0 < c)
    (hb : Nice b') (h2 : b / c ≤ b') : In (-b') b' (x /. y) := by
  obtain ⟨v, z, rfl, v1, v2⟩ := hx
  obtain ⟨w, t, rfl, w1, w2⟩ := hy
  have hw : 0 < w := _root_.lt_of_lt_of_le hc0 w1
  have hb0 : 0 ≤ b := by linarith
  have key : |v / w| ≤ b' := by
    rw [abs_div, abs_of_pos hw]
    have h3 : |v| ≤ b := abs_le.mpr ⟨v1, v2⟩
    calc |v| / w ≤ |v| / c := div_le_div_of_nonneg_left (abs_nonneg _) hc0 w1
      _ ≤ b / c := div_le_div_of_nonneg_right h3 hc0.le
      _ ≤ b' := h2
  show In (-b') b' (Fl.div (fin v z) (fin w t))
  unfold Fl.div
  simp only
  rw [if_neg hw.ne']
  exact in_ofRat _ hb.neg hb (abs_le.mp key).1 (abs_le.mp key).2

theorem nice_25 : Nice 25 := by exact nice_nat 25 (by norm_num)

theorem lit25 : In 25 25 (lit 25 : F64) := in_lit nice_25 nice_25 le_rfl le_rfl

theorem in_zero : In 0 0 (lit 0 : F64) := in_lit nice_zero nice_zero le_rfl le_rfl

/-- The scaling factor of distances. -/
theorem distanceScaling_bd {r : F64} (hr : In 1 1024 r) : Bd 7 (distanceScaling r : F32) := by
  have h50 : (lit 50 : F32) = fin 50 false := by decide +kernel
  have hd : ∃ v z, (down r : F32) = fin v z ∧ 1 ≤ v ∧ v ≤ 1024 := by
    obtain ⟨v, z, rfl, v1, v2⟩ := hr
    have hq : |v| ≤ pow2 10 := by
      rw [show pow2 10 = 2 ^ 10 from pow2_nat 10, abs_of_nonneg (by linarith)]; norm_num; exact v2
    obtain ⟨t, e⟩ := fin_of_ofRat (f := fmt32) (z := z) hq (by decide) (by decide)
    refine ⟨_, t, e, ?_, ?_⟩
    · have h1 : Rep fmt32 ((1 : ℤ) : ℚ) := Go.rep_int (by decide) (by decide)
      exact le_rnd (by exact_mod_cast h1) v1
    · have h1 : Rep fmt32 ((1024 : ℤ) : ℚ) := Go.rep_int (by decide) (by decide)
      exact rnd_le (by exact_mod_cast h1) v2
  obtain ⟨v, z, e, v1, v2⟩ := hd
  have hdiv : Bd 6 ((lit 50 : F32) /. down r) := by
    rw [e, h50]
    show Bd 6 (Fl.div (fin 50 false) (fin v z))
    unfold Fl.div
    simp only
    rw [if_neg (by linarith)]
    refine bd_ofRat (f := fmt32) ?_ (by decide) (by decide) _
    rw [show pow2 6 = 2 ^ 6 from pow2_nat 6, abs_of_nonneg (by positivity), div_le_iff₀ (by linarith)]
    linarith
  unfold distanceScaling
  simp only
  split
  · rename_i hlt
    have hb : Bd 10 (down r : F32) := by
      rw [e]
      exact ⟨v, z, rfl, by rw [show pow2 10 = 2 ^ 10 from pow2_nat 10, abs_of_nonneg (by linarith)]; norm_num; exact v2⟩
    have h30 : In 0 32 (up ((lit 30 : F32) -. down r) : F64) := by
      obtain ⟨v', z', e', v1', v2'⟩ := hr
      have e30 : (lit 30 : F64) = fin 30 false := by decide +kernel
      have e30' : (lit 30 : F32) = fin 30 false := by decide +kernel
      have hlt' : v' < 30 := by rw [e', e30] at hlt; simpa [go_lt, Fl.lt] using hlt
      have hv : v ≤ 30 := by
        rw [e'] at e
        have : (down (fin v' z' : F64) : F32) = ofRat fmt32 v' z' := rfl
        rw [this] at e
        unfold ofRat at e
        simp only at e
        split at e
        · cases e
        · cases e
          have h1 : Rep fmt32 ((30 : ℤ) : ℚ) := Go.rep_int (by decide) (by decide)
          exact rnd_le (by exact_mod_cast h1) hlt'.le
      rw [e, e30']
      have hbd : Bd 5 ((fin 30 false : F32) -. fin v z) := by
        refine bd_ofRat (f := fmt32) ?_ (by decide) (by decide) _
        rw [show pow2 5 = 2 ^ 5 from pow2_nat 5, abs_of_nonneg (by linarith)]
        linarith
      have hnn : NN0 ((fin 30 false : F32) -. fin v z) := fun _ => ofRat_nonneg (by linarith) _
      have := in_of_nn0 (k := 5) (bd_up hbd (by norm_num) (by norm_num)) (NN0.up hnn)
      exact this.mono le_rfl (by norm_num)
    have h5 : In 5 5 (up (lit 5 : F32) : F64) := ⟨5, false, by decide +kernel, le_rfl, le_rfl⟩
    have hmin : Bd 3 (Math32.min ((lit 30 : F32) -. down r) (lit 5)) := by
      refine bd_down ?_ (by norm_num) (by norm_num)
      exact (h30.fmin h5).bd 3 (by norm_num) (by norm_num)
    have hq : Bd 0 (Math32.min ((lit 30 : F32) -. down r) (lit 5) /. lit 50) := by
      obtain ⟨w, t, ew, hw⟩ := hmin
      rw [ew, h50]
      show Bd 0 (Fl.div (fin w t) (fin 50 false))
      unfold Fl.div
      simp only
      rw [if_neg (by norm_num)]
      refine bd_ofRat (f := fmt32) ?_ (by decide) (by decide) _
      rw [show pow2 3 = 2 ^ 3 from pow2_nat 3] at hw
      rw [show pow2 0 = 2 ^ 0 from pow2_nat 0, abs_div, div_le_iff₀ (by norm_num)]
      norm_num at hw ⊢
      linarith
    have h1 : Bd 0 (lit 1 : F32) := ⟨1, false, by decide +kernel, by norm_num [pow2]⟩
    exact Bd.mul hdiv (Bd.add h1 hq (by decide) (by decide)) (by decide) (by decide)
  · exact hdiv.mono (by norm_num)

/-- Bounds of a difficulty object. -/
structure ObjOk (d : Difficulty F64) (o : DiffObject F32 F64) : Prop where
  delta : In 0 (2 ^ 51) o.deltaTime
  start : In (-2 ^ 50) (2 ^ 50) o.startTime
  strain : In 25 (2 ^ 51) o.strainTime
  jump : In 0 (2 ^ 30) o.jumpDistance
  jumpGap : In 0 0 o.jumpDistance ∨ In (1 / 2 ^ 149) (2 ^ 30) o.jumpDistance
  travel : In 0 (2 ^ 68) o.travelDistance
  travelGap : In 0 0 o.travelDistance ∨ In (1 / 2 ^ 149) (2 ^ 68) o.travelDistance
  movement : In 0 (2 ^ 30) o.movementDistance
  movementGap : In 0 0 o.jumpDistance → In 0 0 o.movementDistance
  travelTime : In 0 0 o.travelTime ∨ In 25 (2 ^ 52) o.travelTime
  startPos : VBd 20 (o.baseObject.obj.base.getStackedStartPositionMod d.mods)
  endPos : VBd 20 (o.baseObject.obj.base.getStackedEndPositionMod d.mods)

/-- Bounds of the times of an object after a slider. -/
def Adj (a : PObj F32 F64) (o : DiffObject F32 F64) : Prop :=
  a.lazy.isSome = true → o.baseObject.obj.isSpinner = false →
    In 25 (2 ^ 52) o.movementTime ∧ In 25 (2 ^ 52) o.travelTime

variable [GoLibm F64]

theorem setAngle_frame (d : Difficulty F64) (c : Option (PObj F32 F64)) (a : PObj F32 F64) (o : DiffObject F32 F64) :
    ∃ x, setAngle d c a o = { o with angle := x } := by
  unfold setAngle
  split
  · exact ⟨o.angle, rfl⟩
  · split
    · exact ⟨o.angle, rfl⟩
    · exact ⟨_, rfl⟩

theorem newDiffObject_ok {d : Difficulty F64} (hr : In 1 1024 d.circleRadius) (hs : In (1 / 1024) 1024 d.speed)
    {a b : PObj F32 F64} (c : Option (PObj F32 F64)) (ha : DecoOk d a) (hb : DecoOk d b)
    (hle : (a.obj.base.startTime <=. b.obj.base.startTime) = true) :
    ObjOk d (newDiffObject b c a d) ∧ Adj a (newDiffObject b c a d) := by
  obtain ⟨t1, t2, -, t4, t5⟩ := newDiffObject_times b c a d
  have n41 : Nice (2 ^ 41) := nice_pow 41 (by norm_num)
  have n50 : Nice (2 ^ 50) := nice_pow 50 (by norm_num)
  have n51 : Nice (2 ^ 51) := nice_pow 51 (by norm_num)
  have n52 : Nice (2 ^ 52) := nice_pow 52 (by norm_num)
  have hsub : In 0 (2 ^ 41) (b.obj.base.startTime -. a.obj.base.startTime) := by
    obtain ⟨v, z, e, v1, v2⟩ := hb.start
    obtain ⟨w, t, e', w1, w2⟩ := ha.start
    rw [e, e'] at hle ⊢
    rw [fin_le_fin] at hle
    exact in_ofRat _ nice_zero n41 (by linarith) (by linarith)
  have hdelta : In 0 (2 ^ 51) ((b.obj.base.startTime -. a.obj.base.startTime) /. d.speed) :=
    hsub.div hs le_rfl (by norm_num) n51 (by norm_num)
  have hstrain : In 25 (2 ^ 51) (fmax ((b.obj.base.startTime -. a.obj.base.startTime) /. d.speed) (lit 25)) :=
    (hdelta.fmax lit25).mono (by norm_num) (by norm_num)
  have hstart : In (-2 ^ 50) (2 ^ 50) (b.obj.base.startTime /. d.speed) :=
    hb.start.divS hs (by norm_num) n50 (by norm_num)
  by_cases hsp : (b.obj.isSpinner || a.obj.isSpinner) = true
  · have e : newDiffObject b c a d = { baseObject := b
                                       deltaTime := (b.obj.base.startTime -. a.obj.base.startTime) /. d.speed
                                       startTime := b.obj.base.startTime /. d.speed
                                       endTime := b.obj.base.endTime /. d.speed
                                       angle := GoFloat.nan
                                       strainTime := fmax ((b.obj.base.startTime -. a.obj.base.startTime) /. d.speed) (lit 25)
                                       jumpDistance := lit 0, movementDistance := lit 0, travelDistance := lit 0
                                       movementTime := lit 0, travelTime := lit 0 } := by
      unfold newDiffObject setDistances
      simp only
      rw [if_pos hsp]
    rw [e]
    refine ⟨⟨hdelta, hstart, hstrain, in_zero.mono le_rfl (by norm_num), .inl in_zero, in_zero.mono le_rfl (by norm_num),
      .inl in_zero, in_zero.mono le_rfl (by norm_num), fun _ => in_zero, .inl in_zero, hb.startPos, hb.endPos⟩, ?_⟩
    intro h1 h2
    have := ha.spinner h1
    simp only at h2
    rw [h2, this] at hsp
    cases hsp
  · have e : newDiffObject b c a d = setAngle d c a (setTravel d a { baseObject := b
                                                                     deltaTime := (b.obj.base.startTime -. a.obj.base.startTime) /. d.speed
                                                                     startTime := b.obj.base.startTime /. d.speed
                                                                     endTime := b.obj.base.endTime /. d.speed
                                                                     angle := GoFloat.nan
                                                                     strainTime := fmax ((b.obj.base.startTime -. a.obj.base.startTime) /. d.speed) (lit 25)
                                                                     jumpDistance := lit 0, movementDistance := lit 0, travelDistance := lit 0
                                                                     movementTime := lit 0, travelTime := lit 0 }) := by
      unfold newDiffObject setDistances
      simp only
      rw [if_neg hsp]
    rw [e]
    obtain ⟨ang, e'⟩ := setAngle_frame d c a (setTravel d a { baseObject := b
                                                              deltaTime := (b.obj.base.startTime -. a.obj.base.startTime) /. d.speed
                                                              startTime := b.obj.base.startTime /. d.speed
                                                              endTime := b.obj.base.endTime /. d.speed
                                                              angle := GoFloat.nan
                                                              strainTime := fmax ((b.obj.base.startTime -. a.obj.base.startTime) /. d.speed) (lit 25)
                                                              jumpDistance := lit 0, movementDistance := lit 0, travelDistance := lit 0
                                                              movementTime := lit 0, travelTime := lit 0 })
    rw [e']
    have hcur : VBd 20 (getEndCursorPosition a d.mods) := by
      unfold getEndCursorPosition
      cases hl : a.lazy with
      | none => exact ha.startPos
      | some l => exact (ha.lazy l hl).endPosition
    have hsc := distanceScaling_bd hr
    have hjd : Bd ((29 : ℕ) : ℤ) (((b.obj.base.getStackedStartPositionMod d.mods).scl (distanceScaling d.circleRadius : F32)).dst
        ((getEndCursorPosition a d.mods).scl (distanceScaling d.circleRadius : F32))) :=
      VBd.dst (k := 27) (VBd.scl hb.startPos hsc (by norm_num) (by norm_num)) (VBd.scl hcur hsc (by norm_num) (by norm_num))
        (by norm_num) (by decide +kernel)
    have hj29 : In 0 (2 ^ 29) (up (((b.obj.base.getStackedStartPositionMod d.mods).scl (distanceScaling d.circleRadius : F32)).dst
        ((getEndCursorPosition a d.mods).scl (distanceScaling d.circleRadius : F32))) : F64) :=
      in_of_nn0 (bd_up hjd (by norm_num) (by norm_num)) (NN0.up (dst_nn0 _ _))
    have hj := hj29.mono (a' := 0) (b' := 2 ^ 30) le_rfl (by norm_num)
    have hjg := up_gap (x := ((b.obj.base.getStackedStartPositionMod d.mods).scl (distanceScaling d.circleRadius : F32)).dst
        ((getEndCursorPosition a d.mods).scl (distanceScaling d.circleRadius : F32))) (cvt_wf) hj le_rfl
    unfold setTravel
    simp only
    generalize (up (((b.obj.base.getStackedStartPositionMod d.mods).scl (distanceScaling d.circleRadius : F32)).dst
        ((getEndCursorPosition a d.mods).scl (distanceScaling d.circleRadius : F32))) : F64) = j at hj29 hj hjg ⊢
    cases hl : a.lazy with
    | none =>
      refine ⟨⟨hdelta, hstart, hstrain, hj, hjg, in_zero.mono le_rfl (by norm_num),
        .inl in_zero, hj, fun h => h, .inl in_zero, hb.startPos, hb.endPos⟩, ?_⟩
      intro h1
      rw [hl] at h1
      cases h1
    | some l =>
      simp only
      have hlz := ha.lazy l hl
      have htt : In 25 (2 ^ 52) (fmax (l.travelTime /. d.speed) (lit 25)) :=
        ((hlz.time.divS hs (by norm_num) n51 (by norm_num)).fmax lit25).mono (by norm_num) (by norm_num)
      have hmt : In 25 (2 ^ 52) (fmax (fmax ((b.obj.base.startTime -. a.obj.base.startTime) /. d.speed) (lit 25) -.
          fmax (l.travelTime /. d.speed) (lit 25)) (lit 25)) :=
        ((hstrain.sub htt n52.neg n52 (by norm_num) (by norm_num)).fmax lit25).mono (by norm_num) (by norm_num)
      have htail : Bd ((22 : ℕ) : ℤ) ((a.obj.base.getStackedEndPositionMod d.mods).dst (b.obj.base.getStackedStartPositionMod d.mods)) :=
        VBd.dst (k := 20) ha.endPos hb.startPos (by norm_num) (by decide +kernel)
      have h120 : Bd 29 (lit 120 : F32) := ⟨120, false, by decide +kernel, by
        rw [show pow2 29 = 2 ^ 29 from pow2_nat 29]; norm_num⟩
      have htail2 : Bd ((30 : ℕ) : ℤ) ((a.obj.base.getStackedEndPositionMod d.mods).dst (b.obj.base.getStackedStartPositionMod d.mods)
          *. (distanceScaling d.circleRadius : F32) -. lit 120) :=
        Bd.sub (k := 29) (Bd.mul htail hsc (by decide) (by decide)) h120 (by decide) (by decide)
      have htail3 := in_of_bd (bd_up htail2 (by norm_num) (by norm_num))
      generalize (up ((a.obj.base.getStackedEndPositionMod d.mods).dst (b.obj.base.getStackedStartPositionMod d.mods)
          *. (distanceScaling d.circleRadius : F32) -. lit 120) : F64) = tail at htail3 ⊢
      have n30 : Nice (-30) := by exact (nice_nat 30 (by norm_num)).neg
      have l30 : In 30 30 (lit 30 : F64) := in_lit (by exact nice_nat 30 (by norm_num)) (by exact nice_nat 30 (by norm_num)) le_rfl le_rfl
      have hmv : In 0 (2 ^ 30) (fmax (lit 0) (fmin (j -. lit 30) tail)) :=
        (in_zero.fmax ((hj29.sub l30 n30 (nice_pow 29 (by norm_num)) (by norm_num) (by norm_num)).fmin htail3)).mono (by norm_num) (by norm_num)
      have hmg : In 0 0 j → In 0 0 (fmax (lit 0) (fmin (j -. lit 30) tail)) := by
        intro hz
        exact (in_zero.fmax ((hz.sub l30 n30 n30 (by norm_num) (by norm_num)).fmin htail3)).mono (by norm_num) (by norm_num)
      have htg := up_gap hlz.wf hlz.travel le_rfl
      refine ⟨⟨hdelta, hstart, hstrain, hj, hjg, hlz.travel, htg, ?_, ?_, ?_, hb.startPos, hb.endPos⟩,
        fun _ _ => ⟨hmt, htt⟩⟩
      · simp only
        exact hmv
      · simp only
        exact hmg
      · simp only
        exact .inr htt

/-- Consecutive difficulty objects. -/
def Next (p o : DiffObject F32 F64) : Prop := Adj p.baseObject o

theorem createDifficultyObjects_bounds (hl : PowLaws) {d : Difficulty F64} {objs : List (Obj F32 F64)}
    {ds : List (DiffObject F32 F64)} (hm : OrdinaryMap d objs) (h : createDifficultyObjects objs d = .ok ds) :
    (∀ o ∈ ds, ObjOk d o) ∧ ds.IsChain Next := by
  have hr : In 1 1024 d.circleRadius := in_of_within hm.radius nice_one (by exact nice_nat 1024 (by norm_num))
  have hs : In (1 / 1024) 1024 d.speed := in_of_within hm.speed
    (by have := nice_neg_pow 10 (by norm_num); norm_num at this ⊢; exact this) (by exact nice_nat 1024 (by norm_num))
  have key : ∀ (i : ℕ) (o : DiffObject F32 F64), ds[i]? = some o → ∃ a b x y, objs[i]? = some x ∧ objs[i + 1]? = some y ∧
      decorate d x = .ok a ∧ decorate d y = .ok b ∧ o.baseObject = b ∧ ObjOk d o ∧ Adj a o := by
    intro i o ho
    obtain ⟨a, b, c, x, y, hx, hy, ha, hb, rfl⟩ := createDifficultyObjects_get h ho
    have hox := hm.objects x (List.mem_of_getElem? hx)
    have hoy := hm.objects y (List.mem_of_getElem? hy)
    have hle : (x.base.startTime <=. y.base.startTime) = true := by
      have hlt : i + 1 < objs.length := (List.getElem?_eq_some_iff.mp hy).1
      have := List.isChain_iff_getElem.mp hm.sorted i hlt
      rw [(List.getElem?_eq_some_iff.mp hx).2, (List.getElem?_eq_some_iff.mp hy).2] at this
      exact this
    obtain ⟨ea, -⟩ := decorate_obj ha
    obtain ⟨eb, -⟩ := decorate_obj hb
    obtain ⟨h1, h2⟩ := newDiffObject_ok hr hs c (decorate_ok hl ha hr hox) (decorate_ok hl hb hr hoy) (by rw [ea, eb]; exact hle)
    exact ⟨a, b, x, y, hx, hy, ha, hb, (newDiffObject_times b c a d).1, h1, h2⟩
  refine ⟨?_, ?_⟩
  · intro o ho
    obtain ⟨i, hi⟩ := List.getElem?_of_mem ho
    obtain ⟨a, b, x, y, -, -, -, -, -, h1, -⟩ := key i o hi
    exact h1
  · rw [List.isChain_iff_getElem]
    intro i hi
    obtain ⟨a, b, x, y, -, hy, -, hb, e, -⟩ := key i _ (List.getElem?_eq_getElem (by omega))
    obtain ⟨a', b', x', y', hx', -, ha', -, -, -, h2⟩ := key (i + 1) _ (List.getElem?_eq_getElem hi)
    rw [hy] at hx'
    cases hx'
    rw [hb] at ha'
    cases ha'
    unfold Next
    rw [e]
    exact h2

end GosuPP
