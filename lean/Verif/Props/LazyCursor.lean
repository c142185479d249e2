import Verif.Lemmas.BallWay
import Verif.Props.Slider
import Verif.Props.Paths

/-!
# C96: the cursor of a lazy player on a slider
-/

namespace GosuPP.Props
open Go Spec LazyCursor

private theorem loop_way {o : Obj ℝ ℝ} {mods : Modifier} {radius t : ℝ} (hr : 0 < radius) :
    ∀ {pts : List (TickPoint ℝ)} {st st' : LazyState ℝ}, pts ≠ [] → BallAt o mods t (planePos st.endPosition) →
    lazyLoop o mods (lit 50 /. radius) pts st = .ok st' →
    ∃ w, LazyWay o mods radius t pts (planePos st.cursor) (planePos st'.endPosition) w ∧
      st'.travelDistance = st.travelDistance + 50 / radius * w
  | [], _, _, h, _, _ => absurd rfl h
  | [p], st, st', _, hb, h => by
    unfold lazyLoop at h
    obtain ⟨v, hv, ⟨k1, k2⟩, k3⟩ := step_eq hr h
    simp only [if_true, Bool.not_true, Bool.false_and, Bool.false_eq_true, if_false] at hv k1 k2 k3
    rw [k3]
    refine ⟨_, .last hb ⟨v, hv, rfl⟩ rfl (c' := planePos st'.cursor) ?_, ?_⟩
    · rw [k1]; exact towards_nearest (by positivity)
    · rw [k2, k1]
  | p :: q :: rest, st, st', _, hb, h => by
    unfold lazyLoop at h
    obtain ⟨st1, h1, h2⟩ := bind_ok h
    obtain ⟨v, hv, ⟨k1, k2⟩, k3⟩ := step_eq hr h1
    simp only [Bool.false_eq_true, if_false, Bool.not_false, Bool.true_and] at hv k1 k2 k3
    obtain ⟨w, hw, e⟩ := loop_way hr (List.cons_ne_nil q rest) (by rw [k3]; exact hb) h2
    have hR : 0 ≤ (if p.isReverse = true then radius else 1.8 * radius) := by split <;> positivity
    refine ⟨_, .step ⟨v, hv, rfl⟩ (c' := planePos st1.cursor) (by rw [k1]; exact towards_nearest hR) hw, ?_⟩
    rw [e, k2, k1]
    ring

/-- C96 (exact arithmetic). The cursor goes from the start of the slider to the lazy end position and moves as little as
possible: at each score point to the nearest place from which the ball is within reach. The travel distance is the
length of this way in units of the circle size, with a bonus for repeats. -/
theorem C96_cursor {o : Obj ℝ ℝ} {s : SliderData ℝ ℝ} {d : Difficulty ℝ} {l : Lazy ℝ ℝ} (hr : 0 < d.circleRadius)
    (h : newLazySlider o s d = .ok l) :
    ∃ last w, s.scorePoints.getLast? = some last ∧ l.travelTime = last.time - o.base.startTime ∧
      LazyWay o d.mods d.circleRadius last.time s.scorePoints (planePos (o.base.getStackedStartPositionMod d.mods))
        (planePos l.endPosition) w ∧
      l.travelDistance = 50 / d.circleRadius * w * (1 + ((s.repeatCount : ℝ) - 1) / 2.5) ^ (0.4 : ℝ) := by
  unfold newLazySlider at h
  obtain ⟨last, h1, h⟩ := bind_ok h
  obtain ⟨e, h2, h⟩ := bind_ok h
  obtain ⟨st, h3, h⟩ := bind_ok h
  have e' := Except.ok.inj h
  have hlast : s.scorePoints.getLast? = some last ∧ s.scorePoints ≠ [] := by
    unfold index at h1
    split at h1
    · cases h1
    · rename_i hneg
      split at h1
      · rename_i x hx
        cases h1
        have hne : s.scorePoints ≠ [] := by
          rintro e
          rw [e] at hneg
          simp at hneg
        refine ⟨?_, hne⟩
        rw [List.getLast?_eq_getElem?, ← hx]
        congr 1
        have := List.length_pos_iff.mpr hne
        omega
      · cases h1
  have et : last.time -. o.base.startTime +. o.base.startTime = last.time := by
    show last.time - o.base.startTime + o.base.startTime = _
    ring
  rw [et] at h2
  obtain ⟨w, hw, ew⟩ := loop_way hr hlast.2 ⟨e, h2, rfl⟩ h3
  refine ⟨last, w, hlast.1, by rw [← e']; rfl, by rw [← e']; exact hw, ?_⟩
  rw [← e']
  show st.travelDistance * GoLibm.pow _ _ = _
  rw [ew]
  simp only [RealArith.pow, RealArith.add, RealArith.div, RealArith.ofInt, RealArith.lit]
  push_cast
  norm_num

/-- C96. The specification determines the cursor and the length of its way. -/
theorem C96_determined {o : Obj ℝ ℝ} {mods : Modifier} {radius t : ℝ} (hr : 0 ≤ radius) {pts : List (TickPoint ℝ)} {c c1 c2 : ℂ}
    {w1 w2 : ℝ} (h1 : LazyWay o mods radius t pts c c1 w1) (h2 : LazyWay o mods radius t pts c c2 w2) : c1 = c2 ∧ w1 = w2 := by
  have same : ∀ {t p q}, BallAt o mods t p → BallAt o mods t q → p = q := by
    rintro t p q ⟨v, hv, rfl⟩ ⟨v', hv', rfl⟩
    rw [hv] at hv'
    cases hv'
    rfl
  induction h1 generalizing c2 w2 with
  | last hp he ht hn =>
    cases h2 with
    | last hp' he' ht' hn' =>
      obtain rfl := same hp hp'
      obtain rfl := same he he'
      rw [← ht] at ht'
      subst ht'
      rw [nearest_unique (by positivity) hn, nearest_unique (by positivity) hn']
      exact ⟨rfl, rfl⟩
  | @step point q rest c p c' c'' way hp hn hw ih =>
    cases h2 with
    | step hp' hn' hw' =>
      obtain rfl := same hp hp'
      have hR : 0 ≤ (if point.isReverse then radius else 1.8 * radius) := by split <;> positivity
      have e := (nearest_unique hR hn).trans (nearest_unique hR hn').symm
      subst e
      obtain ⟨e1, e2⟩ := ih hw'
      exact ⟨e1, by rw [e2]⟩

/-- C96. The way of the cursor is no longer than the way of the ball from score point to score point. -/
theorem C96_ball {o : Obj ℝ ℝ} {mods : Modifier} {radius t : ℝ} (hr : 0 ≤ radius) {pts : List (TickPoint ℝ)} {c c' : ℂ} {w w' : ℝ}
    (h : LazyWay o mods radius t pts c c' w) (h' : BallWay o mods pts c w') : w ≤ w' := by
  have := lazy_le hr h h'
  rwa [dist_self, zero_add] at this

/-- C96. If all score points and the end are within reach from the start, the cursor stays where it is, as on a circle. -/
theorem C96_still {o : Obj ℝ ℝ} {s : SliderData ℝ ℝ} {d : Difficulty ℝ} {l : Lazy ℝ ℝ} (hr : 0 < d.circleRadius)
    (h : newLazySlider o s d = .ok l)
    (hnear : ∀ t p, BallAt o d.mods t p → dist p (planePos (o.base.getStackedStartPositionMod d.mods)) ≤ d.circleRadius) :
    l.travelDistance = 0 ∧ l.endPosition = o.base.getStackedStartPositionMod d.mods := by
  obtain ⟨last, w, -, -, hw, e⟩ := C96_cursor hr h
  have key : ∀ {pts : List (TickPoint ℝ)} {c c' : ℂ} {w t : ℝ}, LazyWay o d.mods d.circleRadius t pts c c' w →
      c = planePos (o.base.getStackedStartPositionMod d.mods) → c' = c ∧ w = 0 := by
    intro pts c c' w t hw
    induction hw with
    | @last point c p e target c' hp he ht hn =>
      rintro rfl
      have : dist target (planePos (o.base.getStackedStartPositionMod d.mods)) ≤ 1.8 * d.circleRadius := by
        have h1 := hnear _ _ hp
        have h2 := hnear _ _ he
        rw [ht]
        split <;> linarith
      have k := hn.least _ (by rw [dist_comm]; exact this)
      rw [dist_self] at k
      have k' := dist_eq_zero.mp (le_antisymm k dist_nonneg)
      exact ⟨k'.symm, by rw [← k', dist_self]⟩
    | @step point q rest c p c' c'' way hp hn hw ih =>
      rintro rfl
      have h1 := hnear _ _ hp
      have h2 : d.circleRadius ≤ 1.8 * d.circleRadius := by linarith
      have k := hn.least (planePos (o.base.getStackedStartPositionMod d.mods)) (by
        rw [dist_comm]
        split
        · exact h1
        · exact h1.trans h2)
      rw [dist_self] at k
      have k' := dist_eq_zero.mp (le_antisymm k dist_nonneg)
      obtain ⟨e1, e2⟩ := ih k'.symm
      exact ⟨e1.trans k'.symm, by rw [e2, ← k', dist_self, add_zero]⟩
  obtain ⟨k1, k2⟩ := key hw rfl
  refine ⟨by rw [e, k2]; ring, ?_⟩
  have hx := congrArg Complex.re k1
  have hy := congrArg Complex.im k1
  exact Vec.ext hx hy

private theorem loop_ok {o : Obj ℝ ℝ} {mods : Modifier} {sc : ℝ} (h : ∀ t, ∃ v, o.getStackedPositionAtMod t mods = .ok v) :
    ∀ (pts : List (TickPoint ℝ)) (st : LazyState ℝ), ∃ st', lazyLoop o mods sc pts st = .ok st'
  | [], st => ⟨st, rfl⟩
  | [p], st => by
    obtain ⟨v, hv⟩ := h o.base.endTime
    unfold lazyLoop lazyStep
    rw [if_pos rfl, hv]
    exact ⟨_, rfl⟩
  | p :: q :: rest, st => by
    obtain ⟨v, hv⟩ := h p.time
    unfold lazyLoop
    have : ∃ st1, lazyStep o mods sc p false st = .ok st1 := by
      unfold lazyStep
      rw [if_neg (by decide), hv]
      exact ⟨_, rfl⟩
    obtain ⟨st1, h1⟩ := this
    rw [h1]
    exact loop_ok h (q :: rest) st1

/-- C96 (exact arithmetic). For a slider with `R` spans that was given its times, whatever its place in a stack: the
cursor exists, its way is no longer than the `R` passages of the path, and on a path that is no longer than the circle
radius it stays at the start. -/
theorem C96_bound [GoSort] {t : Timings ℝ} {tp : ControlPoint ℝ} {h b : HitObject ℝ ℝ} {s s' : SliderData ℝ ℝ} {R n : ℕ}
    {pf : Nat} {typ : Str} {points : List (Vec ℝ)} {len : ℝ}
    (hmc : MultiCurve.newT pf typ (h.startPosRaw :: points) len = .ok s.multiCurve)
    (htp : t.getPointAt h.startTime = .ok tp) (hpos : Spec.PosTiming t tp) (hc : 0 < s.multiCurve.length)
    (hpx : 0 < s.pixelLength) (hR : s.repeatCount = R) (hR0 : 0 < R) (hs : s.scorePoints = [])
    (hn : Spec.TickCount (Spec.tickDistance t tp s.pixelLength) s.multiCurve.length (Spec.endMargin t tp) n)
    {fuel : Nat} (hfuel : n < fuel) {o : Obj ℝ ℝ} (hset : Slider.setTiming fuel t h s = .ok o) (hk : o.kind = .slider s')
    (hb1 : b.startPosRaw = o.base.startPosRaw) (hb2 : b.startTime = o.base.startTime) (hb3 : b.endTime = o.base.endTime)
    {d : Difficulty ℝ} (hr : 0 < d.circleRadius) :
    ∃ l, newLazySlider ⟨b, .slider s'⟩ s' d = .ok l ∧
      l.travelDistance ≤ 50 / d.circleRadius * (R * s.multiCurve.length) * (1 + ((R : ℝ) - 1) / 2.5) ^ (0.4 : ℝ) ∧
      (s.multiCurve.length ≤ d.circleRadius →
        l.travelDistance = 0 ∧ l.endPosition = b.getStackedStartPositionMod d.mods) := by
  obtain ⟨o', s2, k1, k2, k3, k4, k5, k6, k7⟩ := C39_exact hmc htp hpos hc hpx hR hn hfuel
  rw [hset] at k1
  obtain rfl := Except.ok.inj k1
  rw [hk] at k2
  obtain rfl := Kind.slider.inj k2
  obtain ⟨tp', pts, pos, -, -, -, e⟩ := Slider.setTiming_iff.mp hset
  have e1 : o.base.startPosRaw = h.startPosRaw := by rw [e]
  have e2 : o.base.startTime = h.startTime := by rw [e]
  have e3 : s'.multiCurve = s.multiCurve ∧ s'.repeatCount = s.repeatCount := by
    rw [e] at hk
    rw [← Kind.slider.inj hk]
    exact ⟨rfl, rfl⟩
  have hspan : 0 < Spec.spanTime t tp s.multiCurve.length := Slider.spanTime_pos hpos hc
  have hRr : (0 : ℝ) < R := by exact_mod_cast hR0
  have hmc' : MultiCurve.newT pf typ (b.startPosRaw :: points) len = .ok s'.multiCurve := by
    rw [hb1, e1, e3.1]; exact hmc
  have hc' : 0 < s'.multiCurve.length := by rw [e3.1]; exact hc
  have hlt : b.startTime < b.endTime := by
    rw [hb2, hb3, e2, k3]
    have := mul_pos hRr hspan
    linarith
  have hsd : 0 < s'.spanDuration := by rw [k4]; exact hspan
  rw [hs, List.nil_append] at k5
  have hmem : ∀ p ∈ s'.scorePoints, b.startTime ≤ p.time ∧ p.time ≤ b.endTime := fun p hp => by
    rw [hb2, hb3, e2]
    exact k7 p (k5.mem_iff.mp hp)
  have hne : s'.scorePoints ≠ [] := by
    intro hnil
    rw [hnil] at k5
    have := k5.symm.eq_nil
    unfold Spec.scorePoints at this
    rw [List.flatMap_eq_nil_iff] at this
    have := this 0 (List.mem_range.mpr hR0)
    simp at this
  have hball := ball_exists hmc' hc' hlt hsd d.mods
  have hl : ∃ l, newLazySlider ⟨b, .slider s'⟩ s' d = .ok l := by
    unfold newLazySlider
    have hi : ∃ x, index s'.scorePoints ((s'.scorePoints.length : Int) - 1) = .ok x := by
      have hlen := List.length_pos_iff.mpr hne
      unfold index
      rw [if_neg (by omega)]
      have : ((s'.scorePoints.length : Int) - 1).toNat < s'.scorePoints.length := by omega
      rw [List.getElem?_eq_getElem this]
      exact ⟨_, rfl⟩
    obtain ⟨x, hx⟩ := hi
    obtain ⟨v, hv⟩ := hball (x.time -. b.startTime +. b.startTime)
    obtain ⟨st, hst⟩ := loop_ok (sc := lit 50 /. d.circleRadius) hball s'.scorePoints
      { cursor := b.getStackedStartPositionMod d.mods, endPosition := v, travelDistance := lit 0 }
    rw [hx]
    simp only [bind, Except.bind]
    rw [hv]
    simp only
    rw [hst]
    exact ⟨_, rfl⟩
  obtain ⟨l, hl⟩ := hl
  refine ⟨l, hl, ?_, fun hshort => C96_still hr hl fun t p hp => (ball_near hmc' hc' hlt hsd hp).trans (by rw [e3.1]; exact hshort)⟩
  obtain ⟨last, w, -, -, hw, ew⟩ := C96_cursor hr hl
  obtain ⟨w', hw', hle⟩ := ball_way hmc' hc' hlt hsd hne k6 hmem (ball_start hmc' hc' hlt hsd d.mods)
  have hww := C96_ball hr.le hw hw'
  have eR : (b.endTime - b.startTime) / s'.spanDuration * s'.multiCurve.length = R * s.multiCurve.length := by
    rw [hb2, hb3, e2, k3, k4, e3.1, add_sub_cancel_left, mul_div_assoc, div_self hspan.ne', mul_one]
  rw [eR] at hle
  rw [ew, e3.2, hR]
  push_cast
  have hb : (0 : ℝ) ≤ (1 + ((R : ℝ) - 1) / 2.5) ^ (0.4 : ℝ) := by
    have : (1 : ℝ) ≤ R := by exact_mod_cast hR0
    exact Real.rpow_nonneg (by linarith [div_nonneg (by linarith : (0:ℝ) ≤ R - 1) (by norm_num : (0:ℝ) ≤ 2.5)]) _
  refine mul_le_mul_of_nonneg_right (mul_le_mul_of_nonneg_left (hww.trans hle) (by positivity)) hb

/-- `C96_bound` for a slider of 100 px with 3 spans. -/
example [GoSort] (h : HitObject ℝ ℝ) (s : SliderData ℝ ℝ) (h0 : h.startPosRaw = ⟨0, 0⟩) (hs : s.scorePoints = [])
    (hR : s.repeatCount = 3) (hpx : s.pixelLength = 100) (pf : Nat)
    (hmc : MultiCurve.newT pf ['L'] [⟨0, 0⟩, ⟨100, 0⟩] (100 : ℝ) = .ok s.multiCurve)
    (d : Difficulty ℝ) (hr : d.circleRadius = 32) :
    ∃ fuel o s' l, Slider.setTiming fuel Sample.timing h s = .ok o ∧ o.kind = .slider s' ∧ newLazySlider o s' d = .ok l ∧
      l.travelDistance ≤ 50 / 32 * 300 * 1.8 ^ (0.4 : ℝ) := by
  have n1 : (Vec.eq (⟨0, 0⟩ : Vec ℝ) ⟨100, 0⟩) ≠ true := by
    rw [Ne, vec_eq_real]
    intro h
    have := congrArg Vec.x h
    norm_num at this
  have hl : processType (S := ℝ) (D := ℝ) pf ['L'] [⟨0, 0⟩, ⟨100, 0⟩] = .ok [⟨⟨0, 0⟩, ⟨100, 0⟩⟩] := by
    show (Except.ok (processLinear _) : Result _) = _
    rw [processLinear, if_neg n1]
    rfl
  have hL : Spec.pathLength [⟨⟨0, 0⟩, ⟨100, 0⟩⟩] = 100 := by
    rw [pathLength_cons, pathLength_nil, add_zero]
    unfold Spec.len
    rw [show ((100 : ℝ) - 0) ^ 2 + (0 - 0) ^ 2 = 100 ^ 2 by norm_num, Real.sqrt_sq (by norm_num)]
  have hlen : s.multiCurve.length = 100 :=
    (C33_length hmc hl (by rw [hL]; norm_num) (by norm_num) (.inl (by rw [hL]; norm_num))).1
  have htp := Sample.timing_point h.startTime
  obtain ⟨n, hn, -⟩ := C39_ticks Sample.timing_pos (px := s.pixelLength) (c := s.multiCurve.length) (by rw [hpx]; norm_num)
  have hmc' : MultiCurve.newT pf ['L'] (h.startPosRaw :: [⟨100, 0⟩]) (100 : ℝ) = .ok s.multiCurve := by rw [h0]; exact hmc
  obtain ⟨o, s', k1, k2, -⟩ := C39_exact (R := 3) hmc' htp Sample.timing_pos (by rw [hlen]; norm_num) (by rw [hpx]; norm_num)
    (by rw [hR]; norm_num) hn (Nat.lt_succ_self n)
  obtain ⟨l, h1, h2, -⟩ := C96_bound (R := 3) (b := o.base) hmc' htp Sample.timing_pos (by rw [hlen]; norm_num)
    (by rw [hpx]; norm_num) (by rw [hR]; norm_num) (by norm_num) hs hn (Nat.lt_succ_self n) k1 k2 rfl rfl rfl
    (d := d) (by rw [hr]; norm_num)
  refine ⟨n + 1, o, s', l, k1, k2, by rw [← h1, ← k2], ?_⟩
  rw [hr, hlen] at h2
  norm_num at h2 ⊢
  exact h2

/-! ## A slider: 300 px to the right in a second, with a tick halfway, for a circle radius of 32 px

The cursor is at 0, then at 150 - 57.6 = 92.4, then at 300 - 57.6 = 242.4. -/

private noncomputable def lc_line : Linear ℝ := ⟨⟨0, 0⟩, ⟨300, 0⟩⟩

private noncomputable def lc_curve : MultiCurve ℝ :=
  { lines := [lc_line], firstPoint := ⟨0, 0⟩, length := MultiCurve.totalLength (D := ℝ) [lc_line], sections := MultiCurve.mkSections (D := ℝ) [lc_line] }

private noncomputable def lc_data (tp : ControlPoint ℝ) : SliderData ℝ ℝ :=
  { multiCurve := lc_curve, tPoint := tp, pixelLength := 300, repeatCount := 1
    scorePoints := [⟨500, false⟩, ⟨1000, false⟩], spanDuration := 1000 }

private theorem lc_len : Spec.len lc_line = 300 := by
  unfold Spec.len lc_line
  rw [show ((300 : ℝ) - 0) ^ 2 + (0 - 0) ^ 2 = 300 ^ 2 by norm_num, Real.sqrt_sq (by norm_num)]

private theorem lc_length : lc_curve.length = 300 := by
  show MultiCurve.totalLength (D := ℝ) [lc_line] = 300
  rw [totalLength_real, pathLength_cons, pathLength_nil, lc_len, add_zero]

private theorem lc_ball {h : HitObject ℝ ℝ} (tp : ControlPoint ℝ) (h1 : h.startTime = 0) (h2 : h.endTime = 1000)
    (h3 : h.stackOffset = ⟨0, 0⟩) {u : ℝ} (hu : 0 ≤ u) (hu1 : u ≤ 1) :
    BallAt ⟨h, .slider (lc_data tp)⟩ 0 (u * 1000) ((300 * u : ℝ) : ℂ) := by
  have hpos := Slider.position_span (h := h) (s := lc_data tp) (R := 1) (k := 0) (sd := 1000) (by norm_num) rfl
    (by rw [h1, h2]; norm_num) (by norm_num) hu hu1
  rw [h1, if_neg (by norm_num)] at hpos
  have e : (0 : ℝ) + (((0 : ℕ) : ℝ) + u) * 1000 = u * 1000 := by push_cast; ring
  rw [e] at hpos
  have hw : lc_curve.pointAt (D := ℝ) u = .ok ⟨300 * u, 0⟩ := by
    rw [pointAt_walk ⟨rfl, rfl⟩ (by rw [lc_length]; norm_num), max_eq_right hu, min_eq_right hu1, lc_length]
    show Except.ok (walk _ [lc_line] (u * 300)) = _
    unfold walk
    rw [lc_len, if_pos (by nlinarith), mul_div_assoc, div_self (by norm_num), mul_one]
    unfold along lc_line
    simp [mul_comm]
  refine ⟨⟨300 * u, 0⟩, ?_, ?_⟩
  · unfold Obj.getStackedPositionAtMod Obj.getPositionAt
    simp only
    rw [hpos]
    show (do let x ← lc_curve.pointAt (D := ℝ) u; pure (h.modifyPosition x 0) : Result (Vec ℝ)) = _
    rw [hw]
    show Except.ok (h.modifyPosition ⟨300 * u, 0⟩ 0) = _
    have a1 : Modifier.active 0 Mod.HardRock = false := by decide +kernel
    have a2 : Modifier.active 0 Mod.Easy = false := by decide +kernel
    unfold HitObject.modifyPosition
    rw [a1, a2, h3]
    simp [Vec.add, RealArith.add]
  · apply Complex.ext <;> simp [planePos]

private theorem lc_nearest {a b R : ℝ} (h : R ≤ b - a) (hR : 0 ≤ R) : Nearest (b : ℂ) R (a : ℂ) ((b - R : ℝ) : ℂ) := by
  have hd : ∀ x y : ℝ, dist (x : ℂ) (y : ℂ) = |x - y| := fun x y => by
    rw [Complex.dist_eq, ← Complex.ofReal_sub, Complex.norm_real, Real.norm_eq_abs]
  constructor
  · rw [hd, abs_sub_comm, abs_of_nonneg (by linarith)]
    linarith
  · intro q hq
    have := dist_triangle (a : ℂ) q (b : ℂ)
    rw [hd a b, abs_sub_comm, abs_of_nonneg (by linarith)] at this
    rw [hd, abs_sub_comm, abs_of_nonneg (by linarith)]
    linarith

example (h : HitObject ℝ ℝ) (tp : ControlPoint ℝ) (d : Difficulty ℝ) (h0 : h.startPosRaw = ⟨0, 0⟩) (h1 : h.startTime = 0)
    (h2 : h.endTime = 1000) (h3 : h.stackOffset = ⟨0, 0⟩) (hm : d.mods = 0) (hr : d.circleRadius = 32) {l : Lazy ℝ ℝ}
    (hl : newLazySlider ⟨h, .slider (lc_data tp)⟩ (lc_data tp) d = .ok l) :
    l.travelDistance = 378.75 ∧ planePos l.endPosition = ((242.4 : ℝ) : ℂ) := by
  obtain ⟨last, w, hlast, -, hw, e⟩ := C96_cursor (by rw [hr]; norm_num) hl
  have el : last = ⟨1000, false⟩ := (Option.some.inj hlast).symm
  have hd : ∀ x y : ℝ, dist (x : ℂ) (y : ℂ) = |x - y| := fun x y => by
    rw [Complex.dist_eq, ← Complex.ofReal_sub, Complex.norm_real, Real.norm_eq_abs]
  have b1 := lc_ball tp h1 h2 h3 (u := 1 / 2) (by norm_num) (by norm_num)
  have b2 := lc_ball tp h1 h2 h3 (u := 1) (by norm_num) (by norm_num)
  norm_num only at b1 b2
  have hstart : planePos (h.getStackedStartPositionMod 0) = ((0 : ℝ) : ℂ) := by
    have a1 : Modifier.active 0 Mod.HardRock = false := by decide +kernel
    have a2 : Modifier.active 0 Mod.Easy = false := by decide +kernel
    unfold HitObject.getStackedStartPositionMod HitObject.modifyPosition
    rw [a1, a2, h0, h3]
    apply Complex.ext <;> simp [planePos, Vec.add, RealArith.add]
  rw [hm, hr, el] at hw
  have n1 := lc_nearest (a := 0) (b := 150) (R := 57.6) (by norm_num) (by norm_num)
  have n2 := lc_nearest (a := 150 - 57.6) (b := 300) (R := 57.6) (by norm_num) (by norm_num)
  have hway : LazyWay ⟨h, .slider (lc_data tp)⟩ 0 32 1000 (lc_data tp).scorePoints (planePos (h.getStackedStartPositionMod 0))
      ((300 - 57.6 : ℝ) : ℂ) (dist ((0 : ℝ) : ℂ) ((150 - 57.6 : ℝ) : ℂ) + dist ((150 - 57.6 : ℝ) : ℂ) ((300 - 57.6 : ℝ) : ℂ)) := by
    rw [hstart]
    refine .step (p := ((150 : ℝ) : ℂ)) b1 ?_ (.last (p := ((300 : ℝ) : ℂ)) (e := ((300 : ℝ) : ℂ)) (target := ((300 : ℝ) : ℂ)) b2 ?_ ?_ ?_)
    · rw [if_neg (by decide), show (1.8 * 32 : ℝ) = 57.6 by norm_num]
      exact n1
    · show BallAt _ _ h.endTime _
      rw [h2]
      exact b2
    · rw [ite_self]
    · rw [show (1.8 * 32 : ℝ) = 57.6 by norm_num]
      exact n2
  obtain ⟨k1, k2⟩ := C96_determined (by norm_num) hw hway
  constructor
  · rw [e, hr, k2, hd, hd]
    show 50 / 32 * _ * (1 + (((1 : ℤ) : ℝ) - 1) / 2.5) ^ (0.4 : ℝ) = _
    norm_num [abs_of_nonneg, abs_of_nonpos]
  · rw [k1]
    norm_num

end GosuPP.Props
