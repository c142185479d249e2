import Verif.Lemmas.SliderReal
import Verif.Lemmas.SliderIEEE
import Verif.Props.Paths

/-!
# Properties of slider timing
-/

namespace GosuPP
open Go Slider

/-! ## C42 -/

/-- Set the timing of an object `n` times. -/
def setTimingTimes {S D : Type} [GoFloat S] [GoFloat D] [GoConv S D] [GoSort] (fuel : Nat) (t : Timings D) :
    Nat → Obj S D → Result (Obj S D)
  | 0, o => .ok o
  | n + 1, o => do
    let o ← o.setTiming fuel t
    setTimingTimes fuel t n o

/-- After `n + 1` calls of `SetTiming` a new slider has `n + 1` times the score points it has after
one call; nothing else differs. -/
theorem C42_repeated {S D : Type} [GoFloat S] [GoFloat D] [GoConv S D] [GoSort] {fuel : Nat} {t : Timings D}
    {h : HitObject S D} {s : SliderData S D} (hfresh : s.scorePoints = []) {o : Obj S D}
    (hh : Obj.setTiming fuel t ⟨h, .slider s⟩ = .ok o) :
    ∃ s', o.kind = .slider s' ∧ ∀ n, ∃ sp, setTimingTimes fuel t (n + 1) ⟨h, .slider s⟩ =
        .ok { o with kind := .slider { s' with scorePoints := sp } } ∧
      sp.Perm (List.replicate (n + 1) s'.scorePoints).flatten ∧ sp.length = (n + 1) * s'.scorePoints.length := by
  obtain ⟨tp, pts, pos, h1, h2, h3, rfl⟩ := setTiming_iff.mp hh
  rw [hfresh, List.nil_append]
  refine ⟨_, rfl, ?_⟩
  have hp := GoSort.slice_perm (fun a b : TickPoint D => a.time <. b.time) pts
  have step : ∀ q : List (TickPoint D), Obj.setTiming fuel t
      { base := { h with endTime := (args t tp h s).endTime, endPosRaw := pos }
        kind := .slider { s with
          tPoint := tp, spanDuration := (args t tp h s).spanDuration, scorePoints := q } } =
      .ok { base := { h with endTime := (args t tp h s).endTime, endPosRaw := pos }
            kind := .slider { s with
              tPoint := tp, spanDuration := (args t tp h s).spanDuration
              scorePoints := GoSort.slice (fun a b : TickPoint D => a.time <. b.time) (q ++ pts) } } := fun q =>
    setTiming_iff.mpr ⟨tp, pts, pos, h1, h2, h3, rfl⟩
  have more : ∀ n q, ∃ sp, setTimingTimes fuel t n
      ({ base := { h with endTime := (args t tp h s).endTime, endPosRaw := pos }
         kind := .slider { s with
          tPoint := tp, spanDuration := (args t tp h s).spanDuration, scorePoints := q } } : Obj S D) =
      .ok { base := { h with endTime := (args t tp h s).endTime, endPosRaw := pos }
            kind := .slider { s with
              tPoint := tp, spanDuration := (args t tp h s).spanDuration, scorePoints := sp } } ∧
      sp.Perm (q ++ (List.replicate n pts).flatten) := by
    intro n
    induction n with
    | zero => intro q; exact ⟨q, rfl, by simp⟩
    | succ n ih =>
      intro q
      obtain ⟨sp, h4, h5⟩ := ih (GoSort.slice (fun a b : TickPoint D => a.time <. b.time) (q ++ pts))
      refine ⟨sp, ?_, ?_⟩
      · unfold setTimingTimes
        simp only [step, ok_bind]
        exact h4
      · refine h5.trans ?_
        rw [List.replicate_succ, List.flatten_cons, ← List.append_assoc]
        exact (GoSort.slice_perm _ _).append_right _
  intro n
  obtain ⟨sp, h4, h5⟩ := more n (GoSort.slice (fun a b : TickPoint D => a.time <. b.time) pts)
  have hperm : sp.Perm (List.replicate (n + 1)
      (GoSort.slice (fun a b : TickPoint D => a.time <. b.time) pts)).flatten := by
    refine h5.trans ?_
    rw [List.replicate_succ, List.flatten_cons]
    refine List.Perm.append_left _ ?_
    clear h4 h5
    induction n with
    | zero => exact List.Perm.refl _
    | succ n ih =>
      rw [List.replicate_succ, List.replicate_succ, List.flatten_cons, List.flatten_cons]
      exact hp.symm.append ih
  refine ⟨sp, ?_, hperm, ?_⟩
  · unfold setTimingTimes
    simp only [hh, ok_bind, hfresh, List.nil_append]
    exact h4
  · rw [hperm.length_eq]
    simp [Nat.add_mul]

/-! ## C39 -/

/-- Any arithmetic: `SetTiming` adds the same number of points for every span: some ticks and one
more point, which is marked as a repeat for all spans but the last. -/
theorem C39_count {S D : Type} [GoFloat S] [GoFloat D] [GoConv S D] [GoSort] {fuel : Nat} {t : Timings D}
    {h : HitObject S D} {s : SliderData S D} {o : Obj S D} (hh : Slider.setTiming fuel t h s = .ok o) :
    ∃ s' ticks, o.kind = .slider s' ∧
      s'.scorePoints.length = s.scorePoints.length + s.repeatCount.toNat * (ticks + 1) ∧
      (s'.scorePoints.filter (fun p => p.isReverse)).length =
        (s.scorePoints.filter (fun p => p.isReverse)).length + (s.repeatCount.toNat - 1) := by
  obtain ⟨tp, pts, pos, h1, h2, h3, rfl⟩ := setTiming_iff.mp hh
  have hp := GoSort.slice_perm (fun a b : TickPoint D => a.time <. b.time) (s.scorePoints ++ pts)
  obtain ⟨f, hf, hspan⟩ := spanLoop_spec h2
  by_cases hR : s.repeatCount.toNat = 0
  · rw [hR] at hf
    have hnil : pts = [] := hf
    refine ⟨_, 0, rfl, ?_, ?_⟩
    · rw [hp.length_eq, hnil, hR]; simp
    · rw [(hp.filter _).length_eq, hnil, hR]; simp
  · have h0 := hspan 0 (le_refl _) (by omega)
    have hlen : ∀ j : Int, 0 ≤ j → j < 0 + (s.repeatCount.toNat : Int) → (f j).length = (f 0).length :=
      fun j hj hj' => (spanTicks_length h0 (hspan j hj hj')).1
    have hpos : 0 < (f 0).length := (spanTicks_length h0 h0).2
    refine ⟨_, (f 0).length - 1, rfl, ?_, ?_⟩
    · rw [hp.length_eq, List.length_append, hf, spans_length hlen]
      congr 2
      omega
    · rw [(hp.filter _).length_eq, List.filter_append, List.length_append, hf, spans_countP (r := s.repeatCount) (by omega)]
      intro j hj hj'
      exact spanTicks_shape (hspan j hj hj')

/-- Exact arithmetic, with positive multiplier, tick rate and beat length: `SetTiming` returns; the
slider ends after `R` spans of the time its length takes; the points added are those of the
specification, all points are in time order, and the added ones lie within the slider. -/
theorem C39_exact [GoSort] {t : Timings ℝ} {tp : ControlPoint ℝ} {h : HitObject ℝ ℝ} {s : SliderData ℝ ℝ} {R n : ℕ}
    {pf : Nat} {typ : Str} {points : List (Vec ℝ)} {len : ℝ} (hmc : MultiCurve.newT pf typ points len = .ok s.multiCurve)
    (htp : t.getPointAt h.startTime = .ok tp) (hpos : Spec.PosTiming t tp) (hc : 0 < s.multiCurve.length)
    (hpx : 0 < s.pixelLength) (hR : s.repeatCount = R)
    (hn : Spec.TickCount (Spec.tickDistance t tp s.pixelLength) s.multiCurve.length (Spec.endMargin t tp) n)
    {fuel : Nat} (hfuel : n < fuel) :
    ∃ o s', Slider.setTiming fuel t h s = .ok o ∧ o.kind = .slider s' ∧
      o.base.endTime = h.startTime + R * Spec.spanTime t tp s.multiCurve.length ∧
      s'.spanDuration = Spec.spanTime t tp s.multiCurve.length ∧
      s'.scorePoints.Perm (s.scorePoints ++ Spec.scorePoints h.startTime (Spec.spanTime t tp s.multiCurve.length)
        (Spec.tickDistance t tp s.pixelLength) s.multiCurve.length n R) ∧
      s'.scorePoints.Pairwise (fun a b => a.time ≤ b.time) ∧
      ∀ p ∈ Spec.scorePoints h.startTime (Spec.spanTime t tp s.multiCurve.length)
        (Spec.tickDistance t tp s.pixelLength) s.multiCurve.length n R,
        h.startTime ≤ p.time ∧ p.time ≤ o.base.endTime := by
  obtain ⟨a1, a2, a3, a4, a5, a6, a7⟩ := args_real hpos h s hc
  have hspan : spanLoop (args t tp h s) fuel s.repeatCount.toNat 0 = .ok (Spec.scorePoints h.startTime
      (Spec.spanTime t tp s.multiCurve.length) (Spec.tickDistance t tp s.pixelLength) s.multiCurve.length n R) := by
    have := spanLoop_exact (a := args t tp h s) (n := n) (R := R) (by rw [a6]; exact (endMargin_pos hpos).le) a7
      (by rw [a4, a5, a6]; exact hn) hR (by rw [a1, a2, a3, hR]; push_cast; rfl) fuel hfuel
    rw [a1, a3, a4, a5] at this
    rw [hR]
    exact this
  obtain ⟨pos, hposn⟩ : ∃ pos, sliderPositionAt { h with endTime := (args t tp h s).endTime }
        { s with tPoint := tp, spanDuration := (args t tp h s).spanDuration, scorePoints := s.scorePoints }
        (args t tp h s).endTime = .ok pos := by
    unfold sliderPositionAt
    split
    · exact ⟨_, rfl⟩
    · exact ⟨_, pointAt_walk (newT_measuredR hmc) hc _⟩
  refine ⟨_, _, setTiming_iff.mpr ⟨tp, _, pos, htp, hspan, hposn, rfl⟩, rfl, ?_, a3, GoSort.slice_perm _ _, ?_, ?_⟩
  · show (args t tp h s).endTime = _
    rw [a2, hR]
    push_cast
    rfl
  · refine (GoSort.slice_sorted (fun a b : TickPoint ℝ => a.time <. b.time) _ ⟨?_, ?_, ?_⟩).imp ?_
    · intro a _
      rw [Bool.eq_false_iff]
      intro hh
      exact _root_.lt_irrefl _ ((RealArith.lt _ _).mp hh)
    · intro a _ b _ c _ h1 h2
      rw [RealArith.lt] at h1 h2 ⊢
      exact h1.trans h2
    · intro a _ b _ c _ h1 h2
      rw [Bool.eq_false_iff, ne_eq, RealArith.lt, not_lt] at h1 h2 ⊢
      exact h2.trans h1
    · intro a b hab
      rw [Bool.eq_false_iff, ne_eq, RealArith.lt, not_lt] at hab
      exact hab
  · intro p hp
    have := scorePoints_between (spanTime_pos hpos hc).le hc (tickDistance_pos hpos hpx) (endMargin_pos hpos).le hn p hp
    refine ⟨this.1, ?_⟩
    show p.time ≤ (args t tp h s).endTime
    rw [a2, hR]
    exact_mod_cast this.2

/-- The number of ticks is determined. -/
theorem C39_ticks {t : Timings ℝ} {tp : ControlPoint ℝ} (hpos : Spec.PosTiming t tp) {px c : ℝ} (hpx : 0 < px) :
    ∃! n, Spec.TickCount (Spec.tickDistance t tp px) c (Spec.endMargin t tp) n := by
  obtain ⟨n, hn⟩ := exists_tickCount (c := c) (m := Spec.endMargin t tp) (tickDistance_pos hpos hpx)
  exact ⟨n, hn, fun m hm => tickCount_unique hm hn⟩

/-! ## C41 -/

/-- Exact arithmetic: after `SetTiming`, `u` of the way through span `k` (counted from 0) the slider
ball is at the fraction `u` of the path in even spans and `1 - u` in odd ones; the end position is the
end of the path for an odd number of spans and its start for an even number. -/
theorem C41_position [GoSort] {t : Timings ℝ} {tp : ControlPoint ℝ} {h : HitObject ℝ ℝ} {s : SliderData ℝ ℝ} {R : ℕ}
    (htp : t.getPointAt h.startTime = .ok tp) (hpos : Spec.PosTiming t tp) (hc : 0 < s.multiCurve.length)
    (hR : s.repeatCount = R) (hR0 : 0 < R) {fuel : Nat} {o : Obj ℝ ℝ} (hh : Slider.setTiming fuel t h s = .ok o) :
    (∀ k : ℕ, k < R → ∀ u : ℝ, 0 ≤ u → u ≤ 1 →
      o.getPositionAt (h.startTime + (k + u) * Spec.spanTime t tp s.multiCurve.length) =
        s.multiCurve.pointAt (D := ℝ) (if k % 2 = 1 then 1 - u else u)) ∧
    s.multiCurve.pointAt (D := ℝ) (if R % 2 = 1 then 1 else 0) = .ok o.base.endPosRaw := by
  obtain ⟨tp', pts, pos, h1, h2, h3, rfl⟩ := setTiming_iff.mp hh
  rw [htp] at h1
  cases h1
  obtain ⟨a1, a2, a3, a4, a5, a6, a7⟩ := args_real hpos h s hc
  have hsd := spanTime_pos hpos hc
  have he : (args t tp h s).endTime = h.startTime + R * Spec.spanTime t tp s.multiCurve.length := by
    rw [a2, hR]; push_cast; rfl
  constructor
  · intro k hk u hu hu1
    show sliderPositionAt _ _ _ = _
    exact position_span (R := R) hsd a3 he hk hu hu1
  · have hlast := position_span (h := { h with endTime := (args t tp h s).endTime })
      (s := { s with tPoint := tp, spanDuration := (args t tp h s).spanDuration, scorePoints := s.scorePoints })
      (R := R) (k := R - 1) (u := 1) hsd a3 he (by omega) (by norm_num) (le_refl _)
    have et : h.startTime + (((R - 1 : ℕ) : ℝ) + 1) * Spec.spanTime t tp s.multiCurve.length = (args t tp h s).endTime := by
      rw [he]
      congr 2
      have : ((R - 1 + 1 : ℕ) : ℝ) = R := by congr 1; omega
      push_cast at this
      exact this
    simp only at hlast
    rw [et] at hlast
    rw [h3] at hlast
    show _ = Except.ok pos
    rw [hlast]
    show _ = s.multiCurve.pointAt (D := ℝ) _
    congr 1
    by_cases hR2 : R % 2 = 1
    · rw [if_pos hR2, if_neg (by omega)]
    · rw [if_neg hR2, if_pos (by omega)]
      norm_num

/-- Before the start the ball is where it is at the start, after the end where it is at the end. -/
theorem C41_outside {h : HitObject ℝ ℝ} {s : SliderData ℝ ℝ} (hle : h.startTime ≤ h.endTime) (time : ℝ) :
    (time ≤ h.startTime → Obj.getPositionAt ⟨h, .slider s⟩ time = Obj.getPositionAt ⟨h, .slider s⟩ h.startTime) ∧
    (h.endTime ≤ time → Obj.getPositionAt ⟨h, .slider s⟩ time = Obj.getPositionAt ⟨h, .slider s⟩ h.endTime) := by
  constructor
  · intro ht
    show sliderPositionAt h s time = sliderPositionAt h s h.startTime
    unfold sliderPositionAt
    rw [clampF64_real, clampF64_real, max_eq_left ht, max_self]
  · intro ht
    show sliderPositionAt h s time = sliderPositionAt h s h.endTime
    unfold sliderPositionAt
    rw [clampF64_real, clampF64_real, max_eq_right (hle.trans ht), max_eq_right hle, min_eq_left ht, min_self]

/-- On a path of positive length the ball is at the first control point at the start. -/
theorem C41_start [GoSort] {t : Timings ℝ} {tp : ControlPoint ℝ} {h : HitObject ℝ ℝ} {s : SliderData ℝ ℝ} {R : ℕ}
    {pf : Nat} {typ : Str} {a : Vec ℝ} {l : List (Vec ℝ)} {len : ℝ} (hmc : MultiCurve.newT pf typ (a :: l) len = .ok s.multiCurve)
    (htp : t.getPointAt h.startTime = .ok tp) (hpos : Spec.PosTiming t tp) (hc : 0 < s.multiCurve.length)
    (hR : s.repeatCount = R) (hR0 : 0 < R) {fuel : Nat} {o : Obj ℝ ℝ} (hh : Slider.setTiming fuel t h s = .ok o) :
    o.getPositionAt h.startTime = .ok a ∧
    o.base.endPosRaw = (if R % 2 = 1 then Spec.pathEnd a s.multiCurve.lines else a) := by
  obtain ⟨h1, h2⟩ := C41_position htp hpos hc hR hR0 hh
  obtain ⟨e1, e2⟩ := C64_ends hmc hc
  constructor
  · have := h1 0 hR0 0 (le_refl _) (by norm_num)
    rw [if_neg (by norm_num), e1 0 (le_refl _)] at this
    simpa using this
  · split
    · rename_i hodd
      rw [if_pos hodd, e2 1 (le_refl _)] at h2
      exact (Except.ok.inj h2).symm
    · rename_i heven
      rw [if_neg heven, e1 0 (le_refl _)] at h2
      exact (Except.ok.inj h2).symm

/-! ## C34, duration -/

/-- A slider whose path has length 0 ends when it starts, whatever its pixel length. -/
theorem C34_duration [GoSort] {t : Timings ℝ} {h : HitObject ℝ ℝ} {s : SliderData ℝ ℝ} (hc : s.multiCurve.length = 0)
    {fuel : Nat} {o : Obj ℝ ℝ} (hh : Slider.setTiming fuel t h s = .ok o) :
    o.base.endTime = h.startTime ∧ o.base.endPosRaw = h.startPosRaw := by
  obtain ⟨tp, pts, pos, h1, h2, h3, rfl⟩ := setTiming_iff.mp hh
  have he : (args t tp h s).endTime = h.startTime := by
    show h.startTime + s.multiCurve.length * (lit 1000 : ℝ) * (s.repeatCount : ℝ) / t.getVelocity ℝ tp = _
    rw [hc]
    simp
  refine ⟨he, ?_⟩
  unfold sliderPositionAt isRetarded at h3
  rw [if_pos (by rw [RealArith.eq]; exact he.symm)] at h3
  cases h3
  rfl

/-! ## C40 -/

/-- IEEE arithmetic, any library functions: if the slider multiplier is 0 and the tick rate is not,
setting the timing of a slider with at least one span and a path of positive length does not return:
whatever number of steps the tick loop is given, they do not suffice. -/
theorem C40_hangs [GoSort] [GoLibm F64] {t : Timings F64} {tp : ControlPoint F64} {h : HitObject F32 F64}
    {s : SliderData F32 F64} {pf : Nat} {typ : Str} {points : List (Vec F32)} {len : F64}
    (hmc : MultiCurve.newT pf typ points len = .ok s.multiCurve) (hc : (s.multiCurve.length >. lit 0) = true)
    (hR : 1 ≤ s.repeatCount) (htp : t.getPointAt h.startTime = .ok tp) (hnn : GoFloat.isNaN tp.beatLength = false)
    (hsm : (t.sliderMult ==. lit 0) = true) (htr : GoFloat.isNaN t.tickRate = false)
    (htr0 : (t.tickRate ==. lit 0) = false) (fuel : Nat) :
    Obj.setTiming fuel t ⟨h, .slider s⟩ = .error .hang :=
  setTiming_hangs hmc htp ((Fl.isNaN_false_iff _).mp hnn) hsm ((Fl.isNaN_false_iff _).mp htr) htr0 hc hR fuel

/-- IEEE arithmetic: so no file whose slider multiplier is 0 (as it is when the key is missing) and whose tick rate
is not is parsed successfully if it has such a slider. -/
theorem C40_parsed [GoSort] [GoLibm F64] {fuel : Nat} {text : Str} {m : BeatMap F32 F64}
    (h : parseText fuel text = .ok (some m)) (hsm : (m.timings.sliderMult ==. lit 0) = true)
    (htr : GoFloat.isNaN m.timings.tickRate = false) (htr0 : (m.timings.tickRate ==. lit 0) = false)
    {o : Obj F32 F64} (ho : o ∈ m.hitObjects) {s : SliderData F32 F64} (hs : o.kind = .slider s)
    (hnn : GoFloat.isNaN s.tPoint.beatLength = false) (hR : 1 ≤ s.repeatCount) :
    (s.multiCurve.length >. lit 0) = false := by
  obtain ⟨arr, -, o0, o1, o2, h0, h1, h2, h3⟩ := parsed_from h ho
  have k1 : (Spec.uncombo o1).kind = (Spec.uncombo o0).kind := by rw [h1]
  have k1 : o1.kind = o0.kind := k1
  have k2 : (Spec.unstack o).kind = (Spec.unstack o2).kind := by rw [h3]
  have k2 : o.kind = o2.kind := k2
  rw [k2] at hs
  by_contra hc
  rw [Bool.not_eq_false] at hc
  cases hk : o1.kind with
  | slider s1 =>
    obtain ⟨typ, points, hmc, -⟩ := createObject_newT h0 s1 (by rw [← k1, hk])
    unfold Obj.setTiming at h2
    rw [hk] at h2
    obtain ⟨tp, pts, pos, g1, g2, g3, rfl⟩ := setTiming_iff.mp h2
    cases hs
    have := setTiming_hangs hmc g1 ((Fl.isNaN_false_iff _).mp hnn) hsm ((Fl.isNaN_false_iff _).mp htr) htr0 hc hR fuel
    cases h2.symm.trans this
  | circle =>
    unfold Obj.setTiming at h2
    rw [hk] at h2
    cases h2
    rw [hk] at hs
    cases hs
  | spinner =>
    unfold Obj.setTiming at h2
    rw [hk] at h2
    cases h2
    rw [hk] at hs
    cases hs

/-- A file with an ordinary slider and no `SliderMultiplier`: 100 steps do not suffice (nor do any, by the
theorem). -/
def Sample.noMultiplier : Str := "osu file format v14
[Metadata]
Title:a
[Difficulty]
SliderTickRate:1
[TimingPoints]
0,500,4,1,0,100,1,0
[HitObjects]
64,64,1000,2,0,L|164:64,1,100
".toList

example : (match Sample.parse Sample.noMultiplier with | .error .hang => true | _ => false) = true := by decide +kernel

/-! ## A slider that meets the hypotheses -/

/-- 100 px at 100 px per 500 ms with 2 ticks per beat, 3 spans. -/
noncomputable def Sample.timing : Timings ℝ :=
  { sliderMult := 1, tickRate := 2, originalPoints := []
    points := [{ (zeroPoint : ControlPoint ℝ) with beatLengthBase := 500, beatLength := 500 }] }

theorem Sample.timing_point (x : ℝ) : Sample.timing.getPointAt x = .ok { (zeroPoint : ControlPoint ℝ) with
    beatLengthBase := 500, beatLength := 500 } := by
  unfold Timings.getPointAt Timings.pointAt Sample.timing
  simp only [List.length_singleton]
  generalize hi : search 1 _ = i
  have := search_le 1 (fun i => match [{ (zeroPoint : ControlPoint ℝ) with beatLengthBase := 500, beatLength := 500 }][i]? with
    | some p => x <. p.time
    | none => true)
  have hle : i ≤ 1 := by
    rw [← hi]
    exact search_le _ _
  rcases Nat.lt_or_ge i 1 with h | h
  · have : i = 0 := by omega
    subst this
    rfl
  · have : i = 1 := by omega
    subst this
    rfl

theorem Sample.timing_pos : Spec.PosTiming Sample.timing
    { (zeroPoint : ControlPoint ℝ) with beatLengthBase := 500, beatLength := 500 } :=
  ⟨by unfold Sample.timing; norm_num, by unfold Sample.timing; norm_num, by norm_num⟩

/-- There is one tick per span, at 50 px. -/
example : Spec.TickCount (Spec.tickDistance Sample.timing
    { (zeroPoint : ControlPoint ℝ) with beatLengthBase := 500, beatLength := 500 } 100) 100 (Spec.endMargin Sample.timing
    { (zeroPoint : ControlPoint ℝ) with beatLengthBase := 500, beatLength := 500 }) 1 ∧
    Spec.spanTime Sample.timing { (zeroPoint : ControlPoint ℝ) with beatLengthBase := 500, beatLength := 500 } 100 = 500 := by
  have e1 : Spec.tickDistance Sample.timing
      { (zeroPoint : ControlPoint ℝ) with beatLengthBase := 500, beatLength := 500 } 100 = 50 := by
    unfold Spec.tickDistance Spec.ratio Sample.timing
    norm_num
  have e2 : Spec.endMargin Sample.timing { (zeroPoint : ControlPoint ℝ) with beatLengthBase := 500, beatLength := 500 } = 2 := by
    unfold Spec.endMargin Spec.beat Spec.ratio Sample.timing
    norm_num
  constructor
  · rw [e1, e2]
    intro j
    constructor
    · intro hj
      have : j = 0 := by omega
      subst this
      norm_num
    · intro hj
      by_contra hn
      have : (1 : ℝ) ≤ j := by exact_mod_cast (by omega : 1 ≤ j)
      linarith
  · unfold Spec.spanTime Spec.beat Spec.ratio Sample.timing
    norm_num

end GosuPP
