import Verif.Lemmas.Curve

/-! Helper lemmas for `Slider.SetTiming`. -/

namespace GosuPP
open Go
variable {S D : Type} [GoFloat S] [GoFloat D] [GoConv S D]

namespace Slider

/-- The tick distance after the comparison with the pixel length. -/
def distance (t : Timings D) (tp : ControlPoint D) (s : SliderData S D) : D :=
  if s.multiCurve.length >. lit 0 && t.getTickDistance S tp >. s.pixelLength then s.pixelLength
  else t.getTickDistance S tp

/-- The arguments of the span loop. -/
def args (t : Timings D) (tp : ControlPoint D) (h : HitObject S D) (s : SliderData S D) : SpanArgs D :=
  { startTime := h.startTime
    endTime := h.startTime +. up s.multiCurve.length *. lit 1000 *. ofInt s.repeatCount /. t.getVelocity S tp
    spanDuration := up s.multiCurve.length *. lit 1000 /. t.getVelocity S tp
    cLength := up s.multiCurve.length
    tickDistance := distance t tp s
    minDistanceFromEnd := t.getVelocity S tp *. lit 0.01
    nanTimingPoint := GoFloat.isNaN tp.beatLength
    repeatCount := s.repeatCount }

variable [GoSort]

/-- An error of the tick loops is an error of `SetTiming`. -/
theorem setTiming_error {fuel : Nat} {t : Timings D} {h : HitObject S D} {s : SliderData S D} {tp : ControlPoint D}
    {e : Fault} (h1 : t.getPointAt h.startTime = .ok tp)
    (h2 : spanLoop (args t tp h s) fuel s.repeatCount.toNat 0 = .error e) : setTiming fuel t h s = .error e := by
  show (do
      let tp ← t.getPointAt h.startTime
      let pts ← spanLoop (args t tp h s) fuel s.repeatCount.toNat 0
      let pos ← sliderPositionAt { h with endTime := (args t tp h s).endTime }
        { s with tPoint := tp, spanDuration := (args t tp h s).spanDuration, scorePoints := s.scorePoints }
        (args t tp h s).endTime
      pure ({ base := { h with endTime := (args t tp h s).endTime, endPosRaw := pos }
              kind := .slider { s with
                tPoint := tp, spanDuration := (args t tp h s).spanDuration
                scorePoints := GoSort.slice (fun a b : TickPoint D => a.time <. b.time) (s.scorePoints ++ pts) } } :
          Obj S D)) = _
  simp only [h1, ok_bind, h2]
  rfl

theorem setTiming_iff {fuel : Nat} {t : Timings D} {h : HitObject S D} {s : SliderData S D} {o : Obj S D} :
    setTiming fuel t h s = .ok o ↔ ∃ tp pts pos, t.getPointAt h.startTime = .ok tp ∧
      spanLoop (args t tp h s) fuel s.repeatCount.toNat 0 = .ok pts ∧
      sliderPositionAt { h with endTime := (args t tp h s).endTime }
        { s with tPoint := tp, spanDuration := (args t tp h s).spanDuration, scorePoints := s.scorePoints }
        (args t tp h s).endTime = .ok pos ∧
      o = { base := { h with endTime := (args t tp h s).endTime, endPosRaw := pos }
            kind := .slider { s with
              tPoint := tp, spanDuration := (args t tp h s).spanDuration
              scorePoints := GoSort.slice (fun a b : TickPoint D => a.time <. b.time) (s.scorePoints ++ pts) } } := by
  constructor
  · intro hh
    unfold setTiming at hh
    obtain ⟨tp, h1, hh⟩ := bind_ok hh
    obtain ⟨pts, h2, hh⟩ := bind_ok hh
    obtain ⟨pos, h3, hh⟩ := bind_ok hh
    cases hh
    exact ⟨tp, pts, pos, h1, h2, h3, rfl⟩
  · rintro ⟨tp, pts, pos, h1, h2, h3, rfl⟩
    show (do
      let tp ← t.getPointAt h.startTime
      let pts ← spanLoop (args t tp h s) fuel s.repeatCount.toNat 0
      let pos ← sliderPositionAt { h with endTime := (args t tp h s).endTime }
        { s with tPoint := tp, spanDuration := (args t tp h s).spanDuration, scorePoints := s.scorePoints }
        (args t tp h s).endTime
      pure ({ base := { h with endTime := (args t tp h s).endTime, endPosRaw := pos }
              kind := .slider { s with
                tPoint := tp, spanDuration := (args t tp h s).spanDuration
                scorePoints := GoSort.slice (fun a b : TickPoint D => a.time <. b.time) (s.scorePoints ++ pts) } } :
          Obj S D)) = _
    simp only [h1, ok_bind, h2, h3]
    rfl

/-- A second call adds the same points again and changes nothing else. -/
theorem setTiming_again {fuel : Nat} {t : Timings D} {h : HitObject S D} {s : SliderData S D} {o : Obj S D}
    (hh : setTiming fuel t h s = .ok o) :
    ∃ s' pts, o.kind = .slider s' ∧ s'.scorePoints.Perm (s.scorePoints ++ pts) ∧
      ∃ sp, sp.Perm (s'.scorePoints ++ pts) ∧
        setTiming fuel t o.base s' = .ok { o with kind := .slider { s' with scorePoints := sp } } := by
  obtain ⟨tp, pts, pos, h1, h2, h3, rfl⟩ := setTiming_iff.mp hh
  refine ⟨_, pts, rfl, GoSort.slice_perm _ _, _,
    GoSort.slice_perm (fun a b : TickPoint D => a.time <. b.time) _, ?_⟩
  exact setTiming_iff.mpr ⟨tp, pts, pos, h1, h2, h3, rfl⟩

omit [GoConv S D] [GoSort] [GoFloat S] in
/-- The number of ticks of a span does not depend on the span. -/
theorem tickLoop_length {td c m : D} {nan : Bool} {sst sd : D} {rev : Bool} {fuel : Nat} {d : D}
    {l : List (TickPoint D)} (h : tickLoop td c m sst sd rev nan fuel d = .ok l) (sst' sd' : D) (rev' : Bool) :
    ∃ l', tickLoop td c m sst' sd' rev' nan fuel d = .ok l' ∧ l'.length = l.length ∧
      (∀ p ∈ l', p.isReverse = false) := by
  induction fuel generalizing d l with
  | zero => cases h
  | succ fuel ih =>
    unfold tickLoop at h ⊢
    split at h
    · rename_i h1
      rw [if_pos h1]
      split at h
      · rename_i h2
        rw [if_pos h2]
        cases h
        exact ⟨[], rfl, rfl, by simp⟩
      · rename_i h2
        rw [if_neg h2]
        obtain ⟨r, hr, h⟩ := bind_ok h
        cases h
        obtain ⟨l', h3, h4, h5⟩ := ih hr
        refine ⟨_, by simp only [h3, ok_bind]; rfl, by simp [h4], ?_⟩
        intro p hp
        rcases List.mem_cons.mp hp with rfl | hp
        · rfl
        · exact h5 p hp
    · rename_i h1
      rw [if_neg h1]
      cases h
      exact ⟨[], rfl, rfl, by simp⟩

/-- Concatenation of the points of the spans `i, …, i + k - 1`. -/
def spans (f : Int → List (TickPoint D)) : Nat → Int → List (TickPoint D)
  | 0, _ => []
  | k + 1, i => f i ++ spans f k (i + 1)

omit [GoSort] [GoConv S D] [GoFloat S] in
theorem spanLoop_spec {a : SpanArgs D} {fuel k : Nat} {i : Int} {l : List (TickPoint D)}
    (h : spanLoop a fuel k i = .ok l) :
    ∃ f : Int → List (TickPoint D), l = spans f k i ∧
      ∀ j, i ≤ j → j < i + k → spanTicks a fuel j = .ok (f j) := by
  induction k generalizing i l with
  | zero => cases h; exact ⟨fun _ => [], rfl, fun j h1 h2 => by omega⟩
  | succ k ih =>
    unfold spanLoop at h
    obtain ⟨ts, h1, h⟩ := bind_ok h
    obtain ⟨r, h2, h⟩ := bind_ok h
    cases h
    obtain ⟨f, h3, h4⟩ := ih h2
    refine ⟨fun j => if j = i then ts else f j, ?_, ?_⟩
    · unfold spans
      rw [if_pos rfl, h3]
      congr 1
      have : ∀ (k : Nat) (i' : Int), i < i' → spans f k i' = spans (fun j => if j = i then ts else f j) k i' := by
        intro k
        induction k with
        | zero => intros; rfl
        | succ k ihk =>
          intro i' hi'
          unfold spans
          rw [if_neg (by omega), ihk (i' + 1) (by omega)]
      exact this k (i + 1) (by omega)
    · intro j h5 h6
      by_cases hj : j = i
      · subst hj; simpa using h1
      · simp only [if_neg hj]
        exact h4 j (by omega) (by omega)

omit [GoSort] [GoConv S D] [GoFloat S] in
theorem spanLoop_of_spans {a : SpanArgs D} {fuel k : Nat} {i : Int} {f : Int → List (TickPoint D)}
    (h : ∀ j, i ≤ j → j < i + k → spanTicks a fuel j = .ok (f j)) : spanLoop a fuel k i = .ok (spans f k i) := by
  induction k generalizing i with
  | zero => rfl
  | succ k ih =>
    unfold spanLoop spans
    have := ih (i := i + 1) (fun j h1 h2 => h j (by omega) (by omega))
    simp only [h i (le_refl _) (by omega), ok_bind, this]
    rfl

omit [GoSort] [GoConv S D] [GoFloat S] [GoFloat D] in
theorem spans_length {f : Int → List (TickPoint D)} {n k : Nat} {i : Int}
    (h : ∀ j, i ≤ j → j < i + k → (f j).length = n) : (spans f k i).length = k * n := by
  induction k generalizing i with
  | zero => simp [spans]
  | succ k ih =>
    unfold spans
    rw [List.length_append, h i (le_refl _) (by omega), ih (fun j h1 h2 => h j (by omega) (by omega))]
    ring

omit [GoSort] [GoConv S D] [GoFloat S] [GoFloat D] in
theorem mem_spans {f : Int → List (TickPoint D)} {k : Nat} {i : Int} {p : TickPoint D} :
    p ∈ spans f k i ↔ ∃ j, i ≤ j ∧ j < i + k ∧ p ∈ f j := by
  induction k generalizing i with
  | zero =>
    simp only [spans, List.not_mem_nil, false_iff, not_exists, not_and]
    intro j h1 h2
    omega
  | succ k ih =>
    unfold spans
    rw [List.mem_append, ih]
    constructor
    · rintro (h | ⟨j, h1, h2, h3⟩)
      · exact ⟨i, le_refl _, by omega, h⟩
      · exact ⟨j, by omega, by omega, h3⟩
    · rintro ⟨j, h1, h2, h3⟩
      by_cases hj : j = i
      · subst hj; exact Or.inl h3
      · exact Or.inr ⟨j, by omega, by omega, h3⟩

omit [GoSort] [GoConv S D] [GoFloat S] in
theorem spanTicks_length {a : SpanArgs D} {fuel : Nat} {i j : Int} {l l' : List (TickPoint D)}
    (h : spanTicks a fuel i = .ok l) (h' : spanTicks a fuel j = .ok l') : l'.length = l.length ∧ 0 < l.length := by
  unfold spanTicks at h h'
  simp only at h h'
  obtain ⟨x, hx, h⟩ := bind_ok h
  obtain ⟨y, hy, h'⟩ := bind_ok h'
  cases h
  cases h'
  obtain ⟨y', h1, h2, -⟩ := tickLoop_length hx (a.startTime +. ofInt j *. a.spanDuration) a.spanDuration (j % 2 == 1)
  rw [hy] at h1
  cases h1
  simp [h2]

omit [GoSort] [GoConv S D] [GoFloat S] in
/-- Exactly the last point of a span other than the last span is a reverse point. -/
theorem spanTicks_shape {a : SpanArgs D} {fuel : Nat} {i : Int} {l : List (TickPoint D)}
    (h : spanTicks a fuel i = .ok l) : ∃ ticks last, l = ticks ++ [last] ∧
      (∀ p ∈ ticks, p.isReverse = false) ∧ last.isReverse = decide (i < a.repeatCount - 1) := by
  unfold spanTicks at h
  simp only at h
  obtain ⟨x, hx, h⟩ := bind_ok h
  cases h
  obtain ⟨x', h1, -, h2⟩ := tickLoop_length hx (a.startTime +. ofInt i *. a.spanDuration) a.spanDuration (i % 2 == 1)
  rw [hx] at h1
  cases h1
  refine ⟨x, _, rfl, h2, ?_⟩
  split <;> simp_all

omit [GoSort] [GoConv S D] [GoFloat S] [GoFloat D] in
theorem spans_countP {f : Int → List (TickPoint D)} {k : Nat} {i r : Int} (hr : r = i + k)
    (h : ∀ j, i ≤ j → j < i + k → ∃ ticks last, f j = ticks ++ [last] ∧
      (∀ p ∈ ticks, p.isReverse = false) ∧ last.isReverse = decide (j < r - 1)) :
    ((spans f k i).filter (fun p => p.isReverse)).length = k - 1 := by
  induction k generalizing i with
  | zero => simp [spans]
  | succ k ih =>
    unfold spans
    obtain ⟨ticks, last, h1, h2, h3⟩ := h i (le_refl _) (by omega)
    rw [List.filter_append, List.length_append, ih (by omega) (fun j h1 h2 => h j (by omega) (by omega)), h1,
      List.filter_append, List.filter_eq_nil_iff.mpr (by intro p hp; simp [h2 p hp])]
    by_cases hk : k = 0
    · subst hk
      have : last.isReverse = false := by rw [h3]; simp; omega
      simp [this]
    · have : last.isReverse = true := by rw [h3]; simp; omega
      simp [this]
      omega

end Slider
end GosuPP
