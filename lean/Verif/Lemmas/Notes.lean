import Verif.Lemmas.StrainCurve
import Verif.Lemmas.Turning
import Verif.Spec.Notes

/-! The difficulty objects of an arbitrary map. -/

namespace GosuPP.Exactly
open Go Spec
attribute [local instance] exactLibm

/-- The difficulty object of note `n`. -/
structure Shown (d : Difficulty (Option ℝ)) (c r : ℝ) (x : ℕ → Note) (n : ℕ) (o : DiffObject (Option ℝ) (Option ℝ)) : Prop where
  spinner : o.baseObject.obj.isSpinner = (x n).spinner
  lazy : o.baseObject.lazy.isSome = (x n).slide.isSome
  strainTime : o.strainTime = some (gap r x n)
  deltaTime : o.deltaTime = some (clock r x n - clock r x (n - 1))
  start : o.startTime = some (clock r x n)
  jump : o.jumpDistance = some (jump c x n)
  travel : o.travelDistance = some (slid x n)
  travelTime : o.travelTime = some (match slideTo x n with | some s => slideTime r s | none => 0)
  movement : ∀ s, slideTo x n = some s →
    o.movementDistance = some (max 0 (min (Spec.jump c x n - 30) (jumpLength c ‖(x n).head - (x (n - 1)).tail‖ - 120))) ∧
    o.movementTime = some (max (gap r x n - slideTime r s) 25)
  angle : o.angle = angleAt x n
  head : o.baseObject.obj.base.getStackedStartPositionMod d.mods = ⟨some (x n).head.re, some (x n).head.im⟩
  tail : o.baseObject.obj.base.getStackedEndPositionMod d.mods = ⟨some (x n).tail.re, some (x n).tail.im⟩

variable {c r : ℝ} {x : ℕ → Note} {objs : List (Obj (Option ℝ) (Option ℝ))} {d : Difficulty (Option ℝ)}

theorem norm_pair (z w : ℂ) : (z.re - w.re) ^ 2 + (z.im - w.im) ^ 2 = ‖z - w‖ ^ 2 := by
  rw [Complex.sq_norm, Complex.normSq_apply, Complex.sub_re, Complex.sub_im]
  ring

/-- How an object is decorated. -/
structure Decorated (d : Difficulty (Option ℝ)) (x : Note) (p : PObj (Option ℝ) (Option ℝ)) : Prop where
  time : p.obj.base.startTime = some x.time
  spinner : p.obj.isSpinner = x.spinner
  head : p.obj.base.getStackedStartPositionMod d.mods = ⟨some x.head.re, some x.head.im⟩
  tail : p.obj.base.getStackedEndPositionMod d.mods = ⟨some x.tail.re, some x.tail.im⟩
  lazy : p.lazy = x.slide.map fun q => ⟨⟨some q.cursor.re, some q.cursor.im⟩, some q.length, some q.duration⟩

theorem Decorated.leave {y : Note} {p : PObj (Option ℝ) (Option ℝ)} (h : Decorated d y p) :
    getEndCursorPosition p d.mods = ⟨some y.leave.re, some y.leave.im⟩ := by
  unfold getEndCursorPosition Note.leave
  rw [h.lazy]
  cases y.slide
  · exact h.head
  · rfl

theorem shows_decorate (h : Shows d x objs) {i : ℕ} {o : Obj (Option ℝ) (Option ℝ)} (ho : objs[i]? = some o)
    {p : PObj (Option ℝ) (Option ℝ)} (hp : decorate d o = .ok p) : Decorated d (x i) p := by
  unfold decorate at hp
  cases hk : o.kind with
  | slider s =>
    rw [hk] at hp
    simp only at hp
    obtain ⟨q, hq, hl⟩ := h.slider i o s ho hk
    rw [hl] at hp
    cases hp
    exact ⟨h.time i o ho, h.spins i o ho, h.head i o ho, h.tail i o ho, by rw [hq]; rfl⟩
  | _ =>
    rw [hk] at hp
    cases hp
    exact ⟨h.time i o ho, h.spins i o ho, h.head i o ho, h.tail i o ho, by
      rw [h.other i o ho (by intro s e; rw [hk] at e; cases e)]; rfl⟩

theorem atan2_exact (v1 v2 : ℂ) :
    |Complex.arg (⟨v1.re * v2.re + v1.im * v2.im, v1.re * v2.im - v1.im * v2.re⟩ : ℂ)| = |Complex.arg (v2 / v1)| := by
  by_cases h0 : v1 = 0
  · subst h0
    have : (⟨(0 : ℂ).re * v2.re + (0 : ℂ).im * v2.im, (0 : ℂ).re * v2.im - (0 : ℂ).im * v2.re⟩ : ℂ) = 0 := by
      apply Complex.ext <;> simp
    rw [this, div_zero]
  · have hn : 0 < Complex.normSq v1 := Complex.normSq_pos.mpr h0
    have e : (⟨v1.re * v2.re + v1.im * v2.im, v1.re * v2.im - v1.im * v2.re⟩ : ℂ) = ((Complex.normSq v1 : ℝ) : ℂ) * (v2 / v1) := by
      have h1 : ((Complex.normSq v1 : ℝ) : ℂ) * (v2 / v1) = (starRingEnd ℂ) v1 * v2 := by
        rw [Complex.normSq_eq_conj_mul_self]
        field_simp
      rw [h1]
      apply Complex.ext
      · simp
      · simp; ring
    rw [e, Complex.arg_real_mul _ hn]

theorem shown_new (hr : d.speed = some r) (hr0 : 0 < r) (hc : d.circleRadius = some c) (hc0 : 0 < c) {n : ℕ} (hn : 1 ≤ n)
    {cur last : PObj (Option ℝ) (Option ℝ)} {ll : Option (PObj (Option ℝ) (Option ℝ))} (h1 : Decorated d (x n) cur)
    (h2 : Decorated d (x (n - 1)) last) (h3 : n = 1 → ll = none) (h4 : 2 ≤ n → ∃ p, ll = some p ∧ Decorated d (x (n - 2)) p) :
    Shown d c r x n (newDiffObject cur ll last d) := by
  obtain ⟨e1, e2, e3, e4, e5⟩ := newDiffObject_times cur ll last d
  have hz : (lit 0 : Option ℝ) = some 0 := by rw [Exact.lit]; norm_num
  have hδ : (cur.obj.base.startTime -. last.obj.base.startTime) /. d.speed = some (clock r x n - clock r x (n - 1)) := by
    rw [h1.time, h2.time, hr, Exact.sub, Exact.div _ hr0.ne']
    congr 1; unfold clock; ring
  have hst : fmax ((cur.obj.base.startTime -. last.obj.base.startTime) /. d.speed) (lit 25) = some (gap r x n) := by
    rw [hδ, Exact.lit, Exact.fmax]
    congr 1
  have rest : (newDiffObject cur ll last d).jumpDistance = some (Spec.jump c x n) ∧
      (newDiffObject cur ll last d).travelDistance = some (slid x n) ∧
      (newDiffObject cur ll last d).travelTime = some (match slideTo x n with | some s => slideTime r s | none => 0) ∧
      (∀ s, slideTo x n = some s →
        (newDiffObject cur ll last d).movementDistance =
          some (max 0 (min (Spec.jump c x n - 30) (jumpLength c ‖(x n).head - (x (n - 1)).tail‖ - 120))) ∧
        (newDiffObject cur ll last d).movementTime = some (max (gap r x n - slideTime r s) 25)) ∧
      (newDiffObject cur ll last d).angle = angleAt x n := by
    unfold newDiffObject setDistances
    by_cases hm : Moves x n
    · rw [if_neg (by rw [h1.spinner, h2.spinner, hm.1, hm.2]; simp)]
      have hA : ∀ o : DiffObject (Option ℝ) (Option ℝ), (setAngle d ll last o).jumpDistance = o.jumpDistance ∧
          (setAngle d ll last o).travelDistance = o.travelDistance ∧ (setAngle d ll last o).travelTime = o.travelTime ∧
          (setAngle d ll last o).movementDistance = o.movementDistance ∧
          (setAngle d ll last o).movementTime = o.movementTime := by
        intro o
        unfold setAngle
        split <;> try split
        all_goals exact ⟨rfl, rfl, rfl, rfl, rfl⟩
      rw [(hA _).1, (hA _).2.1, (hA _).2.2.1, (hA _).2.2.2.1, (hA _).2.2.2.2]
      have hju := jump_exact hc0 (norm_nonneg _) (p := ((x n).head.re, (x n).head.im)) (q := ((x (n-1)).leave.re, (x (n-1)).leave.im))
        (norm_pair (x n).head (x (n - 1)).leave)
      have ej : Spec.jump c x n = jumpLength c ‖(x n).head - (x (n - 1)).leave‖ := by unfold Spec.jump; rw [if_pos hm]
      have es : slideTo x n = (x (n - 1)).slide := by unfold slideTo; rw [if_pos hm]
      have hsp : ll = none ∨ ∃ p, ll = some p ∧ Decorated d (x (n - 2)) p := by
        by_cases h : n = 1
        · exact .inl (h3 h)
        · exact .inr (h4 (by omega))
      have ang : (setAngle d ll last (setTravel d last
          { baseObject := cur, deltaTime := (cur.obj.base.startTime -. last.obj.base.startTime) /. d.speed
            startTime := cur.obj.base.startTime /. d.speed, endTime := cur.obj.base.endTime /. d.speed, angle := GoFloat.nan
            strainTime := fmax ((cur.obj.base.startTime -. last.obj.base.startTime) /. d.speed) (lit 25)
            jumpDistance := lit 0, movementDistance := lit 0, travelDistance := lit 0
            movementTime := lit 0, travelTime := lit 0 })).angle = angleAt x n := by
        have hb : ∀ o : DiffObject (Option ℝ) (Option ℝ), (setTravel d last o).baseObject = o.baseObject ∧
            (setTravel d last o).angle = o.angle := by
          intro o; unfold setTravel; split <;> exact ⟨rfl, rfl⟩
        unfold setAngle angleAt
        by_cases hn1 : n = 1
        · rw [h3 hn1, if_neg (by omega)]
          simp only [(hb _).2]
          rfl
        · obtain ⟨p, rfl, hp⟩ := h4 (by omega)
          simp only
          by_cases hs : (x (n - 2)).spinner = true
          · rw [if_pos (by rw [hp.spinner, hs]), if_neg (by rw [hs]; simp), (hb _).2]
            rfl
          · rw [if_neg (by rw [hp.spinner]; exact hs), if_pos ⟨by omega, hm, by simpa using hs⟩]
            simp only [(hb _).1, hp.leave, h2.leave, h1.head, h2.head, Vec.sub, Vec.dot, Exact.sub, Exact.mul,
              Exact.add, Math32.abs, Math32.atan2, Exact.up, Exact.down, Exact.atan2, Exact.abs]
            congr 1
            exact atan2_exact ((x (n - 2)).leave - (x (n - 1)).head) ((x n).head - (x (n - 1)).leave)
      refine ⟨?_, ?_, ?_, ?_, ang⟩
      · rw [ej, ← hju]
        unfold setTravel
        simp only [h1.head, h2.leave, hc]
        cases last.lazy <;> rfl
      · unfold slid
        rw [es]
        unfold setTravel
        rw [h2.lazy]
        cases (x (n - 1)).slide with
        | none => exact hz
        | some s => rfl
      · rw [es]
        unfold setTravel
        rw [h2.lazy]
        cases (x (n - 1)).slide with
        | none => exact hz
        | some s =>
          simp only [Option.map_some, hr]
          rw [Exact.div _ hr0.ne', Exact.lit, Exact.fmax]
          unfold slideTime
          norm_num
      · intro s hs
        rw [es] at hs
        have htj := jump_exact hc0 (norm_nonneg _) (p := ((x n).head.re, (x n).head.im)) (q := ((x (n-1)).tail.re, (x (n-1)).tail.im))
          (norm_pair (x n).head (x (n - 1)).tail)
        unfold setTravel
        rw [h2.lazy, hs]
        simp only [Option.map_some, hr, h1.head, h2.leave, h2.tail, hc]
        have htt : fmax (some s.duration /. some r) (lit 25) = some (slideTime r s) := by
          rw [Exact.div _ hr0.ne', Exact.lit, Exact.fmax]
          unfold slideTime
          norm_num
        have hst' := hst
        rw [hr] at hst'
        rw [htt, hst', hju, ← ej, Exact.sub, Exact.lit 25, Exact.fmax]
        refine ⟨?_, by norm_num⟩
        have hdst : Vec.dst (⟨some (x (n - 1)).tail.re, some (x (n - 1)).tail.im⟩ : Vec (Option ℝ)) ⟨some (x n).head.re, some (x n).head.im⟩ *.
            distanceScaling (some c : Option ℝ) = some (jumpLength c ‖(x n).head - (x (n - 1)).tail‖) := by
          rw [scaling_exact hc0, jumpLength_mul c ‖_‖]
          unfold Vec.dst Math32.sqrt
          simp only [Exact.mul, Exact.sub, Exact.add, Exact.up, Exact.down]
          rw [show ((x n).head.re - (x (n - 1)).tail.re) * ((x n).head.re - (x (n - 1)).tail.re) +
            ((x n).head.im - (x (n - 1)).tail.im) * ((x n).head.im - (x (n - 1)).tail.im) = ‖(x n).head - (x (n - 1)).tail‖ ^ 2 by
              rw [← norm_pair]; ring, Exact.sqrt (by positivity), Real.sqrt_sq (norm_nonneg _), Exact.mul]
        rw [hdst, Exact.lit, Exact.lit, Exact.lit, Exact.sub, Exact.sub, Exact.up, Exact.fmin, Exact.fmax]
        norm_num
    · have hor : (cur.obj.isSpinner || last.obj.isSpinner) = true := by
        rw [h1.spinner, h2.spinner]
        unfold Moves at hm
        by_contra hne
        simp only [Bool.or_eq_true, not_or, Bool.not_eq_true] at hne
        exact hm hne
      rw [if_pos hor]
      have es : slideTo x n = none := by unfold slideTo; rw [if_neg hm]
      have ea : angleAt x n = none := by unfold angleAt; rw [if_neg (fun h => hm h.2.1)]
      refine ⟨?_, ?_, ?_, ?_, ?_⟩
      · unfold Spec.jump; rw [if_neg hm]; exact hz
      · unfold slid; rw [es]; exact hz
      · rw [es]; exact hz
      · intro s hs; rw [es] at hs; cases hs
      · rw [ea]; rfl
  obtain ⟨q1, q2, q3, q4, q5⟩ := rest
  exact ⟨by rw [e1]; exact h1.spinner, by rw [e1, h1.lazy]; simp, by rw [e5, hst], by rw [e4, hδ], by
    rw [e2, h1.time, hr, Exact.div _ hr0.ne']; rfl, q1, q2, q3, q4, q5, by rw [e1]; exact h1.head, by rw [e1]; exact h1.tail⟩

/-- The difficulty objects of a map. -/
theorem shown_objects (hs : Shows d x objs) (hr : d.speed = some r) (hr0 : 0 < r)
    (hc : d.circleRadius = some c) (hc0 : 0 < c) {ds : List (DiffObject (Option ℝ) (Option ℝ))}
    (hd : createDifficultyObjects objs d = .ok ds) {i : ℕ} {o : DiffObject (Option ℝ) (Option ℝ)} (ho : ds[i]? = some o) :
    Shown d c r x (i + 1) o := by
  obtain ⟨ps, hps, rfl⟩ := createDifficultyObjects_ok hd
  cases ps with
  | nil => simp at ho
  | cons p rest =>
    obtain ⟨a, b, z, h1, h2, h3, h4⟩ := diffObjectLoop_get d none p rest i ho
    have hf := decorateAll_ok hps
    have get : ∀ (j : ℕ) q, (p :: rest)[j]? = some q → Decorated d (x j) q := by
      intro j q hq
      have hj : j < (p :: rest).length := (List.getElem?_eq_some_iff.mp hq).1
      have hj' : j < objs.length := hf.length_eq ▸ hj
      have hg := hf.get hj' hj
      rw [List.getElem?_eq_getElem hj] at hq
      cases hq
      exact shows_decorate hs (List.getElem?_eq_getElem hj') hg
    have h2' : (p :: rest)[i + 1]? = some b := h2
    rw [h3]
    refine shown_new hr hr0 hc hc0 (by omega) (get _ _ h2') (get _ _ h1) ?_ ?_
    · intro hi
      rw [h4, if_pos (by omega)]
    · intro hi
      have hne : i ≠ 0 := by omega
      rw [if_neg hne] at h4
      have hlt : i - 1 < (p :: rest).length := by
        have := (List.getElem?_eq_some_iff.mp h1).1
        omega
      rw [List.getElem?_eq_getElem hlt] at h4
      refine ⟨_, h4, ?_⟩
      rw [show i + 1 - 2 = i - 1 by omega]
      exact get _ _ (List.getElem?_eq_getElem hlt)

/-! ### The aim value -/

theorem gap_ge (n : ℕ) : 25 ≤ gap r x n := le_max_right _ _

theorem slideTime_ge (s : Slide) : 25 ≤ slideTime r s := le_max_right _ _

theorem jump_nonneg (hc0 : 0 < c) (n : ℕ) : 0 ≤ jump c x n := by
  unfold jump
  split
  · exact jumpLength_nonneg hc0 (norm_nonneg _)
  · exact le_rfl

theorem pow_two_exact (y : ℝ) : GoLibm.pow (some y) (lit 2 : Option ℝ) = some (y ^ 2) := by
  rw [Exact.lit, Exact.pow]
  congr 1
  rw [show (((2 : ℚ) : ℝ)) = ((2 : ℕ) : ℝ) by norm_num, Real.rpow_natCast]

theorem pow_three_exact (y : ℝ) : GoLibm.pow (some y) (lit 3 : Option ℝ) = some (y ^ 3) := by
  rw [Exact.lit, Exact.pow]
  congr 1
  rw [show (((3 : ℚ) : ℝ)) = ((3 : ℕ) : ℝ) by norm_num, Real.rpow_natCast]

theorem velocity_exact (hx : Playable x) (b : Bool) {n : ℕ} {o p : DiffObject (Option ℝ) (Option ℝ)} (hm : (x n).spinner = false)
    (ho : Shown d c r x n o)
    (hp : Shown d c r x (n - 1) p) : Aim.velocity b o p = some (velocity c r x b n) := by
  have hT := gap_ge (r := r) (x := x) n
  have hT0 : gap r x n ≠ 0 := by linarith
  unfold Aim.velocity velocity
  have es : slideTo x n = (x (n - 1)).slide := by
    unfold slideTo
    by_cases h : (x (n - 1)).spinner = true
    · rw [hx.spinner _ h]; simp
    · rw [if_pos ⟨hm, by simpa using h⟩]
  rw [ho.jump, ho.strainTime, Exact.div _ hT0, hp.lazy, ← es]
  cases hq : slideTo x n with
  | none => simp
  | some s =>
    cases b with
    | false => simp
    | true =>
      obtain ⟨m1, m2⟩ := ho.movement s hq
      have h1 : (max (gap r x n - slideTime r s) 25 : ℝ) ≠ 0 := by
        have := le_max_right (gap r x n - slideTime r s) 25
        intro h; linarith
      have h2 : slideTime r s ≠ 0 := by have := slideTime_ge (r := r) s; intro h; linarith
      simp only [Option.isSome_some, Bool.and_true, if_true, m1, m2, ho.travel, ho.travelTime, slid, hq]
      rw [Exact.div _ h1, Exact.div _ h2, Exact.add, Exact.fmax]

theorem velocity_nonneg (hc0 : 0 < c) (b : Bool) (n : ℕ) : 0 ≤ velocity c r x b n := by
  have h : 0 ≤ jump c x n / gap r x n := div_nonneg (jump_nonneg hc0 n) (by linarith [gap_ge (r := r) (x := x) n])
  unfold velocity
  split
  · split
    · exact le_max_of_le_left h
    · exact h
  · exact h

theorem turns_exact (b : Bool) {n : ℕ} {o p q : DiffObject (Option ℝ) (Option ℝ)} (ho : Shown d c r x n o)
    (hp : Shown d c r x (n - 1) p) (hq : Shown d c r x (n - 2) q) :
    Aim.angleBonuses o p q (some (velocity c r x b n)) (some (velocity c r x b (n - 1))) =
      (some (turnsAt c r x b n).1, some (turnsAt c r x b n).2) := by
  have hz : (lit 0 : Option ℝ) = some 0 := by rw [Exact.lit]; norm_num
  have hT := gap_ge (r := r) (x := x) n
  have hT0 : (0 : ℝ) < gap r x n := by linarith
  unfold Aim.angleBonuses turnsAt
  rw [ho.angle, hp.angle, hq.angle, ho.strainTime, hp.strainTime, Exact.fmax, Exact.fmin, Exact.lit 1.25, Exact.mul, Exact.lt,
    show (((1.25 : ℚ)) : ℝ) = 1.25 by norm_num, hz]
  by_cases hl : Level r x n
  · have hl' := hl
    unfold Level at hl'
    rw [if_pos (by simp only [decide_eq_true_eq]; exact hl')]
    rcases angleAt x n with _ | θ
    · rfl
    rcases angleAt x (n - 1) with _ | θ'
    · rfl
    rcases angleAt x (n - 2) with _ | θ''
    · rfl
    rw [if_pos (by rfl)]
    simp only [if_pos hl, wide_exact, acute_exact, Exact.fmin, ho.jump, pow_three_exact]
    generalize min (velocity c r x b n) (velocity c r x b (n - 1)) = v
    have e0 : (if (some (gap r x n) : Option ℝ) >. lit 100 then (some 0 : Option ℝ)
        else some (1 - wideness θ) *. (some (1 - wideness θ') *. fmin (some v) (lit 125 /. some (gap r x n)) *.
        GoLibm.pow (GoLibm.sin (halfPi *. fmin (lit 1) ((lit 100 -. some (gap r x n)) /. lit 25))) (lit 2) *.
        GoLibm.pow (GoLibm.sin (halfPi *. (clampF64 (some (Spec.jump c x n)) (lit 50) (lit 100) -. lit 50)
          /. lit 50)) (lit 2))) = some (sharpAfter θ θ' (gap r x n) (Spec.jump c x n) v) := by
      unfold sharpAfter
      rw [Exact.lit 100, Exact.lt]
      by_cases h : (100 : ℝ) < gap r x n
      · rw [if_pos (by simpa using h), if_pos h]
      · rw [if_neg (by simpa using h), if_neg h]
        simp only [Exact.lit, halfPi_some, Exact.clamp, Exact.sub, Exact.mul, Exact.div _ hT0.ne',
          Exact.div _ (show ((25 : ℚ) : ℝ) ≠ 0 by norm_num), Exact.div _ (show ((50 : ℚ) : ℝ) ≠ 0 by norm_num), Exact.fmin,
          Exact.sin, Exact.pow]
        congr 1
        unfold goPi
        push_cast
        rw [Real.rpow_two, Real.rpow_two]
    rw [e0]
    simp only [Exact.lit, Exact.sub, Exact.mul, Exact.add, Exact.fmin, wideAfter, sharpRepeated]
    norm_num
  · have hl' := hl
    unfold Level at hl'
    rw [if_neg (by simp only [decide_eq_true_eq]; exact hl')]
    rcases angleAt x n with _ | θ
    · rfl
    rcases angleAt x (n - 1) with _ | θ'
    · rfl
    rcases angleAt x (n - 2) with _ | θ''
    · rfl
    simp only [if_neg hl]

theorem slid_nonneg (hx : Playable x) (n : ℕ) : 0 ≤ slid x n := by
  unfold slid
  cases hs : slideTo x n with
  | none => exact le_rfl
  | some s =>
    unfold slideTo at hs
    split at hs
    · exact hx.length _ _ hs
    · cases hs

/-- If the cursor has a velocity the way has a length. -/
theorem pace_pos (hc0 : 0 < c) (hx : Playable x) (b : Bool) {n : ℕ} (h : velocity c r x b n ≠ 0) : 0 < pace c r x n := by
  have hT : (0 : ℝ) < gap r x n := by linarith [gap_ge (r := r) (x := x) n]
  have hJ := jump_nonneg (x := x) hc0 n
  have hS := slid_nonneg hx n
  unfold pace
  apply div_pos _ hT
  rcases hJ.eq_or_lt with e | e
  · rcases hS.eq_or_lt with e' | e'
    · exfalso
      apply h
      unfold velocity
      unfold slid at e'
      rw [← e]
      cases hs : slideTo x n with
      | none => simp
      | some s =>
        rw [hs] at e'
        simp only at e'
        simp only [← e']
        have : min (0 - 30) (jumpLength c ‖(x n).head - (x (n - 1)).tail‖ - 120) ≤ 0 := (min_le_left _ _).trans (by norm_num)
        rw [max_eq_left this]
        simp
    · linarith
  · linarith

theorem pace_nonneg (hc0 : 0 < c) (hx : Playable x) (n : ℕ) : 0 ≤ pace c r x n := by
  have hT : (0 : ℝ) < gap r x n := by linarith [gap_ge (r := r) (x := x) n]
  exact div_nonneg (add_nonneg (jump_nonneg hc0 n) (slid_nonneg hx n)) hT.le

theorem change_exact (hc0 : 0 < c) (hx : Playable x) (b : Bool) {n : ℕ} {o p : DiffObject (Option ℝ) (Option ℝ)}
    (ho : Shown d c r x n o) (hp : Shown d c r x (n - 1) p) :
    Aim.velocityChangeBonus o p (some (velocity c r x b n)) (some (velocity c r x b (n - 1))) = some (changeAt c r x b n) := by
  have hz : (lit 0 : Option ℝ) = some 0 := by rw [Exact.lit]; norm_num
  have hT : (0 : ℝ) < gap r x n := by linarith [gap_ge (r := r) (x := x) n]
  have hT' : (0 : ℝ) < gap r x (n - 1) := by linarith [gap_ge (r := r) (x := x) (n - 1)]
  have v1 := velocity_nonneg (r := r) (x := x) hc0 b n
  have v2 := velocity_nonneg (r := r) (x := x) hc0 b (n - 1)
  unfold Aim.velocityChangeBonus changeAt
  rw [hz, Exact.fmax, Exact.eq]
  by_cases h0 : velocity c r x b (n - 1) = 0 ∧ velocity c r x b n = 0
  · rw [if_pos h0, if_neg (by rw [h0.1, h0.2]; simp)]
  · have hne : ¬ max (velocity c r x b (n - 1)) (velocity c r x b n) = 0 := by
      intro e
      apply h0
      exact ⟨le_antisymm (e ▸ le_max_left _ _) v2, le_antisymm (e ▸ le_max_right _ _) v1⟩
    rw [if_neg h0, if_pos (by simp only [hne, decide_false, Bool.not_false])]
    have hpace : max (pace c r x (n - 1)) (pace c r x n) ≠ 0 := by
      by_cases h1 : velocity c r x b (n - 1) = 0
      · exact (lt_max_of_lt_right (pace_pos hc0 hx b (fun h => h0 ⟨h1, h⟩))).ne'
      · exact (lt_max_of_lt_left (pace_pos hc0 hx b h1)).ne'
    have hmin : min (gap r x n) (gap r x (n - 1)) ≠ 0 := (lt_min hT hT').ne'
    have hmax : max (gap r x n) (gap r x (n - 1)) ≠ 0 := (lt_max_of_lt_left hT).ne'
    have p1 : (some (Spec.jump c x n) +. some (slid x n)) /. some (gap r x n) = some (pace c r x n) := by
      rw [Exact.add, Exact.div _ hT.ne']; rfl
    have p2 : (some (Spec.jump c x (n - 1)) +. some (slid x (n - 1))) /. some (gap r x (n - 1)) = some (pace c r x (n - 1)) := by
      rw [Exact.add, Exact.div _ hT'.ne']; rfl
    simp only [ho.jump, hp.jump, ho.travel, hp.travel, ho.strainTime, hp.strainTime, p1, p2]
    simp only [Exact.lit, halfPi_some, Exact.sub, Exact.abs, Exact.mul, Exact.fmax, Exact.fmin, Exact.div _ hpace, Exact.div _ hmin,
      Exact.div _ hmax, Exact.div _ (show ((100 : ℚ) : ℝ) ≠ 0 by norm_num), Exact.sin, Exact.pow]
    congr 1
    unfold goPi
    push_cast
    simp only [Real.rpow_two]

theorem strain_exact (hc0 : 0 < c) (hx : Playable x) (b : Bool) {n : ℕ} {o p q : DiffObject (Option ℝ) (Option ℝ)} (hn : 3 ≤ n)
    (hm : Moves x n) (ho : Shown d c r x n o) (hp : Shown d c r x (n - 1) p) (hq : Shown d c r x (n - 2) q) :
    Aim.strain b o p q = some (aimHit c r x b n) := by
  have hz : (lit 0 : Option ℝ) = some 0 := by rw [Exact.lit]; norm_num
  have hq' : Shown d c r x (n - 1 - 1) q := by rw [show n - 1 - 1 = n - 2 by omega]; exact hq
  have hsb : (if !(o.travelTime ==. lit 0) then o.travelDistance /. o.travelTime else lit 0) = some (slideBonus r x n) := by
    rw [ho.travelTime, ho.travel, hz, Exact.eq]
    unfold slid slideBonus
    cases hs : slideTo x n with
    | none => simp
    | some s =>
      have h2 : slideTime r s ≠ 0 := by have := slideTime_ge (r := r) s; intro h; linarith
      simp only
      rw [if_pos (by simp only [h2, decide_false, Bool.not_false]), Exact.div _ h2]
  have ea : aimHit c r x b n = velocity c r x b n +
      max (2 * (turnsAt c r x b n).2) (1.5 * (turnsAt c r x b n).1 + 0.75 * changeAt c r x b n) +
      (if b then 1.5 * slideBonus r x n else 0) := by
    unfold aimHit
    exact if_pos ⟨hn, hm⟩
  rw [ea]
  unfold Aim.strain
  rw [velocity_exact hx b hm.1 ho hp, velocity_exact hx b hm.2 hp hq', hsb]
  simp only [turns_exact b ho hp hq, change_exact hc0 hx b ho hp]
  simp only [Exact.lit, Exact.mul, Exact.add, Exact.fmax]
  have e : max ((turnsAt c r x b n).2 * ((2 : ℚ) : ℝ)) ((turnsAt c r x b n).1 * ((1.5 : ℚ) : ℝ) + changeAt c r x b n * ((0.75 : ℚ) : ℝ)) =
      max (2 * (turnsAt c r x b n).2) (1.5 * (turnsAt c r x b n).1 + 0.75 * changeAt c r x b n) := by
    congr 1 <;> push_cast <;> ring
  rw [e]
  cases b
  · simp
  · simp only [if_true]
    congr 2
    push_cast; ring

theorem aimHit_exact (hc0 : 0 < c) (hx : Playable x) (b : Bool) {sk : Skill (Option ℝ) (Option ℝ)} {o : DiffObject (Option ℝ) (Option ℝ)}
    {k : ℕ} (ho : Shown d c r x (k + 1) o) (hp : ∀ (i : ℕ) o, sk.previous.reverse[i]? = some o → Shown d c r x (k - i) o)
    (hlen : sk.previous.length = min k 2) : Aim.strainValue b sk o = .ok (some (aimHit c r x b (k + 1))) := by
  have hz : (lit 0 : Option ℝ) = some 0 := by rw [Exact.lit]; norm_num
  have get : ∀ i, i < sk.previous.length → ∃ p, sk.derefPrevious i = .ok p ∧ Shown d c r x (k - i) p := by
    intro i hi
    have hi' : i < sk.previous.reverse.length := by rw [List.length_reverse]; exact hi
    have e := List.getElem?_eq_getElem hi'
    exact ⟨_, by unfold Skill.derefPrevious Skill.getPrevious; rw [e], hp i _ e⟩
  unfold Aim.strainValue
  by_cases h1 : (o.baseObject.obj.isSpinner || decide (sk.previous.length ≤ 1)) = true
  · rw [if_pos h1]
    show Except.ok (lit 0) = _
    rw [hz]
    unfold aimHit
    rw [if_neg]
    rintro ⟨h3, hm⟩
    rw [ho.spinner, hm.1, Bool.false_or, decide_eq_true_eq, hlen] at h1
    omega
  · rw [if_neg h1]
    rw [Bool.or_eq_true, not_or, decide_eq_true_eq, ho.spinner] at h1
    have hk : 2 ≤ k := by omega
    obtain ⟨p, ep, hp1⟩ := get 0 (by omega)
    obtain ⟨q, eq, hq1⟩ := get 1 (by omega)
    simp only [ep, eq, ok_bind, hp1.spinner, Nat.sub_zero] at hp1 ⊢
    by_cases hs : (x k).spinner = true
    · rw [if_pos hs]
      show Except.ok (lit 0) = _
      rw [hz]
      unfold aimHit
      rw [if_neg]
      rintro ⟨-, hm⟩
      have := hm.2
      rw [Nat.add_sub_cancel, hs] at this
      cases this
    · rw [if_neg hs]
      have := strain_exact (p := p) (q := q) hc0 hx b (n := k + 1) (by omega) ⟨by simpa using h1.1, by simpa using hs⟩ ho
        (by rw [Nat.add_sub_cancel]; exact hp1) (by rw [show k + 1 - 2 = k - 1 by omega]; exact hq1)
      rw [this]
      rfl

end GosuPP.Exactly
