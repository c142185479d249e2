import Verif.Lemmas.Motion
import Verif.Lemmas.Isometry

/-! Moved objects. -/

namespace GosuPP
open Go Spec

theorem map_index {α β : Type} (f : α → β) (l : List α) (i : Int) : index (l.map f) i = (index l i).map f := by
  unfold index
  split
  · rfl
  · rw [List.getElem?_map]
    cases l[i.toNat]? <;> rfl

section
variable {S D : Type} [GoFloat S] [GoFloat D] [GoConv S D]

theorem pointAt_place {p : Vec S → Vec S} (hp : ∀ u v t, (p u).lerp (p v) t = p (u.lerp v t)) (mc : MultiCurve S)
    (t : S) :
    ({ mc with lines := mc.lines.map fun l => ⟨p l.p1, p l.p2⟩, firstPoint := p mc.firstPoint } :
        MultiCurve S).pointAt t =
      (mc.pointAt t).map p := by
  unfold MultiCurve.pointAt MultiCurve.lineIndex
  simp only [List.length_map, map_index]
  split
  · rfl
  · generalize index mc.sections _ = a
    generalize index mc.sections _ = b
    generalize index mc.lines _ = c
    rcases a with e | a
    · rfl
    rcases b with e | b
    · rfl
    rcases c with e | c
    · rfl
    show (if _ then _ else _) = Except.map p (if _ then _ else _)
    split
    · rfl
    · exact congrArg Except.ok (hp _ _ _)

/-- Placing objects so that all positions move by `g`. -/
theorem moved_place {p q g : Vec S → Vec S} {m : Modifier} (hp : ∀ u v t, (p u).lerp (p v) t = p (u.lerp v t))
    (hm : ∀ (h : HitObject S D) u, HitObject.modifyPosition { h with
        startPosRaw := p h.startPosRaw, endPosRaw := p h.endPosRaw
        stackOffset := q h.stackOffset, stackOffsetEZ := q h.stackOffsetEZ
        stackOffsetHR := q h.stackOffsetHR } (p u) m = g (h.modifyPosition u m)) (o : Obj S D) :
    Moved Eq g m o (place p q o) where
  kind := by
    unfold place
    rcases o with ⟨b, _ | _ | s⟩
    · trivial
    · trivial
    · refine ⟨rfl, ?_⟩
      exact List.forall₂_same.mpr fun _ _ => ⟨rfl, rfl⟩
  startTime := rfl
  endTime := rfl
  start := hm _ _
  stop := hm _ _
  along := by
    rintro t _ rfl
    have hpos : (place p q o).getPositionAt t = (o.getPositionAt t).map p := by
      rcases o with ⟨b, _ | _ | s⟩
      · rfl
      · rfl
      · show sliderPositionAt _ _ _ = (sliderPositionAt _ _ _).map p
        unfold sliderPositionAt isRetarded place
        dsimp only
        split
        · rfl
        · exact pointAt_place hp _ _
    unfold Obj.getStackedPositionAtMod
    rw [hpos]
    cases o.getPositionAt t with
    | error e => rfl
    | ok v => exact congrArg Except.ok (hm _ _)

/-- Without time shifts nothing is needed. -/
theorem steady_eq (d : Difficulty D) : Steady d d Eq Eq Eq where
  mods := rfl
  radius := rfl
  window := rfl
  elapsed := by rintro _ _ _ _ rfl rfl; rfl
  back := by rintro _ _ _ _ rfl rfl; rfl
  scaled := by rintro _ _ rfl; rfl
  age := by rintro _ _ _ _ rfl rfl; rfl
  first := by rintro _ _ rfl; rfl
  past := by rintro _ _ _ _ rfl rfl; rfl
  since := by rintro _ _ _ _ rfl rfl; rfl
  next := by rintro _ _ _ _ rfl rfl _; rfl

end

/-! ## Shifts in time, exactly -/

section
open Exact

/-- adding a number -/
noncomputable def shiftBy (δ : ℝ) (t : Option ℝ) : Option ℝ := t.map (· + δ)

theorem steady_shift (d : Difficulty (Option ℝ)) (v : ℝ) (hv : d.speed = some v) (k : ℤ) :
    Steady d d (fun t t' => t' = shiftBy (400 * k * v) t) (fun t t' => t' = shiftBy (400 * k) t)
      (fun t t' => t' = shiftBy (400 * k) t) where
  mods := rfl
  radius := rfl
  window := rfl
  elapsed := by
    rintro (_ | a) _ (_ | b) _ rfl rfl <;> simp only [shiftBy, Option.map_none, Option.map_some, sub_left, sub_right, sub]
    congr 2
    ring
  back := by
    rintro (_ | a) _ (_ | b) _ rfl rfl <;>
      simp only [shiftBy, Option.map_none, Option.map_some, sub_left, sub_right, sub, add_left, add_right, add]
    congr 1
    ring
  scaled := by
    rw [hv]
    rintro (_ | a) _ rfl
    · simp only [shiftBy, Option.map_none, div_left]
    · by_cases hv : v = 0
      · subst hv
        simp only [shiftBy, div_zero, Option.map_none]
      · simp only [shiftBy, Option.map_some, div _ hv]
        congr 1
        field_simp
  age := by
    rintro (_ | a) _ (_ | b) _ rfl rfl <;> simp only [shiftBy, Option.map_none, Option.map_some, sub_left, sub_right, sub]
    congr 1
    ring
  first := by
    rintro (_ | a) _ rfl
    · simp only [shiftBy, Option.map_none, div_left]
      rfl
    · have h4 : ((400 : ℚ) : ℝ) ≠ 0 := by norm_num
      simp only [shiftBy, Option.map_some, lit, div _ h4, ceil, mul]
      congr 1
      have : (a + 400 * (k : ℝ)) / ((400 : ℚ) : ℝ) = a / ((400 : ℚ) : ℝ) + (k : ℝ) := by
        push_cast
        field_simp
      rw [this, Int.ceil_add_intCast]
      push_cast
      ring
  past := by
    rintro (_ | a) _ (_ | b) _ rfl rfl <;>
      simp only [shiftBy, Option.map_none, Option.map_some, lt_left, lt_right, lt, add_lt_add_iff_right]
  since := by
    rintro (_ | a) _ (_ | b) _ rfl rfl <;> simp only [shiftBy, Option.map_none, Option.map_some, sub_left, sub_right, sub]
    congr 1
    ring
  next := by
    rintro _ _ (_ | b) _ rfl rfl _
    · rfl
    · simp only [shiftBy, Option.map_some, lit, add]
      congr 1
      ring

theorem fmax_some (x y : ℝ) : fmax (some x) (some y) = some (max x y) := by
  unfold fmax
  simp only [GoFloat.isPosInf, GoFloat.isNaN, GoFloat.eq, GoFloat.signbit, GoFloat.lt, GoFloat.lit, cmp2, Bool.or_self,
    Option.isNone_some, Bool.false_eq_true, if_false, Rat.cast_zero, Bool.and_eq_true, decide_eq_true_eq]
  split
  · rename_i h
    rw [← h.2]; split <;> simp
  · split
    · rename_i h; rw [max_eq_left h.le]
    · rename_i h; rw [max_eq_right (not_lt.mp h)]

theorem fmin_some (x y : ℝ) : fmin (some x) (some y) = some (min x y) := by
  unfold fmin
  simp only [GoFloat.isNegInf, GoFloat.isNaN, GoFloat.eq, GoFloat.signbit, GoFloat.lt, GoFloat.lit, cmp2, Bool.or_self,
    Option.isNone_some, Bool.false_eq_true, if_false, Rat.cast_zero, Bool.and_eq_true, decide_eq_true_eq]
  split
  · rename_i h
    rw [← h.2]; split <;> simp
  · split
    · rename_i h; rw [min_eq_left h.le]
    · rename_i h; rw [min_eq_right (not_lt.mp h)]

theorem fmax_none (x y : Option ℝ) (h : x = none ∨ y = none) : fmax x y = none := by
  unfold fmax
  rcases h with rfl | rfl
  · rfl
  · cases x <;> rfl

theorem fmin_none (x y : Option ℝ) (h : x = none ∨ y = none) : fmin x y = none := by
  unfold fmin
  rcases h with rfl | rfl
  · rfl
  · cases x <;> rfl

theorem fmax_shift (δ : ℝ) (x y : Option ℝ) : fmax (shiftBy δ x) (shiftBy δ y) = shiftBy δ (fmax x y) := by
  rcases x with _ | x
  · exact (fmax_none _ _ (.inl rfl)).trans (congrArg (shiftBy δ) (fmax_none _ _ (.inl rfl))).symm
  rcases y with _ | y
  · exact (fmax_none _ _ (.inr rfl)).trans (congrArg (shiftBy δ) (fmax_none _ _ (.inr rfl))).symm
  simp only [shiftBy, Option.map_some, fmax_some, max_add_add_right]

theorem fmin_shift (δ : ℝ) (x y : Option ℝ) : fmin (shiftBy δ x) (shiftBy δ y) = shiftBy δ (fmin x y) := by
  rcases x with _ | x
  · exact (fmin_none _ _ (.inl rfl)).trans (congrArg (shiftBy δ) (fmin_none _ _ (.inl rfl))).symm
  rcases y with _ | y
  · exact (fmin_none _ _ (.inr rfl)).trans (congrArg (shiftBy δ) (fmin_none _ _ (.inr rfl))).symm
  simp only [shiftBy, Option.map_some, fmin_some, min_add_add_right]

theorem sub_shift (δ : ℝ) (x y : Option ℝ) : shiftBy δ x -. shiftBy δ y = x -. y := by
  rcases x with _ | x <;> rcases y with _ | y <;>
    simp only [shiftBy, Option.map_none, Option.map_some, sub_left, sub_right, sub]
  congr 1
  ring

theorem eq_shift (δ : ℝ) (x y : Option ℝ) : (shiftBy δ x ==. shiftBy δ y) = (x ==. y) := by
  rcases x with _ | x <;> rcases y with _ | y
  · rfl
  · rfl
  · rfl
  · show decide (x + δ = y + δ) = decide (x = y)
    simp

/-- Objects later by `δ`. -/
theorem moved_retime (δ : ℝ) (m : Modifier) (o : Obj (Option ℝ) (Option ℝ)) :
    Moved (fun t t' => t' = shiftBy δ t) id m o (retime (shiftBy δ) o) where
  kind := by
    unfold retime
    rcases o with ⟨b, _ | _ | s⟩
    · trivial
    · trivial
    · refine ⟨rfl, ?_⟩
      exact List.forall₂_map_right_iff.mpr (List.forall₂_same.mpr fun _ _ => ⟨rfl, rfl⟩)
  startTime := rfl
  endTime := rfl
  start := rfl
  stop := rfl
  along := by
    rintro t _ rfl
    have hpos : (retime (shiftBy δ) o).getPositionAt (shiftBy δ t) = o.getPositionAt t := by
      rcases o with ⟨b, _ | _ | s⟩
      · rfl
      · rfl
      · show sliderPositionAt _ _ _ = sliderPositionAt _ _ _
        unfold sliderPositionAt isRetarded retime clampF64
        dsimp only
        rw [eq_shift, fmax_shift, fmin_shift, sub_shift]
    unfold Obj.getStackedPositionAtMod
    rw [hpos]
    cases o.getPositionAt t with
    | error e => rfl
    | ok v => rfl

/-! ## Stretched times, exactly -/

/-- multiplying by a number -/
noncomputable def scaleBy (c : ℝ) (t : Option ℝ) : Option ℝ := t.map (· * c)

theorem steady_scale (d d' : Difficulty (Option ℝ)) {v v' : ℝ} (h0 : v ≠ 0) (h0' : v' ≠ 0) (hv : d.speed = some v)
    (hv' : d'.speed = some v') (hm : d'.mods = d.mods) (hr : d'.circleRadius = d.circleRadius)
    (hw : d'.hit300 /. d'.speed = d.hit300 /. d.speed) :
    Steady d d' (fun t t' => t' = scaleBy (v' / v) t) Eq Eq where
  mods := hm
  radius := hr
  window := hw
  elapsed := by
    rw [hv, hv']
    rintro (_ | a) _ (_ | b) _ rfl rfl <;>
      simp only [scaleBy, Option.map_none, Option.map_some, sub_left, sub_right, sub, div_left, div _ h0, div _ h0']
    congr 1
    field_simp
  back := by
    rintro (_ | a) _ (_ | b) _ rfl rfl <;>
      simp only [scaleBy, Option.map_none, Option.map_some, sub_left, sub_right, sub, add_left, add_right, add]
    congr 1
    ring
  scaled := by
    rw [hv, hv']
    rintro (_ | a) _ rfl
    · simp only [scaleBy, Option.map_none, div_left]
    · simp only [scaleBy, Option.map_some, div _ h0, div _ h0']
      congr 1
      field_simp
  age := by rintro _ _ _ _ rfl rfl; rfl
  first := by rintro _ _ rfl; rfl
  past := by rintro _ _ _ _ rfl rfl; rfl
  since := by rintro _ _ _ _ rfl rfl; rfl
  next := by rintro _ _ _ _ rfl rfl _; rfl

theorem fmax_scale {c : ℝ} (hc : 0 < c) (x y : Option ℝ) :
    fmax (scaleBy c x) (scaleBy c y) = scaleBy c (fmax x y) := by
  rcases x with _ | x
  · exact (fmax_none _ _ (.inl rfl)).trans (congrArg (scaleBy c) (fmax_none _ _ (.inl rfl))).symm
  rcases y with _ | y
  · exact (fmax_none _ _ (.inr rfl)).trans (congrArg (scaleBy c) (fmax_none _ _ (.inr rfl))).symm
  simp only [scaleBy, Option.map_some, fmax_some, max_mul_of_nonneg _ _ hc.le]

theorem fmin_scale {c : ℝ} (hc : 0 < c) (x y : Option ℝ) :
    fmin (scaleBy c x) (scaleBy c y) = scaleBy c (fmin x y) := by
  rcases x with _ | x
  · exact (fmin_none _ _ (.inl rfl)).trans (congrArg (scaleBy c) (fmin_none _ _ (.inl rfl))).symm
  rcases y with _ | y
  · exact (fmin_none _ _ (.inr rfl)).trans (congrArg (scaleBy c) (fmin_none _ _ (.inr rfl))).symm
  simp only [scaleBy, Option.map_some, fmin_some, min_mul_of_nonneg _ _ hc.le]

theorem ratio_scale {c : ℝ} (hc : 0 < c) (x y z : Option ℝ) :
    (scaleBy c x -. scaleBy c y) /. scaleBy c z = (x -. y) /. z := by
  rcases x with _ | x <;> rcases y with _ | y <;> rcases z with _ | z <;>
    simp only [scaleBy, Option.map_none, Option.map_some, sub_left, sub_right, sub, div_left]
  · rfl
  · by_cases hz : z = 0
    · subst hz
      simp only [zero_mul, Exact.div_zero]
    · rw [div _ hz, div _ (mul_ne_zero hz hc.ne')]
      congr 1
      field_simp

theorem eq_scale {c : ℝ} (hc : 0 < c) (x y : Option ℝ) : (scaleBy c x ==. scaleBy c y) = (x ==. y) := by
  rcases x with _ | x <;> rcases y with _ | y
  · rfl
  · rfl
  · rfl
  · show decide (x * c = y * c) = decide (x = y)
    rw [decide_eq_decide]
    exact mul_left_inj' hc.ne'

/-- Stretched objects. -/
theorem moved_stretch {c : ℝ} (hc : 0 < c) (m : Modifier) (o : Obj (Option ℝ) (Option ℝ)) :
    Moved (fun t t' => t' = scaleBy c t) id m o (stretch (scaleBy c) o) where
  kind := by
    unfold stretch
    rcases o with ⟨b, _ | _ | s⟩
    · trivial
    · trivial
    · refine ⟨rfl, ?_⟩
      exact List.forall₂_map_right_iff.mpr (List.forall₂_same.mpr fun _ _ => ⟨rfl, rfl⟩)
  startTime := rfl
  endTime := rfl
  start := rfl
  stop := rfl
  along := by
    rintro t _ rfl
    have hpos : (stretch (scaleBy c) o).getPositionAt (scaleBy c t) = o.getPositionAt t := by
      rcases o with ⟨b, _ | _ | s⟩
      · rfl
      · rfl
      · show sliderPositionAt _ _ _ = sliderPositionAt _ _ _
        unfold sliderPositionAt isRetarded stretch clampF64
        dsimp only
        rw [eq_scale hc, fmax_scale hc, fmin_scale hc, ratio_scale hc]
    unfold Obj.getStackedPositionAtMod
    rw [hpos]
    cases o.getPositionAt t with
    | error e => rfl
    | ok v => rfl

theorem rigid_id {S D : Type} [GoFloat S] [GoFloat D] [GoConv S D] [GoLibm D] : Rigid (S := S) (D := D) id where
  dst _ _ := rfl
  dstScl _ _ _ := rfl
  len _ _ := rfl
  step _ _ _ := rfl
  angle _ _ _ _ := rfl

end
end GosuPP
