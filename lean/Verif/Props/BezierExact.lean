import Verif.Lemmas.BezierReal
import Verif.Lemmas.BezierAccuracy
import Verif.Props.Bezier
import Verif.Props.Sample

/-!
# Properties of Bezier flattening: termination and geometry
-/

namespace GosuPP
open Go Approximator

/-! ## C36 -/

/-- In exact arithmetic `CreateBezier` returns for every nonempty list of control points. -/
theorem C36_terminates {cps : List (Vec ℝ)} (hne : cps ≠ []) :
    ∃ n out, ∀ fuel, n ≤ fuel → createBezier fuel cps = .ok out := by
  obtain ⟨n, hn⟩ := exists_smallDiff cps
  obtain ⟨l, hl⟩ := flattens_of_smallDiff n cps hn
  obtain ⟨m, hm⟩ := C35_complete hne hl
  exact ⟨m, _, hm⟩

/-- Control points with coordinates near 2^23, where the spacing of `float32` is 1. -/
def stuck : List (Vec F32) :=
  [⟨lit 8388609, lit 0⟩, ⟨lit 8388610, lit 0⟩, ⟨lit 8388610, lit 0⟩]

theorem stuck_split : isFlatEnough stuck = false ∧ Spec.leftHalf stuck = stuck := by
  constructor <;> decide +kernel

/-- In `float32` it does not return for some control points. -/
theorem C36_hangs (fuel : Nat) : createBezier fuel stuck = .error .hang := by
  have hno : ∀ c l : List (Vec F32), Spec.Flattens c l → c = stuck → False := by
    intro c l h
    induction h with
    | flat hf =>
      rintro rfl
      have := (isFlatEnough_iff stuck).mpr hf
      rw [stuck_split.1] at this
      cases this
    | split hf _ _ iha _ =>
      rintro rfl
      exact iha stuck_split.2
  cases h : createBezier fuel stuck with
  | ok out =>
    unfold createBezier at h
    obtain ⟨st, h1, -⟩ := bind_ok h
    obtain ⟨_, l, hl, -⟩ := C35_result h1
    exact absurd rfl (hno _ _ hl)
  | error e =>
    cases e with
    | hang => rfl
    | panic => exact absurd ((C35_panic fuel stuck).mp h) (by decide)

/-- A slider with these control points, as it is written in a file. -/
def stuckFields : List Str :=
  ["8388609".toList, "0".toList, "0".toList, "2".toList, "0".toList, "B|8388610:0|8388610:0".toList,
   "1".toList, "100".toList]

theorem stuck_points : (parsePoints (split '|' "B|8388610:0|8388610:0".toList).tail : Result (List (Vec F32))) =
    .ok stuck.tail := by decide +kernel

theorem stuck_start : (⟨parseFloat "8388609".toList, parseFloat "0".toList⟩ : Vec F32) = stuck.head (by simp [stuck]) := by
  decide +kernel

/-- So reading the line of such a slider never returns. -/
theorem C36_parse [GoLibm F64] (fuel : Nat) :
    (createObject fuel stuckFields : Result (Option (Obj F32 F64))) = .error .hang := by
  have hb : processType (D := F64) fuel ['B'] stuck = .error .hang := by
    show processBezier fuel stuck = _
    have e01 : (Vec.eq ⟨lit 8388609, lit 0⟩ (⟨lit 8388610, lit 0⟩ : Vec F32)) = false := by decide +kernel
    have hh : approximateBezier fuel stuck = .error .hang := by
      unfold approximateBezier
      rw [C36_hangs]
      rfl
    unfold stuck at hh ⊢
    unfold processBezier
    simp [processBezierLoop, e01, hh]
    rfl
  have hc : ∃ b : HitObject F32 F64, commonParse stuckFields = .ok b ∧
      b.startPosRaw = ⟨parseFloat "8388609".toList, parseFloat "0".toList⟩ := ⟨_, rfl, rfl⟩
  obtain ⟨b, hc, hs⟩ := hc
  have h3 : index stuckFields 3 = .ok "2".toList := rfl
  have h5 : index stuckFields 5 = .ok "B|8388610:0|8388610:0".toList := rfl
  have h6 : index stuckFields 6 = .ok "1".toList := rfl
  have h7 : index stuckFields 7 = .ok "100".toList := rfl
  have h0 : index (split '|' "B|8388610:0|8388610:0".toList) 0 = .ok ['B'] := by decide
  have t1 : typeCircle (parseInt "2".toList) = false := by decide
  have t2 : typeSpinner (parseInt "2".toList) = false := by decide
  have t3 : typeSlider (parseInt "2".toList) = true := by decide
  have hpts : b.startPosRaw :: stuck.tail = stuck := by
    rw [hs, stuck_start]
    exact List.cons_head_tail (by simp [stuck])
  have hn : (newSlider fuel stuckFields : Result (Obj F32 F64)) = .error .hang := by
    unfold newSlider
    simp only [hc, h7, h6, h5, ok_bind, stuck_points, h0, hpts]
    unfold MultiCurve.newT
    rw [hb]
    rfl
  unfold createObject
  simp only [h3, ok_bind, t1, t2, t3, Bool.false_eq_true, if_false, if_true, hn]
  rfl

/-! ## C37 -/

/-- In exact arithmetic the two halves trace the first and the second half of the parent's curve. -/
theorem C37_halves {cps : List (Vec ℝ)} (hne : cps ≠ []) (t : ℝ) :
    Spec.bezier (Spec.leftHalf cps) t = Spec.bezier cps (t / 2) ∧
    Spec.bezier (Spec.rightHalf cps) t = Spec.bezier cps ((1 + t) / 2) :=
  ⟨bezier_leftHalf hne t, bezier_rightHalf hne t⟩

/-- `Subdivide` writes the control points of these halves into its two output buffers, also when the
second one is the scratch buffer. -/
theorem C37_subdivide {cps : List (Vec ℝ)} (hne : cps ≠ []) {m : Mem ℝ} {cp l r : ℕ} (hcp : cp ≠ 0)
    (hl : l ≠ 0) (hlr : l ≠ r) (hc : m[cp]? = some cps)
    (h0 : ∃ b, m[0]? = some b ∧ cps.length ≤ b.length) (h1 : ∃ b, m[l]? = some b ∧ cps.length ≤ b.length)
    (h2 : ∃ b, m[r]? = some b ∧ cps.length ≤ b.length) :
    ∃ m' bl br, subdivide cps.length cp l r m = .ok m' ∧ m'[l]? = some bl ∧ m'[r]? = some br ∧
      ∀ t, Spec.bezier (bl.take cps.length) t = Spec.bezier cps (t / 2) ∧
        Spec.bezier (br.take cps.length) t = Spec.bezier cps ((1 + t) / 2) := by
  have some_of : ∀ {a : ℕ}, (∃ b, m[a]? = some b ∧ cps.length ≤ b.length) →
      ∀ j, j < cps.length → (Mem.cell m a j).isSome = true := by
    rintro a ⟨b, hb, hlen⟩ j hj
    exact Mem.cell_isSome.mpr ⟨_, shape_of_buffer hb, by omega⟩
  obtain ⟨m', e, s, v1, v2, -⟩ := subdivide_ok cps cp l r hcp hl hlr m (fun j hj => cell_getD hc hj)
    (some_of h0) (some_of h1) (some_of h2)
  have get : ∀ {a : ℕ} {half : List (Vec ℝ)}, (∃ b, m[a]? = some b ∧ cps.length ≤ b.length) →
      half.length = cps.length → (∀ j, j < cps.length → Mem.cell m' a j = some (half.getD j Vec.zero)) →
      ∃ b, m'[a]? = some b ∧ b.take cps.length = half := by
    rintro a half ⟨b, hb, hlen⟩ hhalf hv
    have hsh := shape_of_buffer hb
    rw [← s] at hsh
    obtain ⟨b', hb', hlen'⟩ := buffer_of_shape hsh
    refine ⟨b', hb', ?_⟩
    apply List.ext_getElem?
    intro j
    by_cases hj : j < cps.length
    · rw [List.getElem?_take_of_lt hj, ← cell_of_buffer hb', hv j hj, List.getD_eq_getElem?_getD,
        List.getElem?_eq_getElem (by omega)]
      rfl
    · rw [List.getElem?_eq_none (by simp; omega), List.getElem?_eq_none (by omega)]
  obtain ⟨bl, hbl, tl⟩ := get h1 (leftHalf_length cps) (fun j hj => by rw [v1 j hj, leftHalf_getD cps hj])
  obtain ⟨br, hbr, tr⟩ := get h2 (rightHalf_length cps) (fun j hj => by rw [v2 j hj, rightHalf_getD cps hj])
  refine ⟨m', bl, br, e, hbl, hbr, fun t => ?_⟩
  rw [tl, tr]
  exact C37_halves hne t

/-- What `CreateBezier` returns is put together from flat pieces of the curve, in order, that cover
the whole curve. -/
theorem C37_pieces {fuel : Nat} {cps : List (Vec ℝ)} {st : State ℝ} (h : createBezierState fuel cps = .ok st) :
    ∃ (hne : cps ≠ []) (leaves : List (List (Vec ℝ) × ℝ × ℝ)),
      st.out = (leaves.map (fun x => Spec.pieces x.1)).flatten ++ [cps.getLast hne] ∧
      Spec.Tiles 0 1 (leaves.map Prod.snd) ∧
      ∀ x ∈ leaves, Spec.flat x.1 ∧ x.1.length = cps.length ∧
        ∀ s, Spec.bezier x.1 s = Spec.bezier cps (x.2.1 + (x.2.2 - x.2.1) * s) := by
  obtain ⟨hne, l, hl, ho, -⟩ := C35_result h
  obtain ⟨leaves, h1, h2, h3⟩ := flattens_leaves hl hne
  exact ⟨hne, leaves, by rw [ho, h1], h2, h3⟩

/-- The curve is not constant in the statement: a parabola. -/
example : Spec.bezier [⟨0, 0⟩, ⟨1, 2⟩, ⟨2, 0⟩] (1 / 2) = ⟨1, 1⟩ := by
  unfold Spec.bezier Spec.bernstein
  simp [Finset.sum_range_succ]
  norm_num

/-! ## C63 -/

/-- In exact arithmetic every point `CreateBezier` returns for `n` control points is within
`(n + 1) / 64` of a point of the curve, in both coordinates. -/
theorem C63_accuracy {fuel : Nat} {cps : List (Vec ℝ)} {st : State ℝ} (h : createBezierState fuel cps = .ok st) :
    ∀ q ∈ st.out, ∃ t, 0 ≤ t ∧ t ≤ 1 ∧
      |q.x - (Spec.bezier cps t).x| ≤ ((cps.length : ℝ) + 1) / 64 ∧
      |q.y - (Spec.bezier cps t).y| ≤ ((cps.length : ℝ) + 1) / 64 := by
  obtain ⟨hne, leaves, ho, ht, hl⟩ := C37_pieces h
  have hnn : (0 : ℝ) ≤ ((cps.length : ℝ) + 1) / 64 := by positivity
  intro q hq
  rw [ho] at hq
  rcases List.mem_append.mp hq with hq | hq
  · obtain ⟨ps, hps, hq⟩ := List.mem_flatten.mp hq
    obtain ⟨x, hx, rfl⟩ := List.mem_map.mp hps
    obtain ⟨hf, hlen, hb⟩ := hl x hx
    have hne' : x.1 ≠ [] := List.length_pos_iff.mp (by rw [hlen]; exact List.length_pos_iff.mpr hne)
    obtain ⟨t, h0, h1, h2, h3⟩ := pieces_near hne' hf q hq
    obtain ⟨-, hr⟩ := tiles_range ht
    obtain ⟨hr0, hr1, hr2⟩ := hr _ (List.mem_map_of_mem hx)
    rw [hlen, hb] at h2 h3
    refine ⟨x.2.1 + (x.2.2 - x.2.1) * t, ?_, ?_, h2, h3⟩
    · have := mul_nonneg (sub_nonneg.mpr hr1.le) h0
      linarith
    · have := mul_le_mul_of_nonneg_left h1 (sub_nonneg.mpr hr1.le)
      linarith
  · have : q = cps.getLast hne := by simpa using hq
    refine ⟨1, by norm_num, le_refl _, ?_⟩
    rw [bezier_one hne, ← this]
    simp only [sub_self, abs_zero]
    exact ⟨hnn, hnn⟩

/-- For the usual three or four control points that is less than a twelfth of a pixel. -/
example {cps : List (Vec ℝ)} (h : cps.length ≤ 4) : ((cps.length : ℝ) + 1) / 64 < 1 / 12 := by
  have : (cps.length : ℝ) ≤ 4 := by exact_mod_cast h
  linarith

/-- The hypothesis is met by every nonempty list with enough fuel. -/
example : ∃ fuel st, createBezierState fuel [⟨0, 0⟩, ⟨100, 200⟩, (⟨200, 0⟩ : Vec ℝ)] = .ok st := by
  obtain ⟨fuel, out, h⟩ := C36_terminates (cps := [⟨0, 0⟩, ⟨100, 200⟩, (⟨200, 0⟩ : Vec ℝ)]) (by simp)
  have h := h fuel (le_refl _)
  unfold createBezier at h
  obtain ⟨st, hst, -⟩ := bind_ok h
  exact ⟨fuel, st, hst⟩

end GosuPP
