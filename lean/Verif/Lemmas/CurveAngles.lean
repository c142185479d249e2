import Verif.Lemmas.ArcReal
import Verif.Lemmas.BezierCurve
import Verif.Lemmas.Curve
import Verif.Model.CurveAngles

/-! Directions on curves. -/

namespace GosuPP
open Go MultiCurve

theorem getLineAt_total {S D : Type} [GoFloat S] [GoFloat D] [GoConv S D] (mc : MultiCurve S) (h : mc.lines ≠ []) (t : S) :
    ∃ l ∈ mc.lines, mc.getLineAt t = .ok l := by
  have hpos := List.length_pos_iff.mpr h
  unfold getLineAt
  rw [if_neg (by simp only [beq_iff_eq]; omega)]
  simp only
  obtain ⟨h1, h2⟩ := lineIndex_range mc hpos (mc.length *. clampF32 t (lit 0) (lit 1))
  generalize mc.lineIndex (mc.length *. clampF32 t (lit 0) (lit 1)) = i at h1 h2
  have hi : i.toNat < mc.lines.length := by omega
  refine ⟨mc.lines[i.toNat], List.getElem_mem hi, ?_⟩
  unfold index
  rw [if_neg (by omega), List.getElem?_eq_getElem hi]

/-- The line that is found for a distance. -/
theorem lineIndex_real {mc : MultiCurve ℝ} (hm : MeasuredR mc) (hpos : 0 < mc.length) {w : ℝ} (hwL : w ≤ mc.length) :
    ∃ (i : ℕ) (l : Linear ℝ), mc.lineIndex w = (i : ℤ) ∧ mc.lines[i]? = some l ∧
      w ≤ Spec.pathLength (mc.lines.take (i + 1)) ∧ (0 < i → Spec.pathLength (mc.lines.take i) < w) := by
  obtain ⟨hlen, hsec⟩ := hm
  rw [totalLength_real] at hlen
  have hne : 0 < mc.lines.length := by
    rcases Nat.eq_zero_or_pos mc.lines.length with h | h
    · rw [List.length_eq_zero_iff.mp h, pathLength_nil] at hlen
      linarith
    · exact h
  set p : ℕ → Bool := fun i => match mc.sections.tail[i]? with
    | some s => s >=. w
    | none => true with hp
  have htail : mc.sections.tail = sectionsFrom (D := ℝ) (lit 0) mc.lines := by rw [hsec]; rfl
  have hlenT : mc.sections.tail.length = mc.lines.length := by rw [htail, sectionsFrom_length]
  have hpi : ∀ i, i < mc.lines.length → (p i = true ↔ w ≤ Spec.pathLength (mc.lines.take (i + 1))) := by
    intro i hi
    rw [hp]
    simp only
    rw [htail, sectionsFrom_getElem hi, lit_zero_real, zero_add]
    simp only
    rw [RealArith.le]
  obtain ⟨hs1, hs2⟩ := search_switch mc.sections.tail.length p
  have hs3 := search_le mc.sections.tail.length p
  set i := search mc.sections.tail.length p with hi
  rw [hlenT] at hs1 hs3
  have hlt : i < mc.lines.length := by
    rcases Nat.lt_or_ge i mc.lines.length with h | h
    · exact h
    · exfalso
      have h2 := hs2 (by omega)
      have h3 := (hpi (i - 1) (by omega)).mpr (by
        have e : i - 1 + 1 = mc.lines.length := by omega
        rw [e, List.take_length, ← hlen]
        exact hwL)
      rw [h2] at h3
      cases h3
  have hidx : mc.lineIndex w = (i : ℤ) := by
    unfold MultiCurve.lineIndex minI
    simp only
    have key : ∀ q : ℕ → Bool, (∀ j, q j = p j) → search mc.sections.tail.length q = i := by
      intro q hq
      rw [show q = p from funext hq]
    rw [key _ (fun j => by simp only [hp]; cases mc.sections.tail[j]? <;> rfl)]
    split
    · rfl
    · omega
  refine ⟨i, mc.lines[i], hidx, List.getElem?_eq_getElem hlt, (hpi i hlt).mp (hs1 hlt), fun h0 => ?_⟩
  have := hs2 h0
  have hh := fun hle => Bool.eq_false_iff.mp this ((hpi (i - 1) (by omega)).mpr hle)
  rw [show i - 1 + 1 = i by omega] at hh
  exact not_le.mp hh

/-- `PointAt` and `getLineAt` agree. -/
theorem getLineAt_real {mc : MultiCurve ℝ} (hm : MeasuredR mc) (hpos : 0 < mc.length) (t : ℝ) :
    ∃ l ∈ mc.lines, mc.getLineAt (D := ℝ) t = .ok l ∧ ∃ u, 0 ≤ u ∧ u ≤ 1 ∧ mc.pointAt (D := ℝ) t = .ok (Spec.along l u) := by
  have hwL : mc.length * min 1 (max 0 t) ≤ mc.length := by
    have : min 1 (max 0 t) ≤ 1 := min_le_left _ _
    nlinarith
  have hw0 : 0 ≤ mc.length * min 1 (max 0 t) := mul_nonneg hpos.le (le_min zero_le_one (le_max_left _ _))
  obtain ⟨i, l, h1, h2, h3, h4⟩ := lineIndex_real hm hpos hwL
  refine ⟨l, List.mem_of_getElem? h2, ?_, ?_⟩
  · unfold getLineAt
    have hlt : i < mc.lines.length := (List.getElem?_eq_some_iff.mp h2).1
    rw [if_neg (by simp only [beq_iff_eq]; omega)]
    simp only
    rw [clampF32_real, RealArith.mul, h1]
    unfold index
    rw [if_neg (by omega), Int.toNat_natCast, h2]
  · rw [pointAt_walk hm hpos t, mul_comm, walk_line h2 h3 h4]
    refine ⟨_, ?_, ?_, rfl⟩
    · refine div_nonneg ?_ (len_nonneg l)
      rcases Nat.eq_zero_or_pos i with rfl | h0
      · rw [List.take_zero, pathLength_nil, sub_zero]; exact hw0
      · linarith [h4 h0]
    · have hs : Spec.pathLength (mc.lines.take (i + 1)) = Spec.pathLength (mc.lines.take i) + Spec.len l := by
        rw [List.take_succ, h2, pathLength_append]
        simp [pathLength_cons, pathLength_nil]
      exact div_le_one_of_le₀ (by linarith) (len_nonneg l)

namespace Catmull

theorem lengthLoop_real (cm : Catmull ℝ) (N : ℝ) (k : ℕ) : ∀ (i : ℕ) (len : ℝ),
    lengthLoop (D := ℝ) cm N k ((i + 1 : ℕ) : Int) len =
      len + ∑ m ∈ Finset.range k, ‖cplx (cm.pointAt (((i + m + 1 : ℕ) : ℝ) / N)) - cplx (cm.pointAt (((i + m : ℕ) : ℝ) / N))‖ := by
  induction k with
  | zero => intro i len; simp [lengthLoop]
  | succ k ih =>
    intro i len
    rw [lengthLoop]
    have e : (Go.ofInt ((i + 1 : ℕ) : Int) : ℝ) /. N = ((i + 1 : ℕ) : ℝ) / N := by
      rw [RealArith.div, RealArith.ofInt, Int.cast_natCast]
    have e' : (Go.ofInt (((i + 1 : ℕ) : Int) - 1) : ℝ) /. N = ((i : ℕ) : ℝ) / N := by
      rw [RealArith.div, RealArith.ofInt, show ((i + 1 : ℕ) : Int) - 1 = ((i : ℕ) : Int) by push_cast; ring, Int.cast_natCast]
    rw [e, e', show (((i + 1 : ℕ) : Int) + 1) = ((i + 1 + 1 : ℕ) : Int) by push_cast; rfl, ih (i + 1), Finset.sum_range_succ']
    have hd : ∀ a b : Vec ℝ, b.dst (D := ℝ) a = ‖cplx b - cplx a‖ := by
      intro a b
      rw [← len_cplx]
      show Real.sqrt ((a.x - b.x) * (a.x - b.x) + (a.y - b.y) * (a.y - b.y)) = Real.sqrt ((b.x - a.x) ^ 2 + (b.y - a.y) ^ 2)
      congr 1
      ring
    rw [hd, RealArith.add]
    have e2 : ∀ m ∈ Finset.range k, ‖cplx (cm.pointAt (((i + 1 + m + 1 : ℕ) : ℝ) / N)) -
        cplx (cm.pointAt (((i + 1 + m : ℕ) : ℝ) / N))‖ =
        ‖cplx (cm.pointAt (((i + (m + 1) + 1 : ℕ) : ℝ) / N)) - cplx (cm.pointAt (((i + (m + 1) : ℕ) : ℝ) / N))‖ := by
      intro m _
      rw [show i + 1 + m = i + (m + 1) by omega]
    rw [Finset.sum_congr rfl e2, Nat.add_zero]
    ring

end Catmull
end GosuPP
