import Verif.Spec.LazyCursor
import Mathlib.Analysis.SpecialFunctions.Pow.Real
import Mathlib.Analysis.Convex.StrictConvexBetween
import Mathlib.Analysis.InnerProductSpace.Convex
import Mathlib.Analysis.Complex.Basic

/-!
# One step of the cursor of a lazy player
-/

namespace GosuPP.LazyCursor
open Go Spec

theorem len_eq (v w : Vec ℝ) : (v.sub w).len = dist (planePos v) (planePos w) := by
  rw [Complex.dist_eq_re_im]
  show Real.sqrt ((v.x - w.x) * (v.x - w.x) + (v.y - w.y) * (v.y - w.y)) = _
  simp only [planePos, sq]

/-- The move of lazyslider.go:74-81 towards `p`. -/
noncomputable def towards (p c : ℂ) (R : ℝ) : ℂ :=
  if R < dist p c then c + (((dist p c - R) / dist p c : ℝ) : ℂ) * (p - c) else c

theorem towards_move {p c : ℂ} {R : ℝ} (hR : 0 ≤ R) :
    dist c (towards p c R) = max 0 (dist p c - R) ∧ dist c (towards p c R) + dist (towards p c R) p = dist c p ∧
    dist (towards p c R) p ≤ R := by
  unfold towards
  split
  · rename_i h
    have h0 : 0 < dist p c := lt_of_le_of_lt hR h
    have e1 : dist c (c + (((dist p c - R) / dist p c : ℝ) : ℂ) * (p - c)) = dist p c - R := by
      rw [dist_comm, dist_eq_norm, add_sub_cancel_left, norm_mul, ← dist_eq_norm, Complex.norm_real, Real.norm_eq_abs,
        abs_of_nonneg (div_nonneg (by linarith) h0.le), div_mul_cancel₀ _ h0.ne']
    have e2 : dist (c + (((dist p c - R) / dist p c : ℝ) : ℂ) * (p - c)) p = R := by
      have : c + (((dist p c - R) / dist p c : ℝ) : ℂ) * (p - c) - p = ((-(R / dist p c) : ℝ) : ℂ) * (p - c) := by
        have hz : ((dist p c : ℝ) : ℂ) ≠ 0 := by exact_mod_cast h0.ne'
        push_cast
        field_simp
        ring
      rw [dist_eq_norm, this, norm_mul, ← dist_eq_norm, Complex.norm_real, Real.norm_eq_abs, abs_neg,
        abs_of_nonneg (div_nonneg hR h0.le), div_mul_cancel₀ _ h0.ne']
    rw [e1, e2, max_eq_right (by linarith), dist_comm c p]
    exact ⟨rfl, by ring, le_rfl⟩
  · rename_i h
    push Not at h
    rw [dist_self, max_eq_left (by linarith), dist_comm c p]
    exact ⟨rfl, by ring, h⟩

theorem towards_nearest {p c : ℂ} {R : ℝ} (hR : 0 ≤ R) : Nearest p R c (towards p c R) := by
  obtain ⟨h1, -, h3⟩ := towards_move (p := p) (c := c) hR
  refine ⟨h3, fun q hq => ?_⟩
  rw [h1]
  refine max_le dist_nonneg ?_
  have := dist_triangle p q c
  rw [dist_comm p q, dist_comm q c] at this
  linarith

/-- The point that is nearest is unique. -/
theorem nearest_unique {p c c' : ℂ} {R : ℝ} (hR : 0 ≤ R) (h : Nearest p R c c') : c' = towards p c R := by
  obtain ⟨h1, h2, h3⟩ := towards_move (p := p) (c := c) hR
  have hle := h.least _ h3
  have hge := (towards_nearest (p := p) (c := c) hR).least _ h.inside
  have hd : dist c c' = max 0 (dist p c - R) := by rw [← h1]; exact le_antisymm hle hge
  unfold towards at *
  split
  · rename_i hlt
    have h0 : 0 < dist p c := lt_of_le_of_lt hR hlt
    rw [max_eq_right (by linarith)] at hd
    have hin := h.inside
    have hs : dist c c' + dist c' p = dist c p := by
      have := dist_triangle c c' p
      rw [dist_comm c p] at *
      refine le_antisymm ?_ this
      linarith
    have hb : Wbtw ℝ c c' p := dist_add_dist_eq_iff.mp hs
    obtain ⟨r, ⟨hr0, hr1⟩, rfl⟩ := hb
    rw [AffineMap.lineMap_apply] at hd ⊢
    simp only [vsub_eq_sub, vadd_eq_add] at hd ⊢
    have : r * dist p c = dist p c - R := by
      rw [← hd, dist_comm c, dist_eq_norm (_ + c), add_sub_cancel_right, norm_smul, Real.norm_eq_abs, abs_of_nonneg hr0, dist_eq_norm]
    have hr : r = (dist p c - R) / dist p c := by field_simp; exact this
    rw [← hr, Complex.real_smul]
    ring
  · rename_i hlt
    push Not at hlt
    rw [max_eq_left (by linarith)] at hd
    exact (dist_eq_zero.mp hd).symm

/-- One iteration of the loop: the cursor moves towards the ball. -/
theorem step_eq {o : Obj ℝ ℝ} {mods : Modifier} {radius : ℝ} (hr : 0 < radius) {point : TickPoint ℝ} {last : Bool}
    {st st' : LazyState ℝ} (h : lazyStep o mods (lit 50 /. radius) point last st = .ok st') :
    ∃ v, o.getStackedPositionAtMod (if last then o.base.endTime else point.time) mods = .ok v ∧
      (let target := if last then (if dist (planePos st.endPosition) (planePos st.cursor) < dist (planePos v) (planePos st.cursor) then
          planePos st.endPosition else planePos v) else planePos v
       let R := if !last && point.isReverse then radius else 1.8 * radius
       planePos st'.cursor = towards target (planePos st.cursor) R ∧
       st'.travelDistance = st.travelDistance + 50 / radius * dist (planePos st.cursor) (towards target (planePos st.cursor) R)) ∧
      st'.endPosition = if last then st'.cursor else st.endPosition := by
  unfold lazyStep at h
  have hpos : ∃ v, o.getStackedPositionAtMod (if last then o.base.endTime else point.time) mods = .ok v := by
    cases last
    · simp only [Bool.false_eq_true, if_false] at h ⊢
      cases hv : o.getStackedPositionAtMod point.time mods with
      | error e => rw [hv] at h; cases h
      | ok v => exact ⟨v, rfl⟩
    · simp only [if_true] at h ⊢
      cases hv : o.getStackedPositionAtMod o.base.endTime mods with
      | error e => rw [hv] at h; cases h
      | ok v => exact ⟨v, rfl⟩
  obtain ⟨v, hv⟩ := hpos
  refine ⟨v, hv, ?_⟩
  have key : ∀ (m : Vec ℝ) (target : ℂ), planePos m = target - planePos st.cursor → ∀ (R req : ℝ), R = req * radius / 50 → 0 < req →
      ∀ s : LazyState ℝ, s = (if (lit 50 /. radius *. up m.len : ℝ) >. req then
          { st with
            cursor := st.cursor.add (m.scl (down ((lit 50 /. radius *. up m.len -. req) /. (lit 50 /. radius *. up m.len))))
            travelDistance := st.travelDistance +. down ((lit 50 /. radius *. up m.len : ℝ) *.
              ((lit 50 /. radius *. up m.len -. req) /. (lit 50 /. radius *. up m.len))) }
        else st) →
      planePos s.cursor = towards target (planePos st.cursor) R ∧
      s.travelDistance = st.travelDistance + 50 / radius * dist (planePos st.cursor) (towards target (planePos st.cursor) R) ∧
      s.endPosition = st.endPosition := by
    intro m target hm R req hR hreq s hs
    have hR0 : 0 < R := by rw [hR]; positivity
    have hl : m.len = dist target (planePos st.cursor) := by
      rw [dist_eq_norm, ← hm, Complex.norm_eq_sqrt_sq_add_sq]
      show Real.sqrt (m.x * m.x + m.y * m.y) = _
      simp only [planePos, sq]
    have hL : (lit 50 /. radius *. up m.len : ℝ) = 50 / radius * dist target (planePos st.cursor) := by
      show ((50 : ℚ) : ℝ) / radius * m.len = _
      rw [hl]; norm_num
    rw [hL] at hs
    have hcond : (req < 50 / radius * dist target (planePos st.cursor)) ↔ R < dist target (planePos st.cursor) := by
      rw [hR, div_lt_iff₀ (by norm_num), mul_comm (50 / radius), mul_div_assoc', lt_div_iff₀ hr, mul_comm req, mul_comm radius]
    obtain ⟨m1, -, -⟩ := towards_move (p := target) (c := planePos st.cursor) hR0.le
    rw [m1]
    by_cases hc : R < dist target (planePos st.cursor)
    · rw [if_pos ((RealArith.lt _ _).mpr (hcond.mpr hc))] at hs
      subst hs
      have hd : 0 < dist target (planePos st.cursor) := hR0.trans hc
      have hratio : (50 / radius * dist target (planePos st.cursor) - req) / (50 / radius * dist target (planePos st.cursor)) =
          (dist target (planePos st.cursor) - R) / dist target (planePos st.cursor) := by
        rw [hR]; field_simp
      refine ⟨?_, ?_, rfl⟩
      · unfold towards
        rw [if_pos hc, ← hm, ← hratio]
        apply Complex.ext
        · simp only [planePos, Complex.add_re, Complex.re_ofReal_mul]
          show _ + _ * _ = _
          rw [mul_comm]; rfl
        · simp only [planePos, Complex.add_im, Complex.im_ofReal_mul]
          show _ + _ * _ = _
          rw [mul_comm]; rfl
      · rw [max_eq_right (by linarith)]
        show st.travelDistance + (50 / radius * dist target (planePos st.cursor)) *
          ((50 / radius * dist target (planePos st.cursor) - req) / (50 / radius * dist target (planePos st.cursor))) = _
        rw [hratio]
        field_simp
    · rw [if_neg (fun e => hc (hcond.mp ((RealArith.lt _ _).mp e)))] at hs
      subst hs
      refine ⟨by unfold towards; rw [if_neg hc], ?_, rfl⟩
      push Not at hc
      rw [max_eq_left (by linarith)]
      ring
  have hsub : ∀ w : Vec ℝ, planePos (w.sub st.cursor) = planePos w - planePos st.cursor := fun w => rfl
  have e90 : (1.8 * radius : ℝ) = (lit 90 : ℝ) * radius / 50 := by
    show _ = ((90 : ℚ) : ℝ) * radius / 50
    norm_num; ring
  have e50 : radius = (lit 50 : ℝ) * radius / 50 := by
    show _ = ((50 : ℚ) : ℝ) * radius / 50
    norm_num
  have p90 : (0 : ℝ) < lit 90 := by show (0 : ℝ) < ((90 : ℚ) : ℝ); norm_num
  have p50 : (0 : ℝ) < lit 50 := by show (0 : ℝ) < ((50 : ℚ) : ℝ); norm_num
  cases last
  · simp only [Bool.false_eq_true, if_false] at hv
    simp only [Bool.false_eq_true, if_false, hv, Bool.not_false, Bool.true_and] at h ⊢
    have h' := Except.ok.inj h
    by_cases hrev : point.isReverse = true
    · rw [if_pos hrev] at h' ⊢
      obtain ⟨k1, k2, k3⟩ := key (v.sub st.cursor) _ (hsub v) radius (lit 50) e50 p50 _ h'.symm
      exact ⟨⟨k1, k2⟩, k3⟩
    · rw [if_neg hrev] at h' ⊢
      obtain ⟨k1, k2, k3⟩ := key (v.sub st.cursor) _ (hsub v) _ (lit 90) e90 p90 _ h'.symm
      exact ⟨⟨k1, k2⟩, k3⟩
  · simp only [if_true] at hv
    simp only [if_true, hv, Bool.not_true, Bool.false_and, Bool.false_eq_true, if_false] at h ⊢
    have h' := Except.ok.inj h
    rw [len_eq, len_eq] at h'
    by_cases hlt : dist (planePos st.endPosition) (planePos st.cursor) < dist (planePos v) (planePos st.cursor)
    · rw [if_pos hlt]
      rw [if_pos ((RealArith.lt _ _).mpr hlt)] at h'
      obtain ⟨k1, k2, k3⟩ := key (st.endPosition.sub st.cursor) _ (hsub _) _ (lit 90) e90 p90 _ rfl
      subst h'
      exact ⟨⟨k1, k2⟩, rfl⟩
    · rw [if_neg hlt]
      rw [if_neg (fun e => hlt ((RealArith.lt _ _).mp e))] at h'
      obtain ⟨k1, k2, k3⟩ := key (v.sub st.cursor) _ (hsub _) _ (lit 90) e90 p90 _ rfl
      subst h'
      exact ⟨⟨k1, k2⟩, rfl⟩

end GosuPP.LazyCursor
