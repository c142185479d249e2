import Verif.Lemmas.Anchors
import Verif.Props.Paths

/-!
# C72: the control points that a slider path goes through

`processType` gives the lines of the path before it is trimmed to the desired length.
-/

namespace GosuPP
open Go MultiCurve

/-! ## Bezier sliders are made of parts (any arithmetic) -/

/-- The control points of a Bezier slider can always be cut at the red points. -/
theorem C72_parts_exist {S : Type} [GoFloat S] {points : List (Vec S)} (h : points ≠ []) :
    ∃ ws, points = ws.flatten ∧ Spec.RedParts 0 ws := by
  obtain ⟨w, ws, h1, h2, -⟩ := redParts_exists points.length 0 points (le_refl _) (List.length_pos_iff.mpr h)
  exact ⟨w :: ws, h1, h2⟩

/-- The path of a Bezier slider is made of one curve after the other, one for each part between red points, with only
the control points of that part. -/
theorem C72_parts {S D : Type} [GoFloat S] [GoFloat D] [GoConv S D] [GoLibm D] {fuel : Nat} {ws : List (List (Vec S))}
    {lines : List (Linear S)} (h : Spec.RedParts 0 ws) (hl : processType (D := D) fuel ['B'] ws.flatten = .ok lines) :
    ∃ ps, List.Forall₂ Spec.PartLines ws ps ∧ lines = ps.flatten := by
  have hl : processBezier fuel ws.flatten = .ok lines := hl
  rw [processBezier_parts h] at hl
  obtain ⟨ps, h1, h2⟩ := bind_ok hl
  cases h2
  refine ⟨ps, ?_, rfl⟩
  clear hl h
  rename_i hl
  clear hl
  induction ws generalizing ps with
  | nil => cases h1; exact .nil
  | cons w ws ih =>
    rw [List.mapM_cons] at h1
    obtain ⟨x, h2, h1⟩ := bind_ok h1
    obtain ⟨xs, h3, h1⟩ := bind_ok h1
    cases h1
    exact .cons (partPiece_lines h2) (ih xs h3)

/-- In IEEE arithmetic: `A B | B C D` is the line from A to B and the curve of B, C and D. -/
example : Spec.RedParts (S := F32) 0 [[⟨lit 0, lit 0⟩, ⟨lit 10, lit 0⟩],
    [⟨lit 10, lit 0⟩, ⟨lit 10, lit 10⟩, ⟨lit 20, lit 10⟩]] := by
  refine .cons (w := [⟨lit 0, lit 0⟩]) (by simp) ?_ (by decide +kernel) (.last (by simp) ?_)
  · intro i p q _ hp hq
    rcases i with _ | i
    · cases hp; cases hq; decide +kernel
    · simp at hq
  · intro i p q hi hp hq
    rcases i with _ | _ | i
    · omega
    · simp at hq
    · simp at hq

/-- Its lines are the straight line followed by the lines of the slider of the last three points. -/
example : (match @processType F32 F64 _ _ _ Sample.libm 100 ['B'] [⟨lit 0, lit 0⟩, ⟨lit 10, lit 0⟩, ⟨lit 10, lit 0⟩,
      ⟨lit 10, lit 10⟩, ⟨lit 20, lit 10⟩],
    @processType F32 F64 _ _ _ Sample.libm 100 ['B'] [⟨lit 10, lit 0⟩, ⟨lit 10, lit 10⟩, ⟨lit 20, lit 10⟩] with
    | .ok ls, .ok ls' => decide (ls = ⟨⟨lit 0, lit 0⟩, ⟨lit 10, lit 0⟩⟩ :: ls' ∧ 2 ≤ ls'.length)
    | _, _ => false) = true := by decide +kernel

/-! ## Which path a type gives (any arithmetic) -/

/-- A "perfect" slider with more than three control points is a Bezier slider. -/
theorem C72_perfect_many {S D : Type} [GoFloat S] [GoFloat D] [GoConv S D] [GoLibm D] {fuel : Nat}
    {points : List (Vec S)} (h : 3 < points.length) (len : D) :
    MultiCurve.newT fuel ['P'] points len = MultiCurve.newT fuel ['B'] points len := by
  have : processType (D := D) fuel ['P'] points = processType (D := D) fuel ['B'] points := by
    show processPerfect (D := D) fuel points = processBezier fuel points
    unfold processPerfect
    rw [if_pos h]
  unfold MultiCurve.newT
  rw [this]

example : 3 < ([⟨lit 0, lit 0⟩, ⟨lit 10, lit 0⟩, ⟨lit 10, lit 10⟩, ⟨lit 20, lit 10⟩] : List (Vec F32)).length := by decide

/-- One with fewer than three, or three in a straight line, is a linear slider. -/
theorem C72_perfect_few {S D : Type} [GoFloat S] [GoFloat D] [GoConv S D] [GoLibm D] {fuel : Nat}
    {points : List (Vec S)} (h : points.length < 3 ∨ ∃ a b c, points = [a, b, c] ∧ Vec.isStraightLine (D := D) a b c = true)
    (len : D) : MultiCurve.newT fuel ['P'] points len = MultiCurve.newT fuel ['L'] points len := by
  have : processType (D := D) fuel ['P'] points = processType (D := D) fuel ['L'] points := by
    show processPerfect (D := D) fuel points = .ok (processLinear points)
    unfold processPerfect
    rcases h with h | ⟨a, b, c, rfl, h⟩
    · rw [if_neg (by omega)]
      rcases points with _ | ⟨a, _ | ⟨b, _ | ⟨c, t⟩⟩⟩
      · rfl
      · rfl
      · rfl
      · simp only [List.length_cons] at h
        omega
    · rw [if_neg (by simp)]
      simp only
      rw [if_pos h]
  unfold MultiCurve.newT
  rw [this]

example : Vec.isStraightLine (S := F32) (D := F64) ⟨lit 0, lit 0⟩ ⟨lit 10, lit 10⟩ ⟨lit 30, lit 30⟩ = true := by decide +kernel

/-- A slider of an unknown type has no path: it stays at its first point. -/
theorem C72_unknown {S D : Type} [GoFloat S] [GoFloat D] [GoConv S D] [GoLibm D] {fuel : Nat} {typ : Str} {a : Vec S}
    {l : List (Vec S)} (h : typ ∉ [['P'], ['L'], ['B'], ['C']]) (len : D) :
    ∃ mc, MultiCurve.newT fuel typ (a :: l) len = .ok mc ∧ mc.lines = [] ∧ mc.length = lit 0 ∧
      ∀ t, mc.pointAt (D := D) t = .ok a := by
  simp only [List.mem_cons, List.not_mem_nil, or_false, not_or] at h
  have hp : processType (D := D) fuel typ (a :: l) = .ok [] := by
    unfold processType
    rw [if_neg h.1, if_neg h.2.1, if_neg h.2.2.1, if_neg h.2.2.2]
  have hi : index (a :: l) 0 = .ok a := rfl
  refine ⟨⟨mkSections (D := D) [], [], lit 0, a⟩, ?_, rfl, rfl, fun t => rfl⟩
  unfold MultiCurve.newT
  simp only [hp, ok_bind, hi]
  have hn : ∀ c : Bool, ((if c = true then (trimRev ([] : List (Linear S)).reverse
      (up (totalLength (D := D) ([] : List (Linear S))) -. len)).reverse else ([] : List (Linear S)))) = [] := by
    intro c; cases c <;> rfl
  rw [hn]
  rfl

example : (['X'] : Str) ∉ [['P'], ['L'], ['B'], ['C']] ∧ ([] : Str) ∉ [['P'], ['L'], ['B'], ['C']] := by decide

/-! ## The points on the path (exact arithmetic) -/

/-- A linear slider goes straight from one control point to the next. -/
theorem C72_linear {fuel : Nat} {a : Vec ℝ} {l : List (Vec ℝ)} {lines : List (Linear ℝ)}
    (h : processType (D := ℝ) fuel ['L'] (a :: l) = .ok lines) : Spec.Visits a lines (Spec.hops a l) := by
  have h : (Except.ok (processLinear (a :: l)) : Result _) = .ok lines := h
  cases h
  exact processLinear_visits a l

/-- A Catmull slider goes through all its control points, in order. -/
theorem C72_catmull {fuel : Nat} {a : Vec ℝ} {l : List (Vec ℝ)} {lines : List (Linear ℝ)}
    (h : processType (D := ℝ) fuel ['C'] (a :: l) = .ok lines) :
    ∃ ds : List ℝ, ds.length = l.length ∧ Spec.Visits a lines (ds.zip l) := by
  have h : (Except.ok (processCatmull (a :: l)) : Result _) = .ok lines := h
  cases h
  exact processCatmullLoop_visits a a l

/-- A Bezier slider goes through its red points, in order, and ends at the last control point. -/
theorem C72_bezier {fuel : Nat} {ws : List (List (Vec ℝ))} {a : Vec ℝ} {lines : List (Linear ℝ)} (h : Spec.RedParts 0 ws)
    (ha : ws.flatten.head? = some a) (hl : processType (D := ℝ) fuel ['B'] ws.flatten = .ok lines) :
    ∃ ds : List ℝ, ds.length = ws.length ∧ Spec.Visits a lines (ds.zip (ws.filterMap List.getLast?)) := by
  have hl : processBezier fuel ws.flatten = .ok lines := hl
  rw [processBezier_parts h] at hl
  obtain ⟨ps, h1, h2⟩ := bind_ok hl
  cases h2
  exact parts_visits h ha h1

/-- What this means for `PointAt`: after the way to one of these points (as a fraction of the length, and if the path
is not trimmed before) the position is that point. The ways add up to the length of the untrimmed path. -/
theorem C72_position {fuel : Nat} {typ : Str} {a : Vec ℝ} {l : List (Vec ℝ)} {D : ℝ} {mc : MultiCurve ℝ}
    {lines : List (Linear ℝ)} {vs : List (ℝ × Vec ℝ)} (h : MultiCurve.newT fuel typ (a :: l) D = .ok mc)
    (hl : processType (D := ℝ) fuel typ (a :: l) = .ok lines) (hv : Spec.Visits a lines vs) (hpos : 0 < mc.length) :
    Spec.pathLength lines = (vs.map Prod.fst).sum ∧
    ∀ i d q, vs[i]? = some (d, q) → ((vs.take (i + 1)).map Prod.fst).sum ≤ D - 0.0001 →
      mc.pointAt (D := ℝ) (((vs.take (i + 1)).map Prod.fst).sum / mc.length) = .ok q := by
  refine ⟨visits_length hv, ?_⟩
  intro i d q hi hw
  have hL : 0 < Spec.pathLength lines := by
    rcases lt_or_eq_of_le (pathLength_nonneg lines) with h0 | h0
    · exact h0
    · rw [C33_zero h hl h0.symm] at hpos
      exact absurd hpos (_root_.lt_irrefl _)
  have hD : 0.0001 < D := by
    by_contra hD
    rw [(C33_empty h hl hL (not_lt.mp hD)).2] at hpos
    exact absurd hpos (_root_.lt_irrefl _)
  obtain ⟨h1, h2⟩ := walk_visits (processType_leads hl).1 hv hi
  set w := ((vs.take (i + 1)).map Prod.fst).sum with hwdef
  have hw0 : 0 ≤ w := by
    have : ∀ (vs : List (ℝ × Vec ℝ)) (a : Vec ℝ) (ls : List (Linear ℝ)), Spec.Visits a ls vs → ∀ n, 0 ≤ ((vs.take n).map Prod.fst).sum := by
      intro vs
      induction vs with
      | nil => intro a ls _ n; simp
      | cons v vs ih =>
        intro a ls hv n
        obtain ⟨part, rest, -, h2, -, h4⟩ := hv
        cases n with
        | zero => simp
        | succ n =>
          rw [List.take_succ_cons, List.map_cons, List.sum_cons, ← h2]
          have := ih _ _ h4 n
          linarith [pathLength_nonneg part]
    exact this vs a lines hv (i + 1)
  have hwl : w ≤ mc.length := by
    by_cases hext : D ≤ Spec.pathLength lines + 0.0001 ∨ ∀ l, lines.getLast? = some l → l.p1 ≠ l.p2
    · rw [(C33_length h hl hL hD hext).1]
      linarith
    · push Not at hext
      obtain ⟨h3, x, h4, h5⟩ := hext
      rw [(C33_not_extended h hl h3 h4 h5).2]
      exact h1
  have hm := (newT_measuredR h).1
  rw [totalLength_real] at hm
  rw [C64_position h hpos, ← hm, max_eq_right (div_nonneg hw0 hpos.le),
    min_eq_right ((div_le_one hpos).mpr hwl), div_mul_cancel₀ _ hpos.ne', C33_same h hl hD h1 hw, h2]

/-- A linear slider with a corner, trimmed to 15: after 10 it is at the corner. -/
example (fuel : Nat) : ∃ mc, MultiCurve.newT (S := ℝ) (D := ℝ) fuel ['L'] [⟨0, 0⟩, ⟨6, 8⟩, ⟨6, 18⟩] (15 : ℝ) = .ok mc ∧
    mc.length = 15 ∧ mc.pointAt (D := ℝ) (10 / 15) = .ok ⟨6, 8⟩ := by
  have n1 : (Vec.eq (⟨0, 0⟩ : Vec ℝ) ⟨6, 8⟩) ≠ true := by
    rw [Ne, vec_eq_real]
    intro h
    have := congrArg Vec.x h
    norm_num at this
  have n2 : (Vec.eq (⟨6, 8⟩ : Vec ℝ) ⟨6, 18⟩) ≠ true := by
    rw [Ne, vec_eq_real]
    intro h
    have := congrArg Vec.y h
    norm_num at this
  have hl : processType (S := ℝ) (D := ℝ) fuel ['L'] [⟨0, 0⟩, ⟨6, 8⟩, ⟨6, 18⟩] =
      .ok [⟨⟨0, 0⟩, ⟨6, 8⟩⟩, ⟨⟨6, 8⟩, ⟨6, 18⟩⟩] := by
    show (Except.ok (processLinear _) : Result _) = _
    rw [processLinear, if_neg n1, processLinear, if_neg n2]
    rfl
  have l1 : Spec.len ⟨⟨0, 0⟩, ⟨6, 8⟩⟩ = 10 := by
    unfold Spec.len
    rw [show ((6 : ℝ) - 0) ^ 2 + (8 - 0) ^ 2 = 10 ^ 2 by norm_num, Real.sqrt_sq (by norm_num)]
  have l2 : Spec.len ⟨⟨6, 8⟩, ⟨6, 18⟩⟩ = 10 := by
    unfold Spec.len
    rw [show ((6 : ℝ) - 6) ^ 2 + (18 - 8) ^ 2 = 10 ^ 2 by norm_num, Real.sqrt_sq (by norm_num)]
  have hmc : ∃ mc, MultiCurve.newT (S := ℝ) (D := ℝ) fuel ['L'] [⟨0, 0⟩, ⟨6, 8⟩, ⟨6, 18⟩] (15 : ℝ) = .ok mc := by
    unfold MultiCurve.newT
    rw [hl]
    exact ⟨_, rfl⟩
  obtain ⟨mc, hmc⟩ := hmc
  have hL : Spec.pathLength [⟨⟨0, 0⟩, ⟨6, 8⟩⟩, ⟨⟨6, 8⟩, ⟨6, 18⟩⟩] = 20 := by
    rw [pathLength_cons, pathLength_cons, pathLength_nil, l1, l2]
    norm_num
  have h15 : mc.length = 15 :=
    (C33_length hmc hl (by rw [hL]; norm_num) (by norm_num) (.inl (by rw [hL]; norm_num))).1
  refine ⟨mc, hmc, h15, ?_⟩
  have := (C72_position hmc hl (C72_linear hl) (by rw [h15]; norm_num)).2 0 10 ⟨6, 8⟩
    (by unfold Spec.hops; rw [l1]; rfl)
    (by unfold Spec.hops; rw [l1]; norm_num)
  rw [h15] at this
  unfold Spec.hops at this
  rw [l1] at this
  norm_num at this ⊢
  exact this

end GosuPP
