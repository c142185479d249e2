import Verif.Lemmas.ArcReal
import Verif.Props.Sample

/-!
# Properties of slider paths in exact arithmetic

`processType` gives the lines of the path before it is trimmed to the desired length.
-/

namespace GosuPP
open Go MultiCurve

/-! ## C33 -/

/-- Trimming or extending gives the path exactly the desired length; extending needs a last line that
has a direction. -/
theorem C33_length {fuel : Nat} {typ : Str} {points : List (Vec ℝ)} {D : ℝ} {mc : MultiCurve ℝ} {lines : List (Linear ℝ)}
    (h : MultiCurve.newT fuel typ points D = .ok mc) (hl : processType (D := ℝ) fuel typ points = .ok lines)
    (hL : 0 < Spec.pathLength lines) (hD : 0.0001 < D)
    (hlast : D ≤ Spec.pathLength lines + 0.0001 ∨ ∀ l, lines.getLast? = some l → l.p1 ≠ l.p2) :
    mc.length = D ∧ Spec.pathLength mc.lines = D := by
  have hm := (newT_measuredR h).1
  rw [totalLength_real] at hm
  rw [hm, and_self]
  obtain ⟨lines', h1, h2⟩ := newT_lines h
  rw [hl] at h1
  cases h1
  rw [h2, if_pos hL, pathLength_reverse]
  rcases trimRev_cases lines.reverse (Spec.pathLength lines - D) with
    ⟨gone, l, rest, h3, h4, h5, h6, -⟩ | ⟨-, h3⟩ | ⟨h3, l, rest, h4, h5, -⟩
  · rw [h4, pathLength_cons, len_cut (by linarith) h5]
    have := pathLength_reverse lines
    rw [h3, pathLength_append, pathLength_cons] at this
    linarith
  · exfalso
    rcases h3 with h3 | h3
    · rw [List.reverse_eq_nil_iff] at h3
      rw [h3, pathLength_nil] at hL
      exact absurd hL (_root_.lt_irrefl _)
    · rw [pathLength_reverse] at h3
      linarith
  · exfalso
    rcases hlast with hlast | hlast
    · linarith
    · refine hlast l ?_ h5
      rw [← List.head?_reverse, h4]
      rfl

/-- Up to the desired length (less the tolerance of the code) the path is the untrimmed path. -/
theorem C33_same {fuel : Nat} {typ : Str} {points : List (Vec ℝ)} {D : ℝ} {mc : MultiCurve ℝ} {lines : List (Linear ℝ)}
    (h : MultiCurve.newT fuel typ points D = .ok mc) (hl : processType (D := ℝ) fuel typ points = .ok lines)
    (hD : 0.0001 < D) {w : ℝ} (hw : w ≤ Spec.pathLength lines) (hwD : w ≤ D - 0.0001) (start : Vec ℝ) :
    Spec.walk start mc.lines w = Spec.walk start lines w := by
  obtain ⟨lines', h1, h2⟩ := newT_lines h
  rw [hl] at h1
  cases h1
  rw [h2]
  split
  swap
  · rfl
  rename_i hL
  rcases trimRev_cases lines.reverse (Spec.pathLength lines - D) with
    ⟨gone, l, rest, h3, h4, h5, h6, h7⟩ | ⟨-, h3⟩ | ⟨h3, l, rest, h4, h5, h6⟩
  · have hlen := pathLength_reverse lines
    rw [h3, pathLength_append, pathLength_cons] at hlen
    have e : lines = rest.reverse ++ [l] ++ gone.reverse := by
      have := congrArg List.reverse h3
      simpa using this
    have hk : w ≤ Spec.pathLength rest + Spec.len l := by
      rcases h7 with h7 | h7
      · rw [h7, pathLength_nil] at hlen
        linarith
      · linarith
    rw [h4, List.reverse_cons]
    conv_rhs => rw [e]
    rw [walk_append (a := rest.reverse ++ [l])
      (by rw [pathLength_append, pathLength_reverse, pathLength_cons, pathLength_nil]; linarith) (by simp)]
    refine walk_cut h5 (by linarith) ?_ ?_
    · rw [pathLength_reverse]; linarith
    · rw [pathLength_reverse]; exact hk
  · exfalso
    rcases h3 with h3 | h3
    · rw [List.reverse_eq_nil_iff] at h3
      rw [h3, pathLength_nil] at hL
      exact absurd hL (_root_.lt_irrefl _)
    · rw [pathLength_reverse] at h3
      linarith
  · rw [h6, List.reverse_reverse]

/-- A desired length of at most 0.0001 leaves nothing of the path. -/
theorem C33_empty {fuel : Nat} {typ : Str} {points : List (Vec ℝ)} {D : ℝ} {mc : MultiCurve ℝ} {lines : List (Linear ℝ)}
    (h : MultiCurve.newT fuel typ points D = .ok mc) (hl : processType (D := ℝ) fuel typ points = .ok lines)
    (hL : 0 < Spec.pathLength lines) (hD : D ≤ 0.0001) : mc.lines = [] ∧ mc.length = 0 := by
  have hm := (newT_measuredR h).1
  rw [totalLength_real] at hm
  obtain ⟨lines', h1, h2⟩ := newT_lines h
  rw [hl] at h1
  cases h1
  rw [if_pos hL] at h2
  suffices hnil : mc.lines = [] by
    rw [hm, hnil]
    exact ⟨rfl, rfl⟩
  rw [h2]
  rcases trimRev_cases lines.reverse (Spec.pathLength lines - D) with
    ⟨gone, l, rest, h3, h4, h5, h6, h7⟩ | ⟨h3, -⟩ | ⟨h3, -⟩
  · exfalso
    have hlen := pathLength_reverse lines
    rw [h3, pathLength_append, pathLength_cons] at hlen
    have := pathLength_nonneg rest
    linarith
  · rw [h3]; rfl
  · exfalso; linarith

/-- A path without length keeps length 0. -/
theorem C33_zero {fuel : Nat} {typ : Str} {points : List (Vec ℝ)} {D : ℝ} {mc : MultiCurve ℝ} {lines : List (Linear ℝ)}
    (h : MultiCurve.newT fuel typ points D = .ok mc) (hl : processType (D := ℝ) fuel typ points = .ok lines)
    (hL : Spec.pathLength lines = 0) : mc.length = 0 := by
  have hm := (newT_measuredR h).1
  rw [totalLength_real] at hm
  obtain ⟨lines', h1, h2⟩ := newT_lines h
  rw [hl] at h1
  cases h1
  rw [if_neg (by rw [hL]; exact _root_.lt_irrefl _)] at h2
  rw [hm, h2, hL]

/-- A path whose last line has no length is not extended, so it is shorter than desired. -/
theorem C33_not_extended {fuel : Nat} {typ : Str} {points : List (Vec ℝ)} {D : ℝ} {mc : MultiCurve ℝ}
    {lines : List (Linear ℝ)} (h : MultiCurve.newT fuel typ points D = .ok mc)
    (hl : processType (D := ℝ) fuel typ points = .ok lines) (hD : Spec.pathLength lines + 0.0001 < D) {l : Linear ℝ}
    (hlast : lines.getLast? = some l) (hne : l.p1 = l.p2) : mc.lines = lines ∧ mc.length = Spec.pathLength lines := by
  have hm := (newT_measuredR h).1
  rw [totalLength_real] at hm
  obtain ⟨lines', h1, h2⟩ := newT_lines h
  rw [hl] at h1
  cases h1
  suffices hs : mc.lines = lines by rw [hm, hs]; exact ⟨rfl, rfl⟩
  rw [h2]
  split
  swap
  · rfl
  rw [← List.head?_reverse] at hlast
  cases hr : lines.reverse with
  | nil => rw [hr] at hlast; cases hlast
  | cons x xs =>
    rw [hr] at hlast
    cases hlast
    rw [trimRev_real]
    simp only
    rw [if_pos (by linarith [len_nonneg l]), if_pos hne, ← hr, List.reverse_reverse]

/-- A straight slider, 10 long: trimmed to 6, extended to 25. -/
noncomputable def Sample.straight : List (Vec ℝ) := [⟨0, 0⟩, ⟨6, 8⟩]

theorem Sample.straight_lines (fuel : Nat) :
    processType (D := ℝ) fuel ['L'] Sample.straight = .ok [⟨⟨0, 0⟩, ⟨6, 8⟩⟩] := by
  unfold processType Sample.straight
  simp only [List.cons.injEq, Char.reduceEq, and_true, if_false, if_true]
  unfold processLinear
  rw [if_neg]
  · rfl
  · rw [vec_eq_real]
    intro h
    have := congrArg Vec.x h
    norm_num at this

theorem Sample.straight_length : Spec.pathLength [⟨⟨0, 0⟩, ⟨6, 8⟩⟩] = 10 := by
  rw [pathLength_cons, pathLength_nil]
  unfold Spec.len
  rw [show ((6 : ℝ) - 0) ^ 2 + (8 - 0) ^ 2 = 10 ^ 2 by norm_num, Real.sqrt_sq (by norm_num)]
  norm_num

/-- The hypotheses of `C33_length` hold for it. -/
example (fuel : Nat) (D : ℝ) (hD : 0.0001 < D) : ∃ mc, MultiCurve.newT fuel ['L'] Sample.straight D = .ok mc ∧ mc.length = D := by
  have h1 : ∃ mc, MultiCurve.newT fuel ['L'] Sample.straight D = .ok mc := by
    unfold MultiCurve.newT
    rw [Sample.straight_lines]
    exact ⟨_, rfl⟩
  obtain ⟨mc, h1⟩ := h1
  refine ⟨mc, h1, (C33_length h1 (Sample.straight_lines fuel) ?_ hD (.inr ?_)).1⟩
  · rw [Sample.straight_length]; norm_num
  · intro l hl
    cases hl
    intro h
    have := congrArg Vec.x h
    norm_num at this

/-- In IEEE arithmetic: a Bezier slider that ends with a doubled point, so that its last line has no
length, is 10 long although 20 is desired; without the doubled point it is 20 long. -/
example : (match @MultiCurve.newT F32 F64 _ _ _ Sample.libm 100 ['B']
      [⟨lit 0, lit 0⟩, ⟨lit 10, lit 0⟩, ⟨lit 10, lit 0⟩, ⟨lit 10, lit 0⟩] (lit 20),
    @MultiCurve.newT F32 F64 _ _ _ Sample.libm 100 ['B'] [⟨lit 0, lit 0⟩, ⟨lit 10, lit 0⟩] (lit 20) with
    | .ok mc, .ok mc' => decide (mc.length = lit 10 ∧ mc.lines.length = 2 ∧ mc'.length = lit 20)
    | _, _ => false) = true := by decide +kernel

/-! ## C64 -/

/-- The lines of a path are joined without gaps and start at the first control point. -/
theorem C64_connected {fuel : Nat} {typ : Str} {a : Vec ℝ} {l : List (Vec ℝ)} {D : ℝ} {mc : MultiCurve ℝ}
    (h : MultiCurve.newT fuel typ (a :: l) D = .ok mc) : Spec.Connected a mc.lines := newT_connected h

/-- Before trimming, linear, Bezier and Catmull paths end at the last control point. -/
theorem C64_last {fuel : Nat} {typ : Str} {a : Vec ℝ} {l : List (Vec ℝ)} {lines : List (Linear ℝ)}
    (h : processType (D := ℝ) fuel typ (a :: l) = .ok lines) (ht : typ = ['L'] ∨ typ = ['B'] ∨ typ = ['C']) :
    Spec.Connected a lines ∧ Spec.pathEnd a lines = (a :: l).getLast (by simp) :=
  ⟨(processType_leads h).1, (processType_leads h).2 ht⟩

/-- The position at `t` is reached by walking the fraction `t` of the length (held between 0 and 1)
along the lines, from the first control point. -/
theorem C64_position {fuel : Nat} {typ : Str} {a : Vec ℝ} {l : List (Vec ℝ)} {D : ℝ} {mc : MultiCurve ℝ}
    (h : MultiCurve.newT fuel typ (a :: l) D = .ok mc) (hpos : 0 < mc.length) (t : ℝ) :
    mc.pointAt (D := ℝ) t = .ok (Spec.walk a mc.lines (min 1 (max 0 t) * Spec.pathLength mc.lines)) := by
  have hm := newT_measuredR h
  have h1 := pointAt_walk hm hpos t
  have h2 := hm.1
  rw [totalLength_real] at h2
  rw [h1, newT_firstPoint h, h2]

/-- At `t ≤ 0` it is the first control point, at `t ≥ 1` the end of the lines. -/
theorem C64_ends {fuel : Nat} {typ : Str} {a : Vec ℝ} {l : List (Vec ℝ)} {D : ℝ} {mc : MultiCurve ℝ}
    (h : MultiCurve.newT fuel typ (a :: l) D = .ok mc) (hpos : 0 < mc.length) :
    (∀ t ≤ 0, mc.pointAt (D := ℝ) t = .ok a) ∧
    ∀ t, 1 ≤ t → mc.pointAt (D := ℝ) t = .ok (Spec.pathEnd a mc.lines) := by
  have hc := newT_connected h
  constructor
  · intro t ht
    rw [C64_position h hpos, max_eq_left ht, min_eq_right (by norm_num), zero_mul]
    congr 1
    cases hl : mc.lines with
    | nil => rfl
    | cons x xs =>
      rw [hl] at hc
      unfold Spec.walk
      rw [if_pos (len_nonneg x), zero_div, along_zero]
      exact hc.1
  · intro t ht
    rw [C64_position h hpos, max_eq_right (by linarith), min_eq_left ht, one_mul, walk_end hc]

/-- A straight slider that is extended meets the hypotheses. -/
example : ∃ mc, MultiCurve.newT (S := ℝ) (D := ℝ) 9 ['L'] [⟨0, 0⟩, ⟨6, 8⟩] (25 : ℝ) = .ok mc ∧ 0 < mc.length := by
  have h1 : ∃ mc, MultiCurve.newT 9 ['L'] Sample.straight (25 : ℝ) = .ok mc := by
    unfold MultiCurve.newT
    rw [Sample.straight_lines]
    exact ⟨_, rfl⟩
  obtain ⟨mc, h1⟩ := h1
  refine ⟨mc, h1, ?_⟩
  rw [(C33_length h1 (Sample.straight_lines 9) ?_ (by norm_num) (.inr ?_)).1]
  · norm_num
  · rw [Sample.straight_length]; norm_num
  · intro l hl
    cases hl
    intro h
    have := congrArg Vec.x h
    norm_num at this

/-! ## C65 -/

/-- A three-point circular slider: for every circular arc that leads from the first over the second to
the third point (a turn `β`, to the left if positive, else to the right), the untrimmed path has one
line for every full 8 px of the length of the arc, and the ends of the lines divide the arc evenly, up
to `r * 10⁻¹⁸` because the code's π is a decimal constant. -/
theorem C65_arc {m : Vec ℝ} {r α γ β : ℝ} {a b c : Vec ℝ} (h : Spec.Arc m r α γ β a b c)
    (h1 : 1 / 10 ^ 17 ≤ |β|) (h2 : |β| ≤ 2 * Real.pi - 1 / 10 ^ 17) (hA : 0.001 ≤ |Spec.area2 a b c|)
    (hsize : r * (|β| + 1 / 10 ^ 18) ≤ 2 ^ 47) (fuel : ℕ) :
    ∃ lines : List (Linear ℝ), processType (D := ℝ) (fuel + 3) ['P'] [a, b, c] = .ok lines ∧
      8 * (lines.length : ℝ) ≤ r * (|β| + 1 / 10 ^ 18) ∧ r * (|β| - 1 / 10 ^ 18) < 8 * ((lines.length : ℝ) + 1) ∧
      ∀ i : ℕ, i < lines.length → ∃ l, lines[i]? = some l ∧
        Spec.Near (r / 10 ^ 18) l.p1 (Spec.circle m r (α + (i : ℝ) / lines.length * β)) ∧
        Spec.Near (r / 10 ^ 18) l.p2 (Spec.circle m r (α + ((i : ℝ) + 1) / lines.length * β)) :=
  arc_lines h h1 h2 hA hsize fuel

/-- A quarter circle of radius 100, from the right to the top. -/
theorem Sample.quarter : Spec.Arc ⟨0, 0⟩ 100 0 (Real.pi / 4) (Real.pi / 2) (Spec.circle ⟨0, 0⟩ 100 0)
    (Spec.circle ⟨0, 0⟩ 100 (0 + Real.pi / 4)) (Spec.circle ⟨0, 0⟩ 100 (0 + Real.pi / 2)) := by
  have := Real.pi_pos
  exact ⟨by norm_num, rfl, rfl, rfl, .inl ⟨by linarith, by linarith, by linarith⟩⟩

/-- It gets 19 lines. -/
example (fuel : Nat) : ∃ lines : List (Linear ℝ), processType (D := ℝ) (fuel + 3) ['P']
    [Spec.circle ⟨0, 0⟩ 100 0, Spec.circle ⟨0, 0⟩ 100 (0 + Real.pi / 4), Spec.circle ⟨0, 0⟩ 100 (0 + Real.pi / 2)] = .ok lines ∧
      lines.length = 19 := by
  have hp1 := Real.pi_gt_d2
  have hp2 := Real.pi_lt_d2
  have hb : |Real.pi / 2| = Real.pi / 2 := abs_of_pos (by linarith)
  have hA : 0.001 ≤ |Spec.area2 (Spec.circle ⟨0, 0⟩ 100 0) (Spec.circle ⟨0, 0⟩ 100 (0 + Real.pi / 4))
      (Spec.circle ⟨0, 0⟩ 100 (0 + Real.pi / 2))| := by
    unfold Spec.area2 Spec.circle
    simp only [zero_add, Real.cos_zero, Real.sin_zero, Real.cos_pi_div_four, Real.sin_pi_div_four, Real.cos_pi_div_two,
      Real.sin_pi_div_two]
    have h2 : (1.4 : ℝ) < Real.sqrt 2 := by
      rw [Real.lt_sqrt (by norm_num)]
      norm_num
    rw [abs_of_pos] <;> nlinarith
  obtain ⟨lines, h1, h2, h3, -⟩ := C65_arc Sample.quarter (by rw [hb]; norm_num at hp1 ⊢; linarith)
    (by rw [hb]; norm_num at hp1 ⊢; linarith) hA (by rw [hb]; norm_num at hp2 ⊢; linarith) fuel
  refine ⟨lines, h1, ?_⟩
  rw [hb] at h2 h3
  norm_num at h2 h3 hp1 hp2
  have h4 : (lines.length : ℝ) < 20 := by linarith
  have h5 : (18 : ℝ) < lines.length := by linarith
  have h4 : lines.length < 20 := by exact_mod_cast h4
  have h5 : 18 < lines.length := by exact_mod_cast h5
  omega

/-! ## C34 -/

/-- Any arithmetic: if the number of segments computed for the arc is 0 the path has no lines, length
0, and every position on it is the first control point. -/
theorem C34_collapse {S D : Type} [GoFloat S] [GoFloat D] [GoConv S D] [GoLibm D] {fuel : Nat} {a b c : Vec S}
    {arc : CirArc S} (hs : Vec.isStraightLine (D := D) a b c = false) (harc : CirArc.new (D := D) fuel a b c = .ok arc)
    (h0 : trunc (arc.r *. arc.totalAngle *. lit 0.125) = 0) (len : D) :
    ∃ mc, MultiCurve.newT fuel ['P'] [a, b, c] len = .ok mc ∧ mc.lines = [] ∧ mc.length = lit 0 ∧
      ∀ t, mc.pointAt (D := D) t = .ok a := by
  have hun : arc.unstable = false := by
    unfold CirArc.new at harc
    simp only at harc
    obtain ⟨e, -, harc⟩ := bind_ok harc
    split at harc <;> (cases harc; exact hs)
  have hp : processType (D := D) fuel ['P'] [a, b, c] = .ok [] := by
    unfold processType
    rw [if_pos rfl]
    unfold processPerfect
    rw [if_neg (by simp)]
    simp only
    rw [hs]
    simp only [Bool.false_eq_true, if_false]
    unfold approximateCircularArc
    simp only [harc, ok_bind]
    rw [hun]
    simp only [Bool.false_eq_true, if_false]
    rw [h0]
    rfl
  have hn : MultiCurve.newT fuel ['P'] [a, b, c] len =
      .ok { lines := [], firstPoint := a, length := lit 0, sections := [lit 0] } := by
    unfold MultiCurve.newT
    rw [hp]
    simp only [ok_bind]
    show Except.ok _ = _
    congr 1
    have e : (if totalLength (D := D) ([] : List (Linear S)) >. lit 0 then
        (trimRev ([] : List (Linear S)).reverse (up (totalLength (D := D) ([] : List (Linear S))) -. len)).reverse
        else []) = [] := by
      split <;> rfl
    rw [e]
    rfl
  refine ⟨_, hn, rfl, rfl, fun t => ?_⟩
  unfold MultiCurve.pointAt
  rw [if_pos (by simp)]

/-- Every circular arc shorter than 8 px through three points that do not count as a straight line
gives an empty path, of length 0 instead of the desired length. -/
theorem C34_short_arc {m : Vec ℝ} {r α γ β : ℝ} {a b c : Vec ℝ} (h : Spec.Arc m r α γ β a b c)
    (h1 : 1 / 10 ^ 17 ≤ |β|) (h2 : |β| ≤ 2 * Real.pi - 1 / 10 ^ 17) (hA : 0.001 ≤ |Spec.area2 a b c|)
    (hshort : r * (|β| + 1 / 10 ^ 18) < 8) (len : ℝ) (fuel : ℕ) :
    ∃ mc, MultiCurve.newT (fuel + 3) ['P'] [a, b, c] len = .ok mc ∧ mc.lines = [] ∧ mc.length = 0 ∧
      ∀ t, mc.pointAt (D := ℝ) t = .ok a := by
  obtain ⟨lines, h3, h4, -⟩ := arc_lines h h1 h2 hA (by norm_num at hshort ⊢; linarith) fuel
  have hlen : lines.length = 0 := by
    by_contra hne
    have : (1 : ℝ) ≤ lines.length := by exact_mod_cast Nat.one_le_iff_ne_zero.mpr hne
    linarith
  have hnil : lines = [] := List.length_eq_zero_iff.mp hlen
  subst hnil
  have h5 : ∃ mc, MultiCurve.newT (fuel + 3) ['P'] [a, b, c] len = .ok mc := by
    unfold MultiCurve.newT
    rw [h3]
    exact ⟨_, rfl⟩
  obtain ⟨mc, h5⟩ := h5
  obtain ⟨lines', h6, h7⟩ := newT_lines h5
  rw [h3] at h6
  cases h6
  rw [if_neg (by rw [pathLength_nil]; exact _root_.lt_irrefl _)] at h7
  refine ⟨mc, h5, h7, ?_, fun t => ?_⟩
  · rw [(newT_measuredR h5).1, totalLength_real, h7]
    rfl
  · unfold MultiCurve.pointAt
    rw [if_pos (by simp [h7]), newT_firstPoint h5]

/-- The half circle through (1, 0), (0, 1) and (-1, 0), 3.14 px long. -/
example (len : ℝ) (fuel : ℕ) : ∃ mc, MultiCurve.newT (S := ℝ) (D := ℝ) (fuel + 3) ['P'] [⟨1, 0⟩, ⟨0, 1⟩, ⟨-1, 0⟩] len = .ok mc ∧
    mc.length = 0 := by
  have hp1 := Real.pi_gt_d2
  have hp2 := Real.pi_lt_d2
  have hb : |Real.pi| = Real.pi := abs_of_pos (by linarith)
  have h : Spec.Arc ⟨0, 0⟩ 1 0 (Real.pi / 2) Real.pi ⟨1, 0⟩ ⟨0, 1⟩ ⟨-1, 0⟩ := by
    refine ⟨by norm_num, ?_, ?_, ?_, .inl ⟨by linarith, by linarith, by linarith⟩⟩
    · unfold Spec.circle; simp
    · unfold Spec.circle; simp
    · unfold Spec.circle; simp
  obtain ⟨mc, h1, -, h2, -⟩ := C34_short_arc h (by rw [hb]; norm_num at hp1 ⊢; linarith)
    (by rw [hb]; norm_num at hp1 ⊢; linarith) (by unfold Spec.area2; norm_num) (by rw [hb]; norm_num at hp2 ⊢; linarith) len fuel
  exact ⟨mc, h1, h2⟩

end GosuPP
