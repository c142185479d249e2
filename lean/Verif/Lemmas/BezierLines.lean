import Verif.Lemmas.BezierGrid
import Verif.Lemmas.SliderFile
import Verif.Props.Bezier

/-! The paths of Bezier sliders in float32. -/

namespace GosuPP
open Go Fl Approximator
open GosuPP.Fl (NN0)

private theorem zero_wf : WF (fin 0 false : F32) := ⟨Rep.zero, by simpa using pow2_pos _, by simp⟩

/-- The coordinate differences of a line. -/
def lineSpan (l : Linear F32) : ℚ := |rv l.p2.x - rv l.p1.x| + |rv l.p2.y - rv l.p1.y|

def lineSpans (ls : List (Linear F32)) : ℚ := (ls.map lineSpan).sum

theorem lineSpans_join : ∀ l : List (Vec F32), lineSpans (joinPoints l) = span l
  | [] => rfl
  | [_] => rfl
  | a :: b :: r => by
    have := lineSpans_join (b :: r)
    unfold lineSpans at this ⊢
    simp only [joinPoints, List.map_cons, List.sum_cons, span, this]
    rfl

theorem lineSpans_append (l m : List (Linear F32)) : lineSpans (l ++ m) = lineSpans l + lineSpans m := by
  unfold lineSpans
  rw [List.map_append, List.sum_append]

theorem join_length (x : Vec F32) : ∀ l : List (Vec F32), (joinPoints (l ++ [x])).length = l.length
  | [] => rfl
  | [_] => rfl
  | a :: b :: r => by
    have := join_length x (b :: r)
    simp only [List.cons_append, joinPoints, List.length_cons] at this ⊢
    omega

theorem join_ends {Q : Vec F32 → Prop} : ∀ l : List (Vec F32), (∀ p ∈ l, Q p) → ∀ e ∈ joinPoints l, Q e.p1 ∧ Q e.p2
  | [], _, e, he => by cases he
  | [_], _, e, he => by cases he
  | a :: b :: r, h, e, he => by
    simp only [joinPoints, List.mem_cons] at he
    rcases he with rfl | he
    · exact ⟨h a (by simp), h b (by simp)⟩
    · exact join_ends (b :: r) (fun p hp => h p (List.mem_cons_of_mem _ hp)) e he

/-- The lines of a Bezier slider through `n` points: their number, and the sum of their coordinate differences. -/
structure BezierLines (k n : ℕ) (W : ℚ) (ls : List (Linear F32)) : Prop where
  ends : ∀ l ∈ ls, VBd k l.p1 ∧ VBd k l.p2
  fine : ∀ l ∈ ls, NotTiny l
  count : ls.length ≤ 2 ^ ((k + 7) / 2) * n
  spans : lineSpans ls ≤ n * W

/-- The bound on the coordinate differences for each control point. -/
def curveSpan (k n : ℕ) : ℚ := 6 * 2 ^ k + 2 ^ ((k + 7) / 2) * ((2 ^ k / 2 ^ 24 + 1 / 2 ^ 140) * (12 * n + 20))

/-- The pieces of a list between repeated elements have at most `m` elements: from the beginning and from the second of two equal
neighbours on there are two equal neighbours, other than the last two elements, or the end of the list. -/
def Spec.ShortPieces {α : Type} (same : α → α → Prop) (m : ℕ) (l : List α) : Prop :=
  ∀ i, (i = 0 ∨ ∃ a b, l[i - 1]? = some a ∧ l[i]? = some b ∧ same a b) → i + m < l.length →
    ∃ j a b, i < j ∧ j < i + m ∧ j + 2 < l.length ∧ l[j]? = some a ∧ l[j + 1]? = some b ∧ same a b

theorem smallStep_start {k : ℕ} {cps : List (Vec F32)} (h : AllIn k cps) : SmallStep (2 * 2 ^ k) cps := by
  intro i hi
  have a := h.getD (j := i) (by omega)
  have b := h.getD (j := i + 1) (by omega)
  have ax := abs_le.mp (rv_abs a.1)
  have ay := abs_le.mp (rv_abs a.2)
  have bx := abs_le.mp (rv_abs b.1)
  have by' := abs_le.mp (rv_abs b.2)
  unfold CoordsNear
  simp only [abs_le]
  and_intros <;> linarith [ax.1, ax.2, ay.1, ay.2, bx.1, bx.2, by'.1, by'.2]

theorem approximate_lines {k N : ℕ} (hk : k ≤ 17) (hN : N * 2 ^ k ≤ 2 ^ 21) {cps : List (Vec F32)} (hne : cps ≠ []) (hl : cps.length ≤ N)
    (h : AllIn k cps) (h1 : AllFromOne cps ∨ AllGrid 0 cps ∧ ((k + 7) / 2 + 1) * (cps.length - 1) ≤ 45) :
    ∃ n0 ls, (∀ fuel ≥ n0, approximateBezier fuel cps = .ok ls) ∧ BezierLines k cps.length (curveSpan k N) ls := by
  have hn : cps.length * 2 ^ k ≤ 2 ^ 21 := (Nat.mul_le_mul_right _ hl).trans hN
  have n1 : 1 ≤ cps.length := List.length_pos_iff.mpr hne
  obtain ⟨l, hf, hin, hc⟩ := flattens32 hk hn h
  obtain ⟨n0, hn0⟩ := C35_complete hne hf
  have hlast : cps.getLast hne = cps.getD (cps.length - 1) Vec.zero := by
    rw [List.getLast_eq_getElem, List.getD_eq_getElem?_getD, List.getElem?_eq_getElem (by omega)]
    rfl
  have hsp := flattens_span hk hn n1 _ (2 * 2 ^ k) (by positivity) cps l rfl h (smallDD_start h) (smallStep_start h) hf
  have ends := join_ends (Q := fun p => VBd k p) (l ++ [cps.getLast hne]) fun p hp => by
    rcases List.mem_append.mp hp with hp | hp
    · exact hin p hp
    · rw [List.mem_singleton] at hp
      rw [hp]
      exact h _ (List.getLast_mem hne)
  refine ⟨n0, joinPoints (l ++ [cps.getLast hne]), fun fuel hfu => ?_, ends, ?_, ?_, ?_⟩
  · unfold approximateBezier
    rw [hn0 fuel hfu]
    rfl
  · rcases h1 with h1 | ⟨h1, hm⟩
    · have hone := flattens_one (by omega : k ≤ 100) hf h h1
      have o := join_ends (Q := VFromOne) (l ++ [cps.getLast hne]) fun p hp => by
        rcases List.mem_append.mp hp with hp | hp
        · exact hone p hp
        · rw [List.mem_singleton] at hp
          rw [hp]
          exact h1 _ (List.getLast_mem hne)
      exact fun e he => line_from_one hk (ends e he).1 (ends e he).2 (o e he).1 (o e he).2
    · have hg := flattens_grid hk hn _ 0 cps l rfl h (smallDD_start h) h1 hf
      have o := join_ends (Q := VGrid 47) (l ++ [cps.getLast hne]) fun p hp => by
        rcases List.mem_append.mp hp with hp | hp
        · exact (hg p hp).mono (by omega)
        · rw [List.mem_singleton] at hp
          rw [hp]
          exact (h1 _ (List.getLast_mem hne)).mono (by omega)
      exact fun e he => line_grid hk (ends e he).1 (ends e he).2 (o e he).1 (o e he).2
  · rw [join_length]
    exact hc
  · rw [lineSpans_join, hlast]
    refine hsp.trans (mul_le_mul_of_nonneg_left ?_ (Nat.cast_nonneg _))
    have hd : (0:ℚ) ≤ 2 ^ k / 2 ^ 24 + 1 / 2 ^ 140 := by positivity
    have hq : (cps.length : ℚ) ≤ N := by exact_mod_cast hl
    unfold curveSpan
    generalize (2 ^ k / 2 ^ 24 + 1 / 2 ^ 140 : ℚ) = δ at hd
    have p : (0:ℚ) ≤ 2 ^ ((k + 7) / 2) := by positivity
    have x : δ * (12 * cps.length + 20) ≤ δ * (12 * N + 20) := mul_le_mul_of_nonneg_left (by linarith) hd
    have y := mul_le_mul_of_nonneg_left x p
    have z : 0 ≤ 6 * δ * cps.length := by positivity
    linarith

theorem processBezier_lines {k : ℕ} (hk : k ≤ 17) {ps : List (Vec F32)} (hN : ps.length * 2 ^ k ≤ 2 ^ 21) (h : AllIn k ps)
    (h1 : AllFromOne ps ∨ AllGrid 0 ps ∧ ∃ m, Spec.ShortPieces (fun p q : Vec F32 => p.eq q = true) m ps ∧ ((k + 7) / 2 + 1) * (m - 1) ≤ 45) :
    ∃ n0 ls, (∀ fuel ≥ n0, processBezier fuel ps = .ok ls) ∧ BezierLines k ps.length (curveSpan k ps.length) ls := by
  have W0 : 6 * 2 ^ k ≤ curveSpan k ps.length := by
    unfold curveSpan
    have : (0:ℚ) ≤ 2 ^ ((k + 7) / 2) * ((2 ^ k / 2 ^ 24 + 1 / 2 ^ 140) * (12 * ps.length + 20)) := by positivity
    linarith
  have pk : (0:ℚ) < 2 ^ k := by positivity
  have none : ∀ n, BezierLines k n (curveSpan k ps.length) [] := fun n => by
    refine ⟨fun l hl => (by cases hl), fun l hl => (by cases hl), Nat.zero_le _, ?_⟩
    show (0:ℚ) ≤ _
    have : (0:ℚ) ≤ n := Nat.cast_nonneg n
    have : 0 ≤ curveSpan k ps.length := by linarith
    positivity
  have key : ∀ m i last, last ≤ i →
      (i < ps.length → last = 0 ∨ ∃ a b, ps[last - 1]? = some a ∧ ps[last]? = some b ∧ a.eq b = true) →
      (∀ j p, last < j → j < i → ps[j]? = some p → isMulti ps j p = false) → ∃ n0 ls, (∀ fuel ≥ n0, processBezierLoop fuel ps m i last = .ok ls) ∧
      BezierLines k (if i < ps.length then ps.length - last else 0) (curveSpan k ps.length) ls := by
    intro m
    induction m with
    | zero => exact fun i last _ _ _ => ⟨0, [], fun fuel _ => rfl, none _⟩
    | succ m ih =>
      intro i last hi hstart hno
      cases hp : ps[i]? with
      | none => exact ⟨0, [], fun fuel _ => by rw [processBezierLoop, hp], none _⟩
      | some p =>
        have hlt : i < ps.length := (List.getElem?_eq_some_iff.mp hp).1
        simp only [processBezierLoop_step hp]
        rw [if_pos hlt]
        by_cases hm : (isMulti ps i p || i + 1 == ps.length) = true
        · simp only [hm, if_true]
          obtain ⟨N2, l2, h2, g2⟩ := ih ((if isMulti ps i p = true then i + 1 else i) + 1) (if isMulti ps i p = true then i + 1 else i) (Nat.le_succ _) (by
            by_cases hmu : isMulti ps i p = true
            · simp only [hmu, if_true]
              intro _
              right
              unfold isMulti at hmu
              rw [Bool.and_eq_true] at hmu
              cases hq : ps[i + 1]? with
              | none => rw [hq] at hmu; cases hmu.2
              | some q =>
                rw [hq] at hmu
                exact ⟨p, q, hp, rfl, hmu.2⟩
            · have : i + 1 = ps.length := by
                simp only [hmu, Bool.false_or, beq_iff_eq] at hm
                exact hm
              simp only [hmu, Bool.false_eq_true, if_false]
              omega) (by intro j p h1 h2; omega)
          have hcnt : (if (if isMulti ps i p = true then i + 1 else i) + 1 < ps.length then ps.length - (if isMulti ps i p = true then i + 1 else i) else 0) +
              (i + 1 - last) ≤ ps.length - last := by
            by_cases hmu : isMulti ps i p = true
            · have : i + 2 < ps.length := by
                unfold isMulti at hmu
                rw [Bool.and_eq_true, decide_eq_true_eq] at hmu
                exact hmu.1
              simp only [hmu, if_true]
              rw [if_pos (by omega)]
              omega
            · have : i + 1 = ps.length := by
                simp only [hmu, Bool.false_or, beq_iff_eq] at hm
                exact hm
              simp only [hmu, Bool.false_eq_true, if_false]
              rw [if_neg (by omega)]
              omega
          generalize (if (if isMulti ps i p = true then i + 1 else i) + 1 < ps.length then ps.length - (if isMulti ps i p = true then i + 1 else i) else 0) = n2
            at g2 hcnt
          have hsubl : ((ps.drop last).take (i + 1 - last)).length = i + 1 - last := by
            rw [List.length_take, List.length_drop]
            omega
          have hmem : ∀ v ∈ (ps.drop last).take (i + 1 - last), v ∈ ps := fun v hv => List.mem_of_mem_drop (List.mem_of_mem_take hv)
          have hsub : AllIn k ((ps.drop last).take (i + 1 - last)) := fun v hv => h v (hmem v hv)
          have hsub1 : AllFromOne ((ps.drop last).take (i + 1 - last)) ∨ AllGrid 0 ((ps.drop last).take (i + 1 - last)) ∧
              ((k + 7) / 2 + 1) * (((ps.drop last).take (i + 1 - last)).length - 1) ≤ 45 := by
            rcases h1 with h1 | ⟨h1, m, hshort, hm45⟩
            · exact .inl fun v hv => h1 v (hmem v hv)
            · refine .inr ⟨fun v hv => h1 v (hmem v hv), _root_.le_trans (Nat.mul_le_mul_left _ ?_) hm45⟩
              rw [hsubl]
              by_contra hc
              obtain ⟨j, a, b, j1, j2, j3, ja, jb, hab⟩ := hshort last (hstart hlt) (by omega)
              have := hno j a j1 (by omega) ja
              unfold isMulti at this
              rw [jb, decide_eq_true j3, Bool.true_and] at this
              have this : a.eq b = false := this
              rw [hab] at this
              cases this
          have hne : (ps.drop last).take (i + 1 - last) ≠ [] := by
            intro he
            have := congrArg List.length he
            rw [hsubl, List.length_nil] at this
            omega
          obtain ⟨N1, l1, h1', g1⟩ := approximate_lines hk hN hne (by rw [hsubl]; omega) hsub hsub1
          have comb : ∀ l1, BezierLines k ((ps.drop last).take (i + 1 - last)).length (curveSpan k ps.length) l1 →
              BezierLines k (ps.length - last) (curveSpan k ps.length) (l1 ++ l2) := by
            intro l1 g1
            rw [hsubl] at g1
            refine ⟨fun l hl => ?_, fun l hl => ?_, ?_, ?_⟩
            · rcases List.mem_append.mp hl with hl | hl
              · exact g1.ends l hl
              · exact g2.ends l hl
            · rcases List.mem_append.mp hl with hl | hl
              · exact g1.fine l hl
              · exact g2.fine l hl
            · rw [List.length_append]
              calc l1.length + l2.length ≤ 2 ^ ((k + 7) / 2) * (i + 1 - last) + 2 ^ ((k + 7) / 2) * n2 := Nat.add_le_add g1.count g2.count
                _ = 2 ^ ((k + 7) / 2) * (n2 + (i + 1 - last)) := by ring
                _ ≤ _ := Nat.mul_le_mul_left _ hcnt
            · rw [lineSpans_append]
              have hq : (n2 : ℚ) + (i + 1 - last : ℕ) ≤ (ps.length - last : ℕ) := by exact_mod_cast hcnt
              have := mul_le_mul_of_nonneg_right hq (by linarith : 0 ≤ curveSpan k ps.length)
              have a := g1.spans
              have b := g2.spans
              linarith
          split
          · rename_i a b hab
            refine ⟨N2, [⟨a, b⟩] ++ l2, fun fuel hf => ?_, comb _ ?_⟩
            · rw [h2 fuel hf]
              rfl
            · rw [hab] at hsub hsub1 ⊢
              have st := smallStep_start hsub 0 (by simp)
              simp only [List.getD_cons_zero, Nat.zero_add, List.getD_cons_succ] at st
              refine ⟨fun l hl => ?_, fun l hl => ?_, ?_, ?_⟩
              · rw [List.mem_singleton] at hl
                rw [hl]
                exact ⟨hsub a (by simp), hsub b (by simp)⟩
              · rw [List.mem_singleton] at hl
                rw [hl]
                rcases hsub1 with h1 | ⟨h1, -⟩
                · exact line_from_one hk (hsub a (by simp)) (hsub b (by simp)) (h1 a (by simp)) (h1 b (by simp))
                · exact line_grid hk (hsub a (by simp)) (hsub b (by simp)) ((h1 a (by simp)).mono (by omega)) ((h1 b (by simp)).mono (by omega))
              · have : 0 < 2 ^ ((k + 7) / 2) := by positivity
                simp only [List.length_cons, List.length_nil]
                omega
              · show |rv b.x - rv a.x| + |rv b.y - rv a.y| + 0 ≤ _
                simp only [List.length_cons, List.length_nil]
                push_cast
                linarith [st.1, st.2]
          · refine ⟨max N1 N2, l1 ++ l2, fun fuel hf => ?_, comb _ g1⟩
            rw [h1' fuel (le_trans (le_max_left ..) hf), h2 fuel (le_trans (le_max_right ..) hf)]
            rfl
        · simp only [hm]
          obtain ⟨N2, l2, h2, g2⟩ := ih (i + 1) last (by omega) (fun _ => hstart hlt) (by
            intro j q j1 j2 hq
            rcases Nat.lt_succ_iff_lt_or_eq.mp j2 with j2 | rfl
            · exact hno j q j1 j2 hq
            · rw [hp] at hq
              cases hq
              simp only [Bool.or_eq_true, not_or, Bool.not_eq_true] at hm
              exact hm.1)
          refine ⟨N2, l2, h2, ?_⟩
          have : i + 1 < ps.length := by
            simp only [Bool.or_eq_true, beq_iff_eq, not_or] at hm
            omega
          rw [if_pos this] at g2
          exact g2
  obtain ⟨n0, ls, h2, g⟩ := key ps.length 0 0 le_rfl (fun _ => .inl rfl) (by intro j p _ h; omega)
  refine ⟨n0, ls, h2, ?_⟩
  split at g
  · exact g
  · rename_i hc
    rw [show ps.length = 0 by omega] at g ⊢
    exact g

/-- The lengths of the lines are at most their coordinate differences, up to rounding. -/
theorem lenSum_spans {k n : ℕ} {W : ℚ} (hk : k ≤ 17) {ls : List (Linear F32)} (h : BezierLines k n W ls) :
    lenSum ls ≤ lineSpans ls * (1 + 1 / 2 ^ 21) + ls.length * (1 / 2 ^ 58) := by
  have hB : (2:ℚ) ^ k ≤ 2 ^ 21 := pow_le_pow_right₀ (by norm_num) (by omega)
  have key : ∀ l ∈ ls, lenQ l ≤ lineSpan l * (1 + 1 / 2 ^ 21) + 1 / 2 ^ 58 := by
    intro l hl
    obtain ⟨⟨⟨x1, a, ex1, hx1⟩, ⟨y1, b, ey1, hy1⟩⟩, ⟨⟨x2, c, ex2, hx2⟩, ⟨y2, d, ey2, hy2⟩⟩⟩ := h.ends l hl
    rw [pow2_nat] at hx1 hy1 hx2 hy2
    have e1 : l.p1 = ⟨fin x1 a, fin y1 b⟩ := by rw [← ex1, ← ey1]
    have e2 : l.p2 = ⟨fin x2 c, fin y2 d⟩ := by rw [← ex2, ← ey2]
    obtain ⟨m, z, hm, m0, hme⟩ := getLength_error e1 e2 (by linarith) (by linarith) (by linarith) (by linarith)
    rw [lenQ_eq hm]
    have hs : lineSpan l = |x2 - x1| + |y2 - y1| := by
      unfold lineSpan
      rw [e1, e2]
      rfl
    rw [hs]
    have hn : norm2 (x2 - x1) (y2 - y1) ≤ ((|x2 - x1| + |y2 - y1| : ℚ) : ℝ) := by
      unfold norm2
      apply Real.sqrt_le_iff.mpr
      push_cast
      refine ⟨by positivity, ?_⟩
      rw [← sq_abs (((x2 : ℝ) - x1)), ← sq_abs (((y2 : ℝ) - y1))]
      have := mul_nonneg (abs_nonneg ((x2 : ℝ) - x1)) (abs_nonneg ((y2 : ℝ) - y1))
      nlinarith
    have := (abs_le.mp hme).2
    have r : (m : ℝ) ≤ ((|x2 - x1| + |y2 - y1| : ℚ) : ℝ) * (1 + 1 / 2 ^ 21) + 1 / 2 ^ 58 := by linarith
    apply (Rat.cast_le (K := ℝ)).mp
    push_cast at r ⊢
    exact r
  clear h
  unfold lenSum lineSpans
  induction ls with
  | nil => simp
  | cons l ls ih =>
    have a := key l (by simp)
    have b := ih fun l hl => key l (List.mem_cons_of_mem _ hl)
    simp only [List.map_cons, List.sum_cons, List.length_cons]
    push_cast
    linarith

theorem linear_ends {Q : Vec F32 → Prop} : ∀ l : List (Vec F32), (∀ p ∈ l, Q p) → ∀ e ∈ processLinear l, Q e.p1 ∧ Q e.p2
  | [], _, e, he => by cases he
  | [_], _, e, he => by cases he
  | a :: b :: r, h, e, he => by
    unfold processLinear at he
    split at he
    · exact linear_ends (b :: r) (fun p hp => h p (List.mem_cons_of_mem _ hp)) e he
    · rcases List.mem_cons.mp he with rfl | he
      · exact ⟨h a (by simp), h b (by simp)⟩
      · exact linear_ends (b :: r) (fun p hp => h p (List.mem_cons_of_mem _ hp)) e he

theorem linear_span : ∀ l : List (Vec F32), lineSpans (processLinear l) ≤ span l
  | [] => le_rfl
  | [_] => le_rfl
  | a :: b :: r => by
    have ih := linear_span (b :: r)
    unfold processLinear
    simp only [span]
    split
    · have := abs_nonneg (rv b.x - rv a.x)
      have := abs_nonneg (rv b.y - rv a.y)
      linarith
    · unfold lineSpans at ih ⊢
      rw [List.map_cons, List.sum_cons]
      have : lineSpan ⟨a, b⟩ = |rv b.x - rv a.x| + |rv b.y - rv a.y| := rfl
      linarith

theorem linear_bezierLines {k : ℕ} (hk : k ≤ 17) {ps : List (Vec F32)} (h : AllIn k ps) (h1 : AllFromOne ps ∨ AllGrid 0 ps) :
    BezierLines k ps.length (curveSpan k ps.length) (processLinear ps) := by
  have ends := linear_ends (Q := fun p => VBd k p) ps h
  refine ⟨ends, ?_, ?_, ?_⟩
  · rcases h1 with h1 | h1
    · have o := linear_ends (Q := VFromOne) ps h1
      exact fun e he => line_from_one hk (ends e he).1 (ends e he).2 (o e he).1 (o e he).2
    · have o := linear_ends (Q := VGrid 47) ps fun p hp => (h1 p hp).mono (by omega)
      exact fun e he => line_grid hk (ends e he).1 (ends e he).2 (o e he).1 (o e he).2
  · exact (processLinear_length ps).trans (Nat.le_mul_of_pos_left _ (by positivity))
  · refine (linear_span ps).trans ((span_le (by positivity) ps (smallStep_start h)).trans (mul_le_mul_of_nonneg_left ?_ (Nat.cast_nonneg _)))
    unfold curveSpan
    have : (0:ℚ) ≤ 2 ^ ((k + 7) / 2) * ((2 ^ k / 2 ^ 24 + 1 / 2 ^ 140) * (12 * ps.length + 20)) := by positivity
    have : (0:ℚ) < 2 ^ k := by positivity
    linarith

/-- Every kind of slider but Catmull curves and circular arcs through three points. -/
theorem type_lines [GoLibm F64] {c : Char} (hc : c ≠ 'C') {ps : List (Vec F32)} (hP : c = 'P' → ps.length ≠ 3) (hlen : ps.length ≤ 64)
    (h : AllIn 10 ps) (h1 : AllFromOne ps ∨ AllGrid 0 ps ∧ Spec.ShortPieces (fun p q : Vec F32 => p.eq q = true) 6 ps) :
    ∃ n0 raw, (∀ fuel ≥ n0, processType (D := F64) fuel [c] ps = .ok raw) ∧ BezierLines 10 ps.length (curveSpan 10 ps.length) raw := by
  obtain ⟨n0, raw, hr, g⟩ := processBezier_lines (k := 10) (by norm_num) (by omega) h (h1.imp_right fun h => ⟨h.1, 6, h.2, by norm_num⟩)
  have gl := linear_bezierLines (by norm_num) h (h1.imp_right fun h => h.1)
  by_cases cP : c = 'P'
  · by_cases h3 : ps.length > 3
    · refine ⟨n0, raw, fun fuel hf => ?_, g⟩
      rw [cP, ← hr fuel hf]
      show processPerfect fuel ps = _
      unfold processPerfect
      rw [if_pos h3]
    · refine ⟨0, _, fun fuel hf => ?_, gl⟩
      rw [cP]
      show processPerfect fuel ps = _
      unfold processPerfect
      rw [if_neg h3]
      split
      · exact absurd rfl (hP cP)
      · rfl
  by_cases cL : c = 'L'
  · exact ⟨0, _, fun fuel hf => by rw [cL]; rfl, gl⟩
  by_cases cB : c = 'B'
  · exact ⟨n0, raw, fun fuel hf => by rw [cB]; exact hr fuel hf, g⟩
  · refine ⟨0, [], fun fuel hf => ?_, fun l hl => (by cases hl), fun l hl => (by cases hl), Nat.zero_le _, ?_⟩
    · unfold processType
      rw [if_neg (by simpa using cP), if_neg (by simpa using cL), if_neg (by simpa using cB), if_neg (by simpa using hc)]
    · exact gl.spans.trans' (by
        have : ∀ ls, 0 ≤ lineSpans ls := by
          intro ls
          unfold lineSpans
          apply List.sum_nonneg
          intro x hx
          obtain ⟨l, -, rfl⟩ := List.mem_map.mp hx
          unfold lineSpan
          positivity
        exact this _)

/-- The path of a slider with such lines through at most 64 points below 1024. -/
theorem lines_path [GoLibm F64] {ps : List (Vec F32)} (hlen : ps.length ≤ 64) (h : AllIn 10 ps) {fuel : ℕ} {typ : Str} {raw : List (Linear F32)}
    (hraw : processType (D := F64) fuel typ ps = .ok raw) (g : BezierLines 10 ps.length (curveSpan 10 ps.length) raw)
    {P : ℚ} {z : Bool} (hP0 : 1 ≤ P) (hP1 : P ≤ 2 ^ 14) {mc : MultiCurve F32} (hmc : MultiCurve.newT fuel typ ps (fin P z : F64) = .ok mc) :
    Props.TamePath mc ∧ ∃ C zC, mc.length = fin C zC ∧ 0 ≤ C ∧ C ≤ P + 63 + (ps.length : ℚ) ^ 2 := by
  have hcnt : raw.length ≤ 2 ^ 8 * ps.length := g.count
  have hcnt' : raw.length ≤ 2 ^ 14 := by omega
  have at' : ∀ p, VBd ((10 : ℕ) : ℤ) p → ∃ x y, Spec.At p x y ∧ |x| ≤ 2 ^ 10 ∧ |y| ≤ 2 ^ 10 := by
    rintro p ⟨⟨x, a, ex, hx⟩, ⟨y, b, ey, hy⟩⟩
    rw [pow2_nat] at hx hy
    exact ⟨x, y, ⟨a, b, by rw [← ex, ← ey]⟩, hx, hy⟩
  have hin : ∀ l ∈ raw, (∃ x y, Spec.At l.p1 x y ∧ |x| ≤ 2 ^ 10 ∧ |y| ≤ 2 ^ 10) ∧ ∃ x y, Spec.At l.p2 x y ∧ |x| ≤ 2 ^ 10 ∧ |y| ≤ 2 ^ 10 :=
    fun l hl => ⟨at' _ (g.ends l hl).1, at' _ (g.ends l hl).2⟩
  have htiny : ∀ l ∈ raw, l.p1.eq l.p2 = true ∨ Fl.le (fin (1 / 2 ^ 48) false) (l.getLength (D := F64)) = true :=
    g.fine
  have v17 : ∀ p, VBd ((10 : ℕ) : ℤ) p → VBd 17 p := fun p hp => ⟨hp.1.mono (by norm_num), hp.2.mono (by norm_num)⟩
  obtain ⟨L, zL, hL, L0, -⟩ : In32 0 (_ * pow2 19) (MultiCurve.totalLength (D := F64) raw) :=
    totalLength_bound raw (by norm_num) (by norm_num) (fun l hl =>
      length_in (k := 17) (v17 _ (g.ends l hl).1) (v17 _ (g.ends l hl).2) (by norm_num) (by decide +kernel)) (hcnt'.trans (by norm_num))
  refine ⟨⟨fuel, typ, ps, P, z, raw, hmc, hraw, hcnt'.trans (by norm_num), ?_, ?_, htiny, by linarith, ?_⟩, ?_⟩
  · intro p hp
    exact v17 p (h p (List.mem_of_getElem? hp))
  · intro l hl
    obtain ⟨⟨x, y, a1, a2, a3⟩, ⟨x', y', b1, b2, b3⟩⟩ := hin l hl
    exact ⟨⟨x, y, a1, a2.trans (by norm_num), a3.trans (by norm_num)⟩, ⟨x', y', b1, b2.trans (by norm_num), b3.trans (by norm_num)⟩⟩
  · intro L' z' h'
    rw [hL] at h'
    cases h'
    linarith
  have n2 : (0:ℚ) ≤ (ps.length : ℚ) ^ 2 := by positivity
  have nq : (ps.length : ℚ) ≤ 64 := by exact_mod_cast hlen
  have n0 : (0:ℚ) ≤ ps.length := Nat.cast_nonneg _
  rcases lt_or_eq_of_le L0 with hLpos | hLz
  · -- the length of the lines
    have hz : (lit 0 : F32) = fin 0 false := ofRat_zero _
    have hLf : raw.foldl (fun acc l => acc +. l.getLength (D := F64)) (fin 0 false : F32) = fin L zL := by
      rw [← hz]; exact hL
    obtain ⟨-, -, hLe⟩ := foldl_error raw zero_wf le_rfl hLf
    rw [zero_add] at hLe
    have hR : (raw.length : ℚ) ≤ 2 ^ 8 * ps.length := by exact_mod_cast hcnt
    have hR14 : (raw.length : ℚ) ≤ 2 ^ 14 := by exact_mod_cast hcnt'
    have hR0 : (0:ℚ) ≤ raw.length := Nat.cast_nonneg _
    have hW : curveSpan 10 ps.length ≤ 6157 := by
      unfold curveSpan
      have : (2 ^ ((10 + 7) / 2) * ((2 ^ 10 / 2 ^ 24 + 1 / 2 ^ 140) * (12 * ps.length + 20)) : ℚ) ≤
          2 ^ ((10 + 7) / 2) * ((2 ^ 10 / 2 ^ 24 + 1 / 2 ^ 140) * (12 * 64 + 20)) := by gcongr
      refine (add_le_add_right this _).trans ?_
      norm_num
    have hsp : lineSpans raw ≤ ps.length * 6157 := g.spans.trans (mul_le_mul_of_nonneg_left hW n0)
    have hls := lenSum_spans (by norm_num) g
    have hLn : L ≤ ps.length * 6175 + 1 := by
      have b1 : raw.length * (L / 2 ^ 23 + 1 / 2 ^ 149) ≤ 2 ^ 14 * (L / 2 ^ 23 + 1 / 2 ^ 149) := mul_le_mul_of_nonneg_right hR14 (by positivity)
      have b2 : (2:ℚ) ^ 14 * (L / 2 ^ 23 + 1 / 2 ^ 149) = L / 512 + 1 / 2 ^ 135 := by ring
      have b3 : raw.length * ((1:ℚ) / 2 ^ 58) ≤ 2 ^ 14 * (1 / 2 ^ 58) := mul_le_mul_of_nonneg_right hR14 (by positivity)
      have b4 := (abs_le.mp hLe).2
      have b5 : lineSpans raw * (1 + 1 / 2 ^ 21) ≤ ps.length * 6157 * (1 + 1 / 2 ^ 21) := mul_le_mul_of_nonneg_right hsp (by positivity)
      norm_num at b2 b3 b5 hls
      linarith
    by_cases hcase : P ≤ L + 1 / 9000 ∨ ∀ l, raw.getLast? = some l → l.p1.eq l.p2 = false
    · have e14 : pow2 14 = 2 ^ 14 := pow2_nat 14
      obtain ⟨C, zC, hC, C0, hCP⟩ := C84_length (k := 10) (j := 14) hmc hraw (hcnt'.trans (by norm_num)) (by norm_num) (by norm_num) (by norm_num)
        hin htiny hL hLpos (by linarith) (by rw [e14]; linarith) hcase
      refine ⟨C, zC, hC, C0, ?_⟩
      have t : (raw.length : ℚ) * (L + P) ≤ 2 ^ 8 * ps.length * (ps.length * 6175 + 1 + 2 ^ 14) :=
        mul_le_mul hR (by linarith) (by linarith) (by positivity)
      have t' := div_le_div_of_nonneg_right t (by positivity : (0:ℚ) ≤ 2 ^ 21)
      have c := (abs_le.mp hCP).2
      rw [e14] at c
      have sq := mul_self_nonneg ((ps.length : ℚ) - 4)
      norm_num at t' c ⊢
      nlinarith
    · push Not at hcase
      obtain ⟨h1, l, hl, hq⟩ := hcase
      rw [ne_eq, Bool.not_eq_false] at hq
      obtain ⟨-, hC⟩ := C84_not_extended hmc hraw hL h1.le (by linarith [show (2:ℚ) ^ 14 ≤ 2 ^ 40 by norm_num]) hl hq
      exact ⟨L, zL, hC, L0, by linarith⟩
  · refine ⟨L, zL, ?_, L0, by linarith⟩
    unfold MultiCurve.newT at hmc
    rw [hraw] at hmc
    obtain ⟨lines, e1, hmc⟩ := bind_ok hmc
    cases e1
    obtain ⟨fp, -, hmc⟩ := bind_ok hmc
    cases hmc
    show MultiCurve.totalLength (D := F64) _ = _
    rw [if_neg]
    · exact hL
    · rw [hL, show (lit 0 : F32) = fin 0 false from ofRat_zero _]
      change ¬ Fl.lt (fin 0 false) (fin L zL) = true
      simp [Fl.lt, ← hLz]

end GosuPP
