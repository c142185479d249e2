import Verif.Lemmas.FairFile
import Verif.Spec.Returned
import Verif.Lemmas.MalformedFile
import Verif.Props.BezierExact
import Verif.Lemmas.ArcReal

/-!
# Lemmas about when curves are made and timing is set, in exact arithmetic with NaN
-/

namespace GosuPP.Exactly
open Go Spec Slider
attribute [local instance] exactLibm

/-! ### Bezier curves -/

/-- A vector of numbers. -/
def lifted (v : Vec ℝ) : Vec (Option ℝ) := ⟨some v.x, some v.y⟩

theorem lifted_add (v w : Vec ℝ) : (lifted v).add (lifted w) = lifted (v.add w) := rfl
theorem lifted_sub (v w : Vec ℝ) : (lifted v).sub (lifted w) = lifted (v.sub w) := rfl
theorem lifted_scl (v : Vec ℝ) (q : ℚ) : (lifted v).scl (lit q) = lifted (v.scl (lit q)) := rfl
theorem lifted_zero : lifted Vec.zero = Vec.zero := rfl

theorem lifted_all {l : List (Vec (Option ℝ))} (h : ∀ v ∈ l, Somewhere v) : ∃ r : List (Vec ℝ), l = r.map lifted := by
  induction l with
  | nil => exact ⟨[], rfl⟩
  | cons v l ih =>
    obtain ⟨r, hr⟩ := ih fun w hw => h w (List.mem_cons_of_mem _ hw)
    obtain ⟨a, b, hv⟩ := h v (List.mem_cons_self ..)
    exact ⟨⟨a, b⟩ :: r, by rw [List.map_cons, ← hr, hv]; rfl⟩

theorem lifted_getD (l : List (Vec ℝ)) (j : ℕ) : (l.map lifted).getD j Vec.zero = lifted (l.getD j Vec.zero) := by
  rw [List.getD_eq_getElem?_getD, List.getD_eq_getElem?_getD, List.getElem?_map]
  cases l[j]? <;> rfl

theorem lifted_triangle (l : List (Vec ℝ)) (i j : ℕ) : triangle (l.map lifted) i j = lifted (triangle l i j) := by
  induction i generalizing j with
  | zero => exact lifted_getD l j
  | succ i ih => rw [triangle, triangle, ih, ih]; rfl

theorem lifted_left (l : List (Vec ℝ)) : leftHalf (l.map lifted) = (leftHalf l).map lifted := by
  unfold leftHalf
  rw [List.length_map, List.map_map]
  exact List.map_congr_left fun i _ => lifted_triangle l i 0

theorem lifted_right (l : List (Vec ℝ)) : rightHalf (l.map lifted) = (rightHalf l).map lifted := by
  unfold rightHalf
  rw [List.length_map, List.map_map]
  exact List.map_congr_left fun i _ => lifted_triangle l _ i

theorem lifted_flat (l : List (Vec ℝ)) : flat (l.map lifted) ↔ flat l := by
  have key : ∀ a b c : Vec ℝ, ((((lifted a).sub ((lifted b).scl (lit 2))).add (lifted c)).lenSq >. lit 0.25) =
      (((a.sub (b.scl (lit 2))).add c).lenSq >. lit 0.25) := fun a b c => rfl
  constructor
  · intro h i a b c ha hb hc
    rw [← key]
    exact h i _ _ _ (by rw [List.getElem?_map, ha]; rfl) (by rw [List.getElem?_map, hb]; rfl) (by rw [List.getElem?_map, hc]; rfl)
  · intro h i a b c ha hb hc
    rw [List.getElem?_map] at ha hb hc
    obtain ⟨a, ha', rfl⟩ := Option.map_eq_some_iff.mp ha
    obtain ⟨b, hb', rfl⟩ := Option.map_eq_some_iff.mp hb
    obtain ⟨c, hc', rfl⟩ := Option.map_eq_some_iff.mp hc
    rw [key]
    exact h i _ _ _ ha' hb' hc'

theorem lifted_pieces (l : List (Vec ℝ)) : pieces (l.map lifted) = (pieces l).map lifted := by
  unfold pieces
  dsimp only
  rw [lifted_left, lifted_right, ← List.map_tail, ← List.map_append, List.length_map, List.map_append (f := lifted) (l₁ := List.take 1 l), List.map_take, List.map_map]
  congr 1
  refine List.map_congr_left fun i _ => ?_
  simp only [lifted_getD]
  rfl

theorem lifted_flattens {l r : List (Vec ℝ)} (h : Flattens l r) : Flattens (l.map lifted) (r.map lifted) := by
  induction h with
  | flat hf =>
    rw [← lifted_pieces]
    exact .flat ((lifted_flat _).mpr hf)
  | split hf _ _ ih1 ih2 =>
    rw [List.map_append]
    rw [← lifted_left] at ih1
    rw [← lifted_right] at ih2
    exact .split (mt (lifted_flat _).mp hf) ih1 ih2

theorem bezier_returns {ps : List (Vec (Option ℝ))} (h : ∀ v ∈ ps, Somewhere v) (hne : ps ≠ []) :
    ∃ N out, ∀ fuel ≥ N, approximateBezier fuel ps = .ok out := by
  obtain ⟨l, rfl⟩ := lifted_all h
  obtain ⟨n, hn⟩ := exists_smallDiff l
  obtain ⟨r, hr⟩ := flattens_of_smallDiff n l hn
  obtain ⟨m, hm⟩ := C35_complete hne (lifted_flattens hr)
  refine ⟨m, ?_⟩
  apply Exists.intro
  intro fuel hf
  unfold approximateBezier
  rw [hm fuel hf]
  rfl

theorem processBezier_returns {ps : List (Vec (Option ℝ))} (h : ∀ v ∈ ps, Somewhere v) :
    ∃ N out, ∀ fuel ≥ N, processBezier fuel ps = .ok out := by
  have key : ∀ k i last, last ≤ i → ∃ N out, ∀ fuel ≥ N, processBezierLoop fuel ps k i last = .ok out := by
    intro k
    induction k with
    | zero => exact fun i last _ => ⟨0, _, fun fuel _ => rfl⟩
    | succ k ih =>
      intro i last hi
      simp only [processBezierLoop]
      cases hp : ps[i]? with
      | none => exact ⟨0, _, fun fuel _ => rfl⟩
      | some p =>
        have hlt : i < ps.length := (List.getElem?_eq_some_iff.mp hp).1
        dsimp only
        generalize (decide (i + 2 < ps.length) && _) = multi
        by_cases hm : (multi || i + 1 == ps.length) = true
        · simp only [hm, if_true]
          obtain ⟨N2, o2, h2⟩ := ih ((if multi = true then i + 1 else i) + 1) (if multi = true then i + 1 else i) (Nat.le_succ _)
          have hsub : ∀ v ∈ (ps.drop last).take (i + 1 - last), Somewhere v := fun v hv =>
            h v (List.mem_of_mem_drop (List.mem_of_mem_take hv))
          have hne : (ps.drop last).take (i + 1 - last) ≠ [] := by
            intro he
            have := congrArg List.length he
            rw [List.length_take, List.length_drop, List.length_nil] at this
            omega
          obtain ⟨N1, o1, h1⟩ := bezier_returns hsub hne
          refine ⟨max N1 N2, ?_⟩
          split
          · apply Exists.intro
            intro fuel hf
            rw [h2 fuel (le_trans (le_max_right ..) hf)]
            rfl
          · apply Exists.intro
            intro fuel hf
            rw [h1 fuel (le_trans (le_max_left ..) hf), h2 fuel (le_trans (le_max_right ..) hf)]
            rfl
        · simp only [hm]
          exact ih (i + 1) last (by omega)
  exact key _ _ _ le_rfl

/-! ### Arcs -/

theorem unwind_lifted (start : ℝ) (fuel : ℕ) (e e' : ℝ) (h : CirArc.unwind start fuel e = .ok e') :
    CirArc.unwind (some start : Option ℝ) fuel (some e) = .ok (some e') := by
  induction fuel generalizing e with
  | zero => cases h
  | succ n ih =>
    rw [CirArc.unwind] at h ⊢
    have hc : ((some e : Option ℝ) <. some start) = (e <. start) := rfl
    rw [hc]
    split at h
    · rename_i hlt
      rw [if_pos hlt]
      exact ih _ h
    · rename_i hlt
      rw [if_neg hlt]
      cases h
      rfl

theorem seg_range {r T : ℝ} (r0 : 0 ≤ r) (r1 : r ≤ 13 * 10 ^ 12) (T0 : -(1 / 10 ^ 17) ≤ T) (T1 : T ≤ 6.3) :
    0 ≤ trunc (some (r * T * 0.125) : Option ℝ) ∧ 16 * trunc (some (r * T * 0.125) : Option ℝ) ≤ 281474976710656 := by
  show 0 ≤ (if _ < 0 then _ else _) ∧ 16 * (if _ < 0 then _ else _) ≤ _
  have up : r * T * 0.125 ≤ 13 * 10 ^ 12 * 6.3 * 0.125 := by
    have : r * T ≤ 13 * 10 ^ 12 * 6.3 := by
      calc r * T ≤ r * 6.3 := mul_le_mul_of_nonneg_left T1 r0
        _ ≤ _ := mul_le_mul_of_nonneg_right r1 (by norm_num)
    exact mul_le_mul_of_nonneg_right this (by norm_num)
  have low : -1 < r * T * 0.125 := by
    have : r * (-(1 / 10 ^ 17)) ≤ r * T := mul_le_mul_of_nonneg_left T0 r0
    norm_num at this r1 ⊢
    linarith
  split
  · rename_i hneg
    have : ⌈r * T * 0.125⌉ = 0 := by
      rw [Int.ceil_eq_iff]
      push_cast
      constructor <;> linarith
    rw [this]
    norm_num
  · rename_i hneg
    refine ⟨Int.floor_nonneg.mpr (not_lt.mp hneg), ?_⟩
    have : ⌊r * T * 0.125⌋ ≤ 10237500000000 := by
      rw [← Int.cast_le (R := ℝ)]
      refine (Int.floor_le _).trans (up.trans ?_)
      norm_num
    omega

theorem arc_made {a b c : Vec ℝ} (ha : |a.x| ≤ 1024 ∧ |a.y| ≤ 1024) (hb : |b.x| ≤ 1024 ∧ |b.y| ≤ 1024) (hc : |c.x| ≤ 1024 ∧ |c.y| ≤ 1024)
    (hs : Vec.isStraightLine (lifted a) (lifted b) (lifted c) = false) (fuel : ℕ) (hf : 3 ≤ fuel) :
    ∃ arc : CirArc (Option ℝ), CirArc.new (D := Option ℝ) fuel (lifted a) (lifted b) (lifted c) = .ok arc ∧
      ∃ r T : ℝ, arc.r = some r ∧ 0 ≤ r ∧ r ≤ 13 * 10 ^ 12 ∧ arc.totalAngle = some T ∧ -(1 / 10 ^ 17) ≤ T ∧ T ≤ 6.3 := by
  have hs' : 0.001 ≤ |(b.y - a.y) * (c.x - a.x) - (b.x - a.x) * (c.y - a.y)| := by
    rw [Vec.isStraightLine] at hs
    simp only [lifted, Math32.abs, Exact.sub, Exact.mul, Exact.up, Exact.down, Exact.abs, Exact.lit, Exact.lt, decide_eq_false_iff_not,
      not_lt] at hs
    norm_num at hs ⊢
    exact hs
  obtain ⟨d, hd⟩ : ∃ d, d = 2 * (a.x * (b.y - c.y) + b.x * (c.y - a.y) + c.x * (a.y - b.y)) := ⟨_, rfl⟩
  have hd1 : 0.002 ≤ |d| := by
    have : d = -(2 * ((b.y - a.y) * (c.x - a.x) - (b.x - a.x) * (c.y - a.y))) := by rw [hd]; ring
    rw [this, abs_neg, abs_mul, abs_two]
    linarith
  have hd0 : d ≠ 0 := by
    rintro rfl
    norm_num at hd1
  have hk : |1 / d| ≤ 500 := by
    rw [abs_div, abs_one, div_le_iff₀ (by linarith)]
    linarith
  have hsq : ∀ {v : Vec ℝ}, |v.x| ≤ 1024 ∧ |v.y| ≤ 1024 → |v.x * v.x + v.y * v.y| ≤ 2 ^ 21 := by
    intro v ⟨h1, h2⟩
    have e1 := abs_mul_abs_self v.x
    have e2 := abs_mul_abs_self v.y
    rw [abs_of_nonneg (by nlinarith [abs_nonneg v.x, abs_nonneg v.y])]
    nlinarith [abs_nonneg v.x, abs_nonneg v.y]
  have hdiff : ∀ {x y : ℝ}, |x| ≤ 1024 → |y| ≤ 1024 → |x - y| ≤ 2 ^ 11 := by
    intro x y h1 h2
    have := abs_sub x y
    linarith
  have hterm : ∀ {x y : ℝ}, |x| ≤ 2 ^ 21 → |y| ≤ 2 ^ 11 → |x * y| ≤ 2 ^ 32 := by
    intro x y h1 h2
    rw [abs_mul]
    calc |x| * |y| ≤ 2 ^ 21 * 2 ^ 11 := mul_le_mul h1 h2 (abs_nonneg _) (by positivity)
      _ = 2 ^ 32 := by norm_num
  have hsum : ∀ {x y z k : ℝ}, |x| ≤ 2 ^ 32 → |y| ≤ 2 ^ 32 → |z| ≤ 2 ^ 32 → |k| ≤ 500 → |(x + y + z) * k| ≤ 3 * 2 ^ 32 * 500 := by
    intro x y z k h1 h2 h3 h4
    rw [abs_mul]
    refine mul_le_mul ((abs_add_three x y z).trans (by linarith)) h4 (abs_nonneg _) (by positivity)
  obtain ⟨X, hX⟩ : ∃ X, X = ((a.x * a.x + a.y * a.y) * (b.y - c.y) + (b.x * b.x + b.y * b.y) * (c.y - a.y) +
      (c.x * c.x + c.y * c.y) * (a.y - b.y)) * (1 / d) := ⟨_, rfl⟩
  obtain ⟨Y, hY⟩ : ∃ Y, Y = ((a.x * a.x + a.y * a.y) * (c.x - b.x) + (b.x * b.x + b.y * b.y) * (a.x - c.x) +
      (c.x * c.x + c.y * c.y) * (b.x - a.x)) * (1 / d) := ⟨_, rfl⟩
  have bX : |X| ≤ 3 * 2 ^ 32 * 500 := by
    rw [hX]
    exact hsum (hterm (hsq ha) (hdiff hb.2 hc.2)) (hterm (hsq hb) (hdiff hc.2 ha.2)) (hterm (hsq hc) (hdiff ha.2 hb.2)) hk
  have bY : |Y| ≤ 3 * 2 ^ 32 * 500 := by
    rw [hY]
    exact hsum (hterm (hsq ha) (hdiff hc.1 hb.1)) (hterm (hsq hb) (hdiff ha.1 hc.1)) (hterm (hsq hc) (hdiff hb.1 ha.1)) hk
  obtain ⟨r, hr⟩ : ∃ r, r = Real.sqrt ((X - a.x) * (X - a.x) + (Y - a.y) * (Y - a.y)) := ⟨_, rfl⟩
  have r0 : 0 ≤ r := hr ▸ Real.sqrt_nonneg _
  have r1 : r ≤ 13 * 10 ^ 12 := by
    rw [hr]
    apply Real.sqrt_le_iff.mpr ⟨by norm_num, ?_⟩
    have h1 : |X - a.x| ≤ 65 * 10 ^ 11 := (abs_sub _ _).trans (by linarith [ha.1])
    have h2 : |Y - a.y| ≤ 65 * 10 ^ 11 := (abs_sub _ _).trans (by linarith [ha.2])
    have e1 := abs_mul_abs_self (X - a.x)
    have e2 := abs_mul_abs_self (Y - a.y)
    nlinarith [abs_nonneg (X - a.x), abs_nonneg (Y - a.y)]
  have hcentre : Vec.scl
      ⟨(lifted a).lenSq *. ((lifted b).y -. (lifted c).y) +. (lifted b).lenSq *. ((lifted c).y -. (lifted a).y) +.
        (lifted c).lenSq *. ((lifted a).y -. (lifted b).y),
       (lifted a).lenSq *. ((lifted c).x -. (lifted b).x) +. (lifted b).lenSq *. ((lifted a).x -. (lifted c).x) +.
        (lifted c).lenSq *. ((lifted b).x -. (lifted a).x)⟩
      (lit 1 /. (lit 2 *. ((lifted a).x *. ((lifted b).y -. (lifted c).y) +. (lifted b).x *. ((lifted c).y -. (lifted a).y) +.
        (lifted c).x *. ((lifted a).y -. (lifted b).y)))) = lifted ⟨X, Y⟩ := by
    have e : (lit 2 *. ((lifted a).x *. ((lifted b).y -. (lifted c).y) +. (lifted b).x *. ((lifted c).y -. (lifted a).y) +.
        (lifted c).x *. ((lifted a).y -. (lifted b).y)) : Option ℝ) = some d := by
      rw [hd]
      simp only [lifted, Exact.sub, Exact.mul, Exact.add, Exact.lit]
      norm_num
    rw [e, Exact.lit, Exact.div _ hd0, hX, hY]
    simp only [lifted, Vec.scl, Vec.lenSq, Exact.sub, Exact.mul, Exact.add]
    norm_num
  have hdst : (lifted a).dst (D := Option ℝ) (lifted ⟨X, Y⟩) = some r := by
    unfold Vec.dst Math32.sqrt
    simp only [lifted, Exact.mul, Exact.sub, Exact.add, Exact.up, Exact.down]
    rw [Exact.sqrt (by nlinarith [mul_self_nonneg (X - a.x), mul_self_nonneg (Y - a.y)]), hr]
  obtain ⟨s0, hs0⟩ : ∃ s, s = Complex.arg ⟨a.x - X, a.y - Y⟩ := ⟨_, rfl⟩
  obtain ⟨e0, he0⟩ : ∃ s, s = Complex.arg ⟨c.x - X, c.y - Y⟩ := ⟨_, rfl⟩
  have es : (lifted a).angleRV (D := Option ℝ) (lifted ⟨X, Y⟩) = some s0 := by rw [hs0]; rfl
  have ee : (lifted c).angleRV (D := Option ℝ) (lifted ⟨X, Y⟩) = some e0 := by rw [he0]; rfl
  obtain ⟨e1, hu, t0, t1, -⟩ := unwind_real (start := s0) (fuel - 3) e0 (he0 ▸ Complex.neg_pi_lt_arg _) (he0 ▸ Complex.arg_le_pi _)
    (hs0 ▸ Complex.neg_pi_lt_arg _) (hs0 ▸ Complex.arg_le_pi _)
  rw [show fuel - 3 + 3 = fuel by omega] at hu
  have hu' := unwind_lifted _ _ _ _ hu
  have hp := abs_lt.mp piConst_near
  have hpi := Real.pi_lt_d4
  unfold CirArc.new
  dsimp only
  rw [hcentre, hdst, es, ee, hu']
  dsimp only [bind, Except.bind]
  split
  · refine ⟨_, rfl, r, 2 * (piConst : ℝ) - (e1 - s0), rfl, r0, r1, ?_, ?_, ?_⟩
    · show (lit (2 * piConst) -. (some e1 -. some s0) : Option ℝ) = _
      rw [Exact.lit, Exact.sub, Exact.sub]
      norm_num
    · norm_num at hp t1 ⊢
      linarith
    · norm_num at hp hpi ⊢
      linarith
  · refine ⟨_, rfl, r, e1 - s0, rfl, r0, r1, rfl, ?_, ?_⟩
    · have : (0 : ℝ) < 1 / 10 ^ 17 := by positivity
      linarith
    · norm_num at t1 hpi ⊢
      linarith

theorem arc_returns {a b c : Vec ℝ} (ha : |a.x| ≤ 1024 ∧ |a.y| ≤ 1024) (hb : |b.x| ≤ 1024 ∧ |b.y| ≤ 1024) (hc : |c.x| ≤ 1024 ∧ |c.y| ≤ 1024)
    (hs : Vec.isStraightLine (lifted a) (lifted b) (lifted c) = false) (fuel : ℕ) (hf : 3 ≤ fuel) :
    ∃ out, approximateCircularArc (D := Option ℝ) fuel (lifted a) (lifted b) (lifted c) (lit 0.125) = .ok out := by
  obtain ⟨arc, hnew, r, T, har, r0, r1, hT, T0, T1⟩ := arc_made ha hb hc hs fuel hf
  unfold approximateCircularArc
  rw [hnew]
  dsimp only [bind, Except.bind]
  split
  · exact ⟨_, rfl⟩
  · have hseg : 0 ≤ trunc (arc.r *. arc.totalAngle *. lit 0.125 : Option ℝ) ∧
        16 * trunc (arc.r *. arc.totalAngle *. lit 0.125 : Option ℝ) ≤ 281474976710656 := by
      rw [har, hT, Exact.lit, Exact.mul, Exact.mul, show ((0.125 : ℚ) : ℝ) = 0.125 by norm_num]
      exact seg_range r0 r1 T0 T1
    unfold makeCheck
    rw [if_neg (by omega)]
    exact ⟨_, rfl⟩

theorem unwind_more {start : Option ℝ} : ∀ {n : ℕ} {e e' : Option ℝ}, CirArc.unwind start n e = .ok e' → ∀ m ≥ n, CirArc.unwind start m e = .ok e'
  | 0, _, _, h, _, _ => by cases h
  | n + 1, e, e', h, m, hm => by
    obtain ⟨m, rfl⟩ : ∃ k, m = k + 1 := ⟨m - 1, by omega⟩
    rw [CirArc.unwind] at h ⊢
    split at h
    · rename_i hlt
      rw [if_pos hlt]
      exact unwind_more h m (by omega)
    · rename_i hlt
      rw [if_neg hlt]
      exact h

theorem arc_more {a b c : Vec (Option ℝ)} {d : Option ℝ} {n : ℕ} {out : List (Linear (Option ℝ))}
    (h : approximateCircularArc (D := Option ℝ) n a b c d = .ok out) (m : ℕ) (hm : n ≤ m) :
    approximateCircularArc (D := Option ℝ) m a b c d = .ok out := by
  unfold approximateCircularArc at h ⊢
  obtain ⟨arc, h1, h2⟩ := bind_ok h
  have : CirArc.new (D := Option ℝ) m a b c = .ok arc := by
    unfold CirArc.new at h1 ⊢
    dsimp only at h1 ⊢
    obtain ⟨e, h3, h4⟩ := bind_ok h1
    rw [unwind_more h3 m hm]
    exact h4
  rw [this]
  exact h2

/-! ### Curves -/

theorem newT_returns {typ : Str} {p : Vec (Option ℝ)} {ps : List (Vec (Option ℝ))} (h : ∀ v ∈ p :: ps, Somewhere v)
    (harc : typ = ['P'] → ps.length = 2 → ∀ v ∈ p :: ps, ∃ x y : ℝ, v = ⟨some x, some y⟩ ∧ |x| ≤ 1024 ∧ |y| ≤ 1024) (len : Option ℝ) :
    ∃ N mc, ∀ fuel ≥ N, MultiCurve.newT fuel typ (p :: ps) len = .ok mc := by
  have key : ∃ N ls, ∀ fuel ≥ N, processType (D := Option ℝ) fuel typ (p :: ps) = .ok ls := by
    obtain ⟨N, o, hb⟩ := processBezier_returns h
    unfold processType
    split
    · rename_i ht
      unfold processPerfect
      split
      · exact ⟨N, o, hb⟩
      · split
        · rename_i a b c he
          cases hs : Vec.isStraightLine a b c with
          | true => exact ⟨0, _, fun _ _ => rfl⟩
          | false =>
            simp only [Bool.false_eq_true, if_false]
            have hall := harc ht (by have := congrArg List.length he; simpa using this)
            rw [he] at hall
            obtain ⟨a1, a2, rfl, ha⟩ := hall a (by simp)
            obtain ⟨b1, b2, rfl, hb⟩ := hall b (by simp)
            obtain ⟨c1, c2, rfl, hc⟩ := hall c (by simp)
            obtain ⟨out, ho⟩ := arc_returns (a := ⟨a1, a2⟩) (b := ⟨b1, b2⟩) (c := ⟨c1, c2⟩) ha hb hc hs 3 le_rfl
            exact ⟨3, out, arc_more ho⟩
        · exact ⟨0, _, fun _ _ => rfl⟩
    · split
      · exact ⟨0, _, fun _ _ => rfl⟩
      · split
        · exact ⟨N, o, hb⟩
        · split <;> exact ⟨0, _, fun _ _ => rfl⟩
  obtain ⟨N, ls, hN⟩ := key
  rcases newT_cases N typ p ps len with ⟨e, h1, -⟩ | ⟨-, mc, -, h2⟩
  · rw [hN N le_rfl] at h1
    cases h1
  · refine ⟨N, mc, fun fuel hf => ?_⟩
    unfold MultiCurve.newT at h2 ⊢
    rw [hN N le_rfl] at h2
    rw [hN fuel hf]
    exact h2

theorem created_slider {S D : Type} [GoFloat S] [GoFloat D] [GoConv S D] [GoLibm D] {fuel : Nat} {h : Head} {c : Char} {ps : List (Dec × Dec)} {r : Int}
    {len : Dec} (hg : File.GoodObject (.slider h c ps r len)) (hr1 : -1 ≤ r) (hr2 : r < 2 ^ 45) {mc : MultiCurve S}
    (hmc : MultiCurve.newT fuel [c] (⟨h.x.value, h.y.value⟩ :: ps.map (fun p => ⟨p.1.value, p.2.value⟩)) (len.value : D) = .ok mc) :
    ∃ o, createObject (S := S) (D := D) fuel (ObjectLine.slider h c ps r len).fields = .ok o := by
  have hpath := path_written (h := h) (ps := ps) (r := r) (len := len) hg.2.2.1
  have hfs : (ObjectLine.slider h c ps r len).fields =
      h.fields 2 ++ [join '|' ([c] :: ps.map (fun p => p.1.show ++ ':' :: p.2.show)), showInt r, len.show] := rfl
  have hpath' : split '|' (join '|' ([c] :: ps.map (fun p => p.1.show ++ ':' :: p.2.show))) =
      [c] :: ps.map (fun p => p.1.show ++ ':' :: p.2.show) := hpath
  rw [hfs, create_written (kind := 2) (by decide), if_neg (by decide), if_neg (by decide)]
  obtain ⟨ep, hep⟩ := MultiCurve.pointAt_ok mc (MultiCurve.newT_shaped hmc) (lit 1)
  obtain ⟨o, ho⟩ : ∃ o, newSlider (S := S) (D := D) fuel
      (h.fields 2 ++ [join '|' ([c] :: ps.map (fun p => p.1.show ++ ':' :: p.2.show)), showInt r, len.show]) = .ok o := by
    unfold newSlider
    rw [commonParse_written (by decide) h hg.2.1, ok_bind]
    have i7 : index (h.fields 2 ++ [join '|' ([c] :: ps.map (fun p => p.1.show ++ ':' :: p.2.show)), showInt r, len.show]) 7 = .ok len.show := rfl
    have i6 : index (h.fields 2 ++ [join '|' ([c] :: ps.map (fun p => p.1.show ++ ':' :: p.2.show)), showInt r, len.show]) 6 = .ok (showInt r) := rfl
    have i5 : index (h.fields 2 ++ [join '|' ([c] :: ps.map (fun p => p.1.show ++ ':' :: p.2.show)), showInt r, len.show]) 5 =
      .ok (join '|' ([c] :: ps.map (fun p => p.1.show ++ ':' :: p.2.show))) := rfl
    have i0 : index ([c] :: ps.map (fun p => p.1.show ++ ':' :: p.2.show)) 0 = .ok [c] := rfl
    have es : ∀ l : List Int, edgeSounds (h.fields 2 ++ [join '|' ([c] :: ps.map (fun p => p.1.show ++ ':' :: p.2.show)), showInt r, len.show]) l =
        .ok l := fun l => rfl
    have hs0 : (writtenBase (S := S) (D := D) h).startPosRaw = ⟨h.x.value, h.y.value⟩ := rfl
    dsimp only
    rw [i7, ok_bind, i6, ok_bind, i5, ok_bind, hpath', List.tail_cons, parsePoints_written, ok_bind, i0, ok_bind, parseFloat_show, hs0, hmc, ok_bind, hep,
      ok_bind]
    have hs1 : index (writtenBase (S := S) (D := D) h).sounds 0 = .ok h.sound := rfl
    rw [hs1, ok_bind]
    have hm : makeCheck 8 (addI64 (parseInt (showInt r)) 1) = .ok () := by
      rw [parseInt_showInt hg.2.2.2]
      rcases makeCheck_sounds r ⟨by omega, by omega⟩ with ⟨h1, -⟩ | ⟨-, h1, -⟩
      · omega
      · exact h1
    rw [hm, ok_bind, es, ok_bind]
    exact ⟨_, rfl⟩
  rw [ho]
  exact ⟨_, rfl⟩

/-- A slider record whose object can be made is read. -/
theorem line_read {S D : Type} [GoFloat S] [GoFloat D] [GoConv S D] [GoLibm D] {fuel : Nat} {f : List Str} (b : BeatMap S D) (hl : 4 ≤ f.length)
    (hk : Spec.lineKind f = .slider) {o} (ho : createObject (S := S) (D := D) fuel f = .ok o) : ∃ b', parseHitObjectLine fuel f b = .ok b' := by
  have i3 := index_get (l := f) (n := 3) (by omega)
  have i2 := index_get (l := f) (n := 2) (by omega)
  simp only [Nat.cast_ofNat] at i3 i2
  have hkind := lineKind_eq (List.getElem?_eq_getElem (l := f) (i := 3) (by omega))
  rw [hk] at hkind
  unfold parseHitObjectLine countObject parseHitObjects
  simp only [i3, ok_bind, ho]
  by_cases c1 : typeCircle (parseInt f[3]) = true
  · rw [if_pos c1] at hkind; cases hkind
  rw [if_neg c1] at hkind
  by_cases c2 : typeSpinner (parseInt f[3]) = true
  · rw [if_pos c2] at hkind; cases hkind
  rw [if_neg c2] at hkind
  by_cases c3 : typeSlider (parseInt f[3]) = true
  · simp only [c1, c2, c3, if_true, if_false, Bool.false_eq_true, i2, ok_bind, pure_bind]
    split <;> exact ⟨_, rfl⟩
  · rw [if_neg c3] at hkind
    split at hkind <;> cases hkind

/-- Lines are read when none is bad and the sliders can be made. -/
theorem lines_read {S D : Type} [GoFloat S] [GoFloat D] [GoConv S D] [GoLibm D] {fuel : Nat} {lines : List Str} {st : ParseState S D}
    (hb : ∀ p ∈ Spec.sectioned st.currentSection lines, ¬ Bad p ∧ ¬ SliderLine Spec.BadEdges p)
    (hc : ∀ p ∈ Spec.sectioned st.currentSection lines, ∀ f, Spec.fields p.2 = some f → p.1 = "HitObjects".toList → Spec.lineKind f = .slider →
      ∃ o, createObject (S := S) (D := D) fuel f = .ok o) :
    ∃ st', parseLines fuel lines st = .ok st' := by
  induction lines generalizing st with
  | nil => exact ⟨_, rfl⟩
  | cons l ls ih =>
    rw [parseLines]
    rw [Spec.sectioned] at hc hb
    cases hl : parseLine fuel st l with
    | error e =>
      exfalso
      rw [parseLine_eq] at hl
      cases hh : Spec.header l with
      | some s => rw [hh] at hl; cases hl
      | none =>
        rw [hh] at hl hc hb
        rcases parseInSection_cases fuel st.currentSection l { st with beatMap := parseFormat l st.beatMap } with
          ⟨h1, -⟩ | ⟨h0, ⟨e', -, -, f, h1, h2, h3, -⟩ | ⟨h1, -⟩ | ⟨-, st', e3, -⟩⟩
        · exact (hb _ (List.mem_cons_self ..)).1 h1
        · obtain ⟨o, ho⟩ := hc _ (List.mem_cons_self ..) f h1 h2 h3
          have h4 : 4 ≤ f.length := by
            by_contra hcon
            exact h0 ⟨f, h1, .inr ⟨h2, .inl (by omega)⟩⟩
          obtain ⟨b', hb'⟩ := line_read (parseFormat l st.beatMap) h4 h3 ho
          have hsec : st.currentSection = "HitObjects".toList := h2
          have hl' : parseInSection fuel st.currentSection l { st with beatMap := parseFormat l st.beatMap } = .error e := hl
          have ht : tokenize l = some f := by rw [tokenize_eq]; exact h1
          unfold parseInSection at hl'
          rw [hsec, if_neg (by decide), if_neg (by decide), if_neg (by decide), if_neg (by decide), if_neg (by decide), if_pos rfl, ht] at hl'
          dsimp only at hl'
          rw [hb'] at hl'
          cases hl'
        · exact (hb _ (List.mem_cons_self ..)).2 h1
        · rw [show parseInSection fuel st.currentSection l _ = .error e from hl] at e3
          cases e3
    | ok st' =>
      have hs := parseLine_section hl
      refine ih (st := st') ?_ ?_
      all_goals
        rw [hs]
        cases hh : Spec.header l with
        | some s =>
          rw [hh] at hc hb
          first | exact hb | exact hc
        | none =>
          rw [hh] at hc hb
          first | exact fun p hp => hb p (List.mem_cons_of_mem _ hp) | exact fun p hp => hc p (List.mem_cons_of_mem _ hp)

/-! ### Timing -/

theorem ticks_return {td cl md st sd : ℝ} {b n : Bool} (htd : 0 < td) : ∀ (k : ℕ) (d : ℝ), cl < d + k * td → ∀ fuel > k,
    ∃ ts, tickLoop (some td) (some cl) (some md) (some st : Option ℝ) (some sd) b n fuel (some d) = .ok ts
  | k, d, hk, 0, hf => absurd hf (by omega)
  | 0, d, hk, fuel + 1, hf => by
    unfold tickLoop
    rw [Exact.le, decide_eq_false (by simpa using hk)]
    exact ⟨_, rfl⟩
  | k + 1, d, hk, fuel + 1, hf => by
    unfold tickLoop
    split
    · split
      · exact ⟨_, rfl⟩
      · obtain ⟨ts, hts⟩ := ticks_return (cl := cl) (md := md) (st := st) (sd := sd) (b := b) (n := n) htd k (d + td) (by push_cast at hk; linarith) fuel (by omega)
        rw [Exact.add, hts]
        exact ⟨_, rfl⟩
    · exact ⟨_, rfl⟩

theorem lookup_some {t : Timings (Option ℝ)} (h : t.points ≠ []) (x : Option ℝ) : ∃ p ∈ t.points, t.getPointAt x = .ok p := by
  unfold Timings.getPointAt
  rw [pointAt_eq]
  have hlen : 0 < t.points.length := List.length_pos_iff.mpr h
  have hs := search_le t.points.length (fun i => (t.points[i]?).elim true (fun p => x <. p.time))
  generalize search t.points.length (fun i => (t.points[i]?).elim true (fun p => x <. p.time)) = n at hs
  obtain ⟨j, hj, hj'⟩ : ∃ j : ℕ, maxI 0 ((n : Int) - 1) = j ∧ j < t.points.length := by
    refine ⟨n - 1, ?_, by omega⟩
    unfold maxI
    split <;> omega
  rw [hj]
  refine ⟨t.points[j], List.getElem_mem hj', ?_⟩
  unfold index
  rw [if_neg (by omega), Int.toNat_natCast, List.getElem?_eq_getElem hj']

/-- The timing of a slider can be set. The bound on the steps depends on the distance of ticks, the length of the curve and the written
length. -/
theorem timing_returns {q cl px : ℝ} (hq : 0 < q) (hpx : 0 < px) :
    ∃ N, ∀ [GoSort], ∀ fuel ≥ N, ∀ (t : Timings (Option ℝ)) (b : HitObject (Option ℝ) (Option ℝ)) (s : SliderData (Option ℝ) (Option ℝ)),
      SoundTiming t → t.points ≠ [] → (∀ p ∈ t.points, ∃ d : ℝ, q ≤ d ∧ t.getTickDistance (Option ℝ) p = some d) → IsNumber b.startTime →
      s.multiCurve.Shaped → s.multiCurve.length = some cl → s.pixelLength = some px → ∃ o, setTiming fuel t b s = .ok o := by
  obtain ⟨N, hN⟩ := exists_nat_gt (cl / min q px)
  have hm : 0 < min q px := lt_min hq hpx
  rw [div_lt_iff₀ hm] at hN
  refine ⟨N + 1, fun fuel hf t b s h hne hstep ⟨st, hb⟩ hsh hcl hpxl => ?_⟩
  obtain ⟨p, hp, hat⟩ := lookup_some hne (some st)
  obtain ⟨v, v0, hv⟩ := (sound_moves h hp).1
  obtain ⟨d, hqd, hd⟩ := hstep p hp
  obtain ⟨td, htd, hle⟩ : ∃ td : ℝ, distance t p s = some td ∧ min q px ≤ td := by
    unfold distance
    rw [hd, hpxl]
    split
    · exact ⟨px, rfl, min_le_right _ _⟩
    · exact ⟨d, rfl, (min_le_left _ _).trans hqd⟩
  have hloop : ∀ k i, ∃ pts, spanLoop (args t p b s) fuel k i = .ok pts := by
    intro k
    induction k with
    | zero => exact fun i => ⟨_, rfl⟩
    | succ k ih =>
      intro i
      obtain ⟨rest, hr⟩ := ih (i + 1)
      obtain ⟨ts, hts⟩ : ∃ ts, spanTicks (args t p b s) fuel i = .ok ts := by
        unfold spanTicks args
        dsimp only
        simp only [htd, hb, hcl, hv, Exact.up, Exact.ofInt, Exact.lit 1000, Exact.lit 0.01, Exact.mul, Exact.div _ v0.ne', Exact.add]
        obtain ⟨ts, hts⟩ := ticks_return (td := td) (cl := cl) (md := v * ((0.01 : ℚ) : ℝ)) (st := st + i * (cl * ((1000 : ℚ) : ℝ) / v))
          (sd := cl * ((1000 : ℚ) : ℝ) / v) (b := i % 2 == 1) (n := GoFloat.isNaN p.beatLength) (lt_of_lt_of_le hm hle) N td (by
            have : (N : ℝ) * min q px ≤ N * td := mul_le_mul_of_nonneg_left hle (by positivity)
            have := lt_of_lt_of_le hm hle
            linarith) fuel (by omega)
        rw [hts]
        exact ⟨_, rfl⟩
      rw [spanLoop, hts, ok_bind, hr]
      exact ⟨_, rfl⟩
  obtain ⟨pts, hpts⟩ := hloop s.repeatCount.toNat 0
  obtain ⟨pos, hpos⟩ : ∃ pos, sliderPositionAt { b with endTime := (args t p b s).endTime }
        { s with tPoint := p, spanDuration := (args t p b s).spanDuration, scorePoints := s.scorePoints }
        (args t p b s).endTime = .ok pos := by
    unfold sliderPositionAt
    split
    · exact ⟨_, rfl⟩
    · exact MultiCurve.pointAt_ok _ hsh _
  exact ⟨_, setTiming_iff.mpr ⟨p, pts, pos, by rw [hb]; exact hat, hpts, hpos, rfl⟩⟩

/-! ### Written files -/

theorem uniform {α : Type} {P : α → ℕ → Prop} {l : List α} (h : ∀ x ∈ l, ∃ N, ∀ n ≥ N, P x n) : ∃ N, ∀ n ≥ N, ∀ x ∈ l, P x n := by
  induction l with
  | nil => exact ⟨0, fun _ _ x hx => by cases hx⟩
  | cons a l ih =>
    obtain ⟨N, hN⟩ := ih fun x hx => h x (List.mem_cons_of_mem _ hx)
    obtain ⟨M, hM⟩ := h a (List.mem_cons_self ..)
    refine ⟨max M N, fun n hn x hx => ?_⟩
    rcases List.mem_cons.mp hx with rfl | hx
    · exact hM n (le_trans (le_max_left ..) hn)
    · exact hN n (le_trans (le_max_right ..) hn) x hx

/-- The slider of a line can be made, and its timing can be set. -/
def Makes [GoSort] (q : ℝ) (fuel : ℕ) : ObjectLine → Prop
  | .slider h c ps r len => ∃ mc : MultiCurve (Option ℝ), MultiCurve.newT fuel [c]
      (⟨h.x.value, h.y.value⟩ :: ps.map (fun p => ⟨p.1.value, p.2.value⟩)) (len.value : Option ℝ) = .ok mc ∧
      ∀ (t : Timings (Option ℝ)) (b : HitObject (Option ℝ) (Option ℝ)) (s : SliderData (Option ℝ) (Option ℝ)),
        SoundTiming t → t.points ≠ [] → (∀ p ∈ t.points, ∃ d : ℝ, q ≤ d ∧ t.getTickDistance (Option ℝ) p = some d) → IsNumber b.startTime →
        s.multiCurve = mc → s.pixelLength = len.value → ∃ o, setTiming fuel t b s = .ok o
  | _ => True

theorem makes_written [GoSort] {f : File} (hf : EditedFile f) {q : ℝ} (hq : 0 < q) :
    ∃ N, ∀ fuel ≥ N, ∀ l ∈ f.objects, Makes q fuel l := by
  refine uniform fun l hl => ?_
  cases l with
  | circle h => exact ⟨0, fun _ _ => trivial⟩
  | spinner h e => exact ⟨0, fun _ _ => trivial⟩
  | slider h c ps r len =>
    have some_all : ∀ v ∈ (⟨h.x.value, h.y.value⟩ :: ps.map (fun p => ⟨p.1.value, p.2.value⟩) : List (Vec (Option ℝ))), Somewhere v := by
      intro v hv
      rcases List.mem_cons.mp hv with rfl | hv
      · exact ⟨_, _, by rw [value_amount, value_amount]⟩
      · obtain ⟨p, -, rfl⟩ := List.mem_map.mp hv
        exact ⟨_, _, by rw [value_amount, value_amount]⟩
    obtain ⟨N, mc, hN⟩ := newT_returns (typ := [c]) some_all (fun hc h2 => by
      cases hc
      obtain ⟨a, b, rfl⟩ : ∃ a b, ps = [a, b] := by
        match ps, h2 with
        | [a, b], _ => exact ⟨a, b, rfl⟩
      have := hf.arcs _ _ _ _ _ hl
      intro v hv
      obtain ⟨p, hp, rfl⟩ : ∃ p ∈ [(h.x, h.y), a, b], (⟨p.1.value, p.2.value⟩ : Vec (Option ℝ)) = v := by
        rcases List.mem_cons.mp hv with rfl | hv
        · exact ⟨(h.x, h.y), by simp, rfl⟩
        · obtain ⟨p, hp, rfl⟩ := List.mem_map.mp hv
          exact ⟨p, List.mem_cons_of_mem _ hp, rfl⟩
      obtain ⟨h1, h2⟩ := this p hp
      refine ⟨_, _, by rw [value_amount, value_amount], ?_, ?_⟩
      · exact_mod_cast h1
      · exact_mod_cast h2) len.value
    obtain ⟨cl, -, hcl⟩ := (newT_drawn some_all ⟨_, value_amount len⟩ (hN N le_rfl)).length
    obtain ⟨M, hM⟩ := timing_returns (cl := cl) (px := len.amount) hq (by exact_mod_cast (hf.lengths _ _ _ _ _ hl).1)
    refine ⟨max N M, fun fuel hfu => ⟨mc, hN fuel (le_trans (le_max_left ..) hfu), fun t b s h1 h2 h3 h4 h5 h6 => ?_⟩⟩
    subst h5
    exact hM fuel (le_trans (le_max_right ..) hfu) t b s h1 h2 h3 h4 (MultiCurve.newT_shaped (hN N le_rfl)) hcl (h6.trans (value_amount _))

end GosuPP.Exactly
