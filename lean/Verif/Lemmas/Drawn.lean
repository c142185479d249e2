import Verif.Spec.Drawn
import Verif.Lemmas.Curve
import Verif.Lemmas.Notes

/-!
# Lemmas about curves without undefined points
-/

namespace GosuPP.Exactly
open Go Spec
attribute [local instance] exactLibm

/-! ### Numbers -/

section
variable {x y : Option ℝ}

theorem num_lit (q : ℚ) : IsNumber (lit q) := ⟨_, rfl⟩
theorem num_ofInt (n : ℤ) : IsNumber (ofInt n) := ⟨_, rfl⟩
theorem num_add (hx : IsNumber x) (hy : IsNumber y) : IsNumber (x +. y) := by
  obtain ⟨a, rfl⟩ := hx
  obtain ⟨b, rfl⟩ := hy
  exact ⟨_, rfl⟩
theorem num_sub (hx : IsNumber x) (hy : IsNumber y) : IsNumber (x -. y) := by
  obtain ⟨a, rfl⟩ := hx
  obtain ⟨b, rfl⟩ := hy
  exact ⟨_, rfl⟩
theorem num_mul (hx : IsNumber x) (hy : IsNumber y) : IsNumber (x *. y) := by
  obtain ⟨a, rfl⟩ := hx
  obtain ⟨b, rfl⟩ := hy
  exact ⟨_, rfl⟩
theorem num_neg (hx : IsNumber x) : IsNumber (fneg x) := by
  obtain ⟨a, rfl⟩ := hx
  exact ⟨_, rfl⟩
theorem num_div (hx : IsNumber x) (hy : IsNumber y) (h : y ≠ some 0) : IsNumber (x /. y) := by
  obtain ⟨a, rfl⟩ := hx
  obtain ⟨b, rfl⟩ := hy
  exact ⟨_, Exact.div a (by simpa using h)⟩

end

theorem somewhere_iff {v : Vec (Option ℝ)} : Somewhere v ↔ IsNumber v.x ∧ IsNumber v.y := by
  constructor
  · rintro ⟨a, b, rfl⟩
    exact ⟨⟨a, rfl⟩, b, rfl⟩
  · rintro ⟨⟨a, ha⟩, b, hb⟩
    exact ⟨a, b, Vec.ext ha hb⟩

section
variable {v w : Vec (Option ℝ)}

theorem some_zero : Somewhere (Vec.zero : Vec (Option ℝ)) := somewhere_iff.mpr ⟨num_lit 0, num_lit 0⟩
theorem some_add (hv : Somewhere v) (hw : Somewhere w) : Somewhere (v.add w) := by
  rw [somewhere_iff] at hv hw ⊢
  exact ⟨num_add hv.1 hw.1, num_add hv.2 hw.2⟩
theorem some_sub (hv : Somewhere v) (hw : Somewhere w) : Somewhere (v.sub w) := by
  rw [somewhere_iff] at hv hw ⊢
  exact ⟨num_sub hv.1 hw.1, num_sub hv.2 hw.2⟩
theorem some_scl (hv : Somewhere v) {x : Option ℝ} (hx : IsNumber x) : Somewhere (v.scl x) := by
  rw [somewhere_iff] at hv ⊢
  exact ⟨num_mul hv.1 hx, num_mul hv.2 hx⟩
theorem some_lerp (hv : Somewhere v) (hw : Somewhere w) {x : Option ℝ} (hx : IsNumber x) : Somewhere (v.lerp w x) := by
  rw [somewhere_iff] at hv hw ⊢
  exact ⟨num_add (num_mul (num_sub hw.1 hv.1) hx) hv.1, num_add (num_mul (num_sub hw.2 hv.2) hx) hv.2⟩

/-- Distances are non-negative numbers. -/
theorem dst_num (hv : Somewhere v) (hw : Somewhere w) : ∃ r : ℝ, 0 ≤ r ∧ v.dst w = some r ∧ (r = 0 → v.eq w = true) := by
  obtain ⟨a, b, rfl⟩ := hv
  obtain ⟨a', b', rfl⟩ := hw
  refine ⟨Real.sqrt ((a' - a) * (a' - a) + (b' - b) * (b' - b)), Real.sqrt_nonneg _, ?_, fun h => ?_⟩
  · simp only [Vec.dst, Math32.sqrt, Exact.sub, Exact.mul, Exact.add, Exact.up, Exact.down]
    exact Exact.sqrt (add_nonneg (mul_self_nonneg _) (mul_self_nonneg _))
  · rw [Real.sqrt_eq_zero (add_nonneg (mul_self_nonneg _) (mul_self_nonneg _))] at h
    have h1 : a' - a = 0 := by nlinarith [mul_self_nonneg (a' - a), mul_self_nonneg (b' - b)]
    have h2 : b' - b = 0 := by nlinarith [mul_self_nonneg (a' - a), mul_self_nonneg (b' - b)]
    simp only [Vec.eq, Exact.eq, Bool.and_eq_true, decide_eq_true_eq]
    constructor <;> linarith

end

/-! ### Bezier curves -/

/-- All cells hold defined points. -/
def Clean (m : Mem (Option ℝ)) : Prop := ∀ b ∈ m, ∀ v ∈ b, Somewhere v

theorem clean_read {m : Mem (Option ℝ)} (h : Clean m) {a i : ℕ} {v} (e : m.read a i = .ok v) : Somewhere v := by
  unfold Mem.read at e
  cases hb : m[a]? with
  | none => rw [hb] at e; cases e
  | some b =>
    rw [hb] at e
    cases hv : b[i]? with
    | none => simp [hv] at e
    | some w =>
      simp only [hv, Except.ok.injEq] at e
      subst e
      exact h b (List.mem_of_getElem? hb) _ (List.mem_of_getElem? hv)

theorem clean_write {m m' : Mem (Option ℝ)} (h : Clean m) {a i : ℕ} {v} (hv : Somewhere v) (e : m.write a i v = .ok m') : Clean m' := by
  unfold Mem.write at e
  cases hb : m[a]? with
  | none => rw [hb] at e; cases e
  | some b =>
    simp only [hb] at e
    split at e
    · cases e
      intro c hc w hw
      rcases List.mem_or_eq_of_mem_set hc with hc | rfl
      · exact h c hc w hw
      · rcases List.mem_or_eq_of_mem_set hw with hw | rfl
        · exact h b (List.mem_of_getElem? hb) w hw
        · exact hv
    · cases e

open Approximator

theorem clean_copy (dst src : ℕ) : ∀ (k i : ℕ) {m m' : Mem (Option ℝ)}, Clean m → copyLoop dst src k i m = .ok m' → Clean m'
  | 0, _, _, _, h, e => by cases e; exact h
  | k + 1, i, m, m', h, e => by
    unfold copyLoop at e
    obtain ⟨v, hv, e⟩ := bind_ok e
    obtain ⟨m1, h1, e⟩ := bind_ok e
    exact clean_copy dst src k (i + 1) (clean_write h (clean_read h hv) h1) e

theorem clean_mid : ∀ (k i : ℕ) {m m' : Mem (Option ℝ)}, Clean m → midLoop k i m = .ok m' → Clean m'
  | 0, _, _, _, h, e => by cases e; exact h
  | k + 1, i, m, m', h, e => by
    unfold midLoop at e
    obtain ⟨v, hv, e⟩ := bind_ok e
    obtain ⟨w, hw, e⟩ := bind_ok e
    obtain ⟨m1, h1, e⟩ := bind_ok e
    exact clean_mid k (i + 1) (clean_write h (some_scl (some_add (clean_read h hv) (clean_read h hw)) (num_lit _)) h1) e

theorem clean_subLoop (count l r : ℕ) : ∀ (k i : ℕ) {m m' : Mem (Option ℝ)}, Clean m → subdivideLoop count l r k i m = .ok m' → Clean m'
  | 0, _, _, _, h, e => by cases e; exact h
  | k + 1, i, m, m', h, e => by
    unfold subdivideLoop at e
    obtain ⟨v, hv, e⟩ := bind_ok e
    obtain ⟨m1, h1, e⟩ := bind_ok e
    obtain ⟨w, hw, e⟩ := bind_ok e
    obtain ⟨m2, h2, e⟩ := bind_ok e
    obtain ⟨m3, h3, e⟩ := bind_ok e
    have c1 := clean_write h (clean_read h hv) h1
    have c2 := clean_write c1 (clean_read c1 hw) h2
    exact clean_subLoop count l r k (i + 1) (clean_mid _ _ c2 h3) e

theorem clean_subdivide {count cp l r : ℕ} {m m' : Mem (Option ℝ)} (h : Clean m) (e : subdivide count cp l r m = .ok m') : Clean m' := by
  unfold subdivide at e
  obtain ⟨m1, h1, e⟩ := bind_ok e
  exact clean_subLoop _ _ _ _ _ (clean_copy _ _ _ _ h h1) e

theorem clean_join (count l r : ℕ) : ∀ (k i : ℕ) {m m' : Mem (Option ℝ)}, Clean m → joinLoop count l r k i m = .ok m' → Clean m'
  | 0, _, _, _, h, e => by cases e; exact h
  | k + 1, i, m, m', h, e => by
    unfold joinLoop at e
    obtain ⟨v, hv, e⟩ := bind_ok e
    obtain ⟨m1, h1, e⟩ := bind_ok e
    exact clean_join count l r k (i + 1) (clean_write h (clean_read h hv) h1) e

theorem clean_emit (l : ℕ) : ∀ (k i : ℕ) {m : Mem (Option ℝ)} {out out'}, Clean m → (∀ v ∈ out, Somewhere v) →
    emitLoop l k i m out = .ok out' → ∀ v ∈ out', Somewhere v
  | 0, _, _, _, _, _, h, e => by cases e; exact h
  | k + 1, i, m, out, out', hm, h, e => by
    unfold emitLoop at e
    obtain ⟨u, hu, e⟩ := bind_ok e
    obtain ⟨v, hv, e⟩ := bind_ok e
    obtain ⟨w, hw, e⟩ := bind_ok e
    refine clean_emit l k (i + 1) hm (fun z hz => ?_) e
    rcases List.mem_append.mp hz with hz | hz
    · exact h z hz
    · rw [List.mem_singleton.mp hz]
      exact some_scl (some_add (some_add (clean_read hm hu) (some_scl (clean_read hm hv) (num_lit _))) (clean_read hm hw)) (num_lit _)

theorem clean_approximate {count cp : ℕ} {m m' : Mem (Option ℝ)} {out out'} (hm : Clean m) (h : ∀ v ∈ out, Somewhere v)
    (e : approximate count cp m out = .ok (m', out')) : Clean m' ∧ ∀ v ∈ out', Somewhere v := by
  unfold approximate at e
  obtain ⟨m1, h1, e⟩ := bind_ok e
  obtain ⟨m2, h2, e⟩ := bind_ok e
  obtain ⟨v, hv, e⟩ := bind_ok e
  obtain ⟨o, ho, e⟩ := bind_ok e
  have c2 := clean_join _ _ _ _ _ (clean_subdivide hm h1) h2
  obtain ⟨rfl, rfl⟩ := Prod.mk.inj (Except.ok.inj e)
  refine ⟨c2, clean_emit _ _ _ c2 (fun z hz => ?_) ho⟩
  rcases List.mem_append.mp hz with hz | hz
  · exact h z hz
  · rw [List.mem_singleton.mp hz]; exact clean_read c2 hv

theorem clean_step {count parent : ℕ} {st st' : State (Option ℝ)} (hm : Clean st.mem) (h : ∀ v ∈ st.out, Somewhere v)
    (e : step count parent st = .ok st') : Clean st'.mem ∧ ∀ v ∈ st'.out, Somewhere v := by
  unfold step at e
  cases hp : st.mem[parent]? with
  | none => rw [hp] at e; cases e
  | some cps =>
    simp only [hp] at e
    by_cases hf : isFlatEnough cps = true
    · rw [if_pos hf] at e
      obtain ⟨⟨m, o⟩, h1, e⟩ := bind_ok e
      cases e
      exact clean_approximate hm h h1
    · rw [if_neg hf] at e
      cases hfr : st.free with
      | cons b free =>
        simp only [hfr] at e
        obtain ⟨m1, h1, e⟩ := bind_ok e
        obtain ⟨m2, h2, e⟩ := bind_ok e
        cases e
        exact ⟨clean_copy _ _ _ _ (clean_subdivide hm h1) h2, h⟩
      | nil =>
        simp only [hfr] at e
        obtain ⟨m1, h1, e⟩ := bind_ok e
        obtain ⟨m2, h2, e⟩ := bind_ok e
        cases e
        refine ⟨clean_copy _ _ _ _ (clean_subdivide (fun b hb v hv => ?_) h1) h2, h⟩
        rcases List.mem_append.mp hb with hb | hb
        · exact hm b hb v hv
        · rw [List.mem_singleton.mp hb] at hv
          rw [List.eq_of_mem_replicate hv]
          exact some_zero

theorem clean_loop (count : ℕ) : ∀ (fuel : ℕ) {st st' : State (Option ℝ)}, Clean st.mem → (∀ v ∈ st.out, Somewhere v) →
    loop count fuel st = .ok st' → Clean st'.mem ∧ ∀ v ∈ st'.out, Somewhere v
  | 0, _, _, _, _, e => by cases e
  | fuel + 1, st, st', hm, h, e => by
    unfold loop at e
    cases ht : st.toFlatten with
    | nil => rw [ht] at e; cases e; exact ⟨hm, h⟩
    | cons p rest =>
      simp only [ht] at e
      obtain ⟨st1, h1, e⟩ := bind_ok e
      obtain ⟨c1, o1⟩ := clean_step (st := { st with toFlatten := rest }) hm h h1
      exact clean_loop count fuel c1 o1 e

theorem bezier_points {fuel : ℕ} {cps out : List (Vec (Option ℝ))} (h : ∀ v ∈ cps, Somewhere v) (e : createBezier fuel cps = .ok out) :
    ∀ v ∈ out, Somewhere v := by
  unfold createBezier at e
  obtain ⟨st, hst, e⟩ := bind_ok e
  cases e
  unfold createBezierState at hst
  split at hst
  · cases hst
  · obtain ⟨m, hm, hst⟩ := bind_ok hst
    obtain ⟨st1, h1, hst⟩ := bind_ok hst
    obtain ⟨last, hl, hst⟩ := bind_ok hst
    cases hst
    have c0 : Clean m := by
      refine clean_copy _ _ _ _ (fun b hb v hv => ?_) hm
      simp only [List.mem_cons, List.not_mem_nil, or_false] at hb
      rcases hb with rfl | rfl | rfl | rfl
      · rw [List.eq_of_mem_replicate hv]; exact some_zero
      · rw [List.eq_of_mem_replicate hv]; exact some_zero
      · exact h v hv
      · rw [List.eq_of_mem_replicate hv]; exact some_zero
    obtain ⟨c1, o1⟩ := clean_loop _ _ c0 (by simp) h1
    intro v hv
    rcases List.mem_append.mp hv with hv | hv
    · exact o1 v hv
    · rw [List.mem_singleton.mp hv]; exact clean_read c1 hl

/-! ### The lines of a curve -/

/-- The lines are between defined points. -/
def Lines (ls : List (Linear (Option ℝ))) : Prop := ∀ l ∈ ls, Somewhere l.p1 ∧ Somewhere l.p2

theorem lines_nil : Lines [] := by simp [Lines]
theorem lines_cons {l : Linear (Option ℝ)} {ls} (h1 : Somewhere l.p1) (h2 : Somewhere l.p2) (h : Lines ls) : Lines (l :: ls) := by
  intro l' hl'
  rcases List.mem_cons.mp hl' with rfl | hl'
  · exact ⟨h1, h2⟩
  · exact h l' hl'
theorem lines_append {ls ls'} (h : Lines ls) (h' : Lines ls') : Lines (ls ++ ls') := by
  intro l hl
  rcases List.mem_append.mp hl with hl | hl
  · exact h l hl
  · exact h' l hl

theorem lines_join : ∀ (ps : List (Vec (Option ℝ))), (∀ v ∈ ps, Somewhere v) → Lines (joinPoints ps)
  | [], _ => lines_nil
  | [_], _ => lines_nil
  | a :: b :: rest, h => lines_cons (h a (by simp)) (h b (by simp)) (lines_join (b :: rest) fun v hv => h v (List.mem_cons_of_mem _ hv))

theorem lines_linear : ∀ (ps : List (Vec (Option ℝ))), (∀ v ∈ ps, Somewhere v) → Lines (processLinear ps)
  | [], _ => lines_nil
  | [_], _ => lines_nil
  | a :: b :: rest, h => by
    have ih := lines_linear (b :: rest) fun v hv => h v (List.mem_cons_of_mem _ hv)
    unfold processLinear
    split
    · exact ih
    · exact lines_cons (h a (by simp)) (h b (by simp)) ih

theorem lines_bezierLoop (fuel : ℕ) {ps : List (Vec (Option ℝ))} (h : ∀ v ∈ ps, Somewhere v) :
    ∀ (k i j : ℕ) {ls}, processBezierLoop fuel ps k i j = .ok ls → Lines ls
  | 0, _, _, _, e => by cases e; exact lines_nil
  | k + 1, i, j, ls, e => by
    unfold processBezierLoop at e
    cases hp : ps[i]? with
    | none => rw [hp] at e; cases e; exact lines_nil
    | some p =>
      simp only [hp] at e
      have sub : ∀ v ∈ (ps.drop j).take (i + 1 - j), Somewhere v := fun v hv => h v (List.mem_of_mem_drop (List.mem_of_mem_take hv))
      have app : ∀ {ls}, approximateBezier fuel ((ps.drop j).take (i + 1 - j)) = .ok ls → Lines ls := by
        intro ls e
        unfold approximateBezier at e
        obtain ⟨out, ho, e⟩ := bind_ok e
        cases e
        exact lines_join _ (bezier_points sub ho)
      cases hq : ps[i + 1]? <;> simp only [hq] at e <;> split at e
      all_goals first
        | exact lines_bezierLoop fuel h _ _ _ e
        | split at e
          · rename_i a b hab
            rw [hab] at sub
            obtain ⟨l1, h1, e⟩ := bind_ok e
            cases h1
            obtain ⟨l2, h2, e⟩ := bind_ok e
            cases e
            exact lines_append (lines_cons (sub a (by simp)) (sub b (by simp)) lines_nil) (lines_bezierLoop fuel h _ _ _ h2)
          · obtain ⟨l1, h1, e⟩ := bind_ok e
            obtain ⟨l2, h2, e⟩ := bind_ok e
            cases e
            exact lines_append (app h1) (lines_bezierLoop fuel h _ _ _ h2)

theorem num_coord {a b c d t : Option ℝ} (ha : IsNumber a) (hb : IsNumber b) (hc : IsNumber c) (hd : IsNumber d) (ht : IsNumber t) :
    IsNumber (catmullCoord a b c d t) := by
  obtain ⟨a, rfl⟩ := ha
  obtain ⟨b, rfl⟩ := hb
  obtain ⟨c, rfl⟩ := hc
  obtain ⟨d, rfl⟩ := hd
  obtain ⟨t, rfl⟩ := ht
  exact ⟨_, rfl⟩

theorem some_catmull {a b c d : Vec (Option ℝ)} (ha : Somewhere a) (hb : Somewhere b) (hc : Somewhere c) (hd : Somewhere d) {t}
    (ht : IsNumber t) : Somewhere (catmullPoint a b c d t) := by
  rw [somewhere_iff] at ha hb hc hd ⊢
  exact ⟨num_coord ha.1 hb.1 hc.1 hd.1 ht, num_coord ha.2 hb.2 hc.2 hd.2 ht⟩

theorem lines_catmullLoop {a b c d : Vec (Option ℝ)} (ha : Somewhere a) (hb : Somewhere b) (hc : Somewhere c) (hd : Somewhere d) {n : ℤ}
    (hn : n ≠ 0) : ∀ (k : ℕ) (i : ℤ), Lines (catmullLoop a b c d n k i)
  | 0, _ => lines_nil
  | k + 1, i => by
    have q : ∀ i : ℤ, IsNumber ((ofInt i : Option ℝ) /. ofInt n) := fun i => num_div (num_ofInt _) (num_ofInt _) (by
      rw [Exact.ofInt]; simpa using hn)
    exact lines_cons (some_catmull ha hb hc hd (q _)) (some_catmull ha hb hc hd (q _)) (lines_catmullLoop ha hb hc hd hn k (i + 1))

theorem lines_processCatmull : ∀ (ps : List (Vec (Option ℝ))) (p : Vec (Option ℝ)), Somewhere p → (∀ v ∈ ps, Somewhere v) →
    Lines (processCatmullLoop p ps)
  | [], _, _, _ => lines_nil
  | [_], _, _, _ => lines_nil
  | a :: b :: rest, p, hp, h => by
    have h2 := h a (by simp)
    have h3 := h b (by simp)
    have ih := lines_processCatmull (b :: rest) a h2 fun v hv => h v (List.mem_cons_of_mem _ hv)
    unfold processCatmullLoop
    refine lines_append (lines_catmullLoop hp h2 h3 ?_ (by norm_num) _ _) ih
    cases rest with
    | nil => exact some_add h3 (some_sub h3 h2)
    | cons q rest => exact h q (by simp)

theorem lines_arcLoop {arc : CirArc (Option ℝ)} (h : ∀ t, IsNumber t → Somewhere (arc.pointAt t)) {n : ℤ} (hn : n ≠ 0) :
    ∀ (k : ℕ) (i : ℤ), Lines (arcLoop arc n k i)
  | 0, _ => lines_nil
  | k + 1, i => by
    have q : ∀ i : ℤ, IsNumber ((ofInt i : Option ℝ) /. ofInt n) := fun i => num_div (num_ofInt _) (num_ofInt _) (by
      rw [Exact.ofInt]; simpa using hn)
    exact lines_cons (h _ (q _)) (h _ (q _)) (lines_arcLoop h hn k (i + 1))

theorem num_unwind {s : Option ℝ} : ∀ (fuel : ℕ) {e e' : Option ℝ}, IsNumber e → CirArc.unwind s fuel e = .ok e' → IsNumber e'
  | 0, _, _, _, h => by cases h
  | fuel + 1, e, e', he, h => by
    unfold CirArc.unwind at h
    split at h
    · exact num_unwind fuel (num_add he (num_mul (num_lit _) (num_lit _))) h
    · cases h; exact he

theorem arc_somewhere {fuel : ℕ} {a b c : Vec (Option ℝ)} (ha : Somewhere a) (hb : Somewhere b) (hc : Somewhere c)
    (hst : Vec.isStraightLine a b c = false) {arc : CirArc (Option ℝ)} (e : CirArc.new fuel a b c = .ok arc) :
    ∀ t, IsNumber t → Somewhere (arc.pointAt t) := by
  obtain ⟨ax, ay, rfl⟩ := ha
  obtain ⟨bx, bY, rfl⟩ := hb
  obtain ⟨cx, cy, rfl⟩ := hc
  unfold CirArc.new at e
  dsimp only at e
  have hd : (2 : ℝ) * (ax * (bY - cy) + bx * (cy - ay) + cx * (ay - bY)) ≠ 0 := by
    intro h0
    have : (bY - ay) * (cx - ax) - (bx - ax) * (cy - ay) = 0 := by linarith
    rw [Vec.isStraightLine] at hst
    simp only [Math32.abs, Exact.sub, Exact.mul, Exact.up, Exact.down, Exact.abs, this, Exact.lit, Exact.lt, abs_zero] at hst
    norm_num at hst
  obtain ⟨x, hx⟩ : ∃ v : Vec (Option ℝ), v = Vec.scl
    ⟨(⟨some ax, some ay⟩ : Vec (Option ℝ)).lenSq *. (some bY -. some cy) +. (⟨some bx, some bY⟩ : Vec (Option ℝ)).lenSq *. (some cy -. some ay) +.
      (⟨some cx, some cy⟩ : Vec (Option ℝ)).lenSq *. (some ay -. some bY),
     (⟨some ax, some ay⟩ : Vec (Option ℝ)).lenSq *. (some cx -. some bx) +. (⟨some bx, some bY⟩ : Vec (Option ℝ)).lenSq *. (some ax -. some cx) +.
      (⟨some cx, some cy⟩ : Vec (Option ℝ)).lenSq *. (some bx -. some ax)⟩
      (lit 1 /. (lit 2 *. (some ax *. (some bY -. some cy) +. some bx *. (some cy -. some ay) +. some cx *. (some ay -. some bY)))) := ⟨_, rfl⟩
  have sx : Somewhere x := by
    rw [hx]
    refine some_scl ⟨_, _, rfl⟩ (num_div (num_lit 1) ⟨_, rfl⟩ ?_)
    show (some _ : Option ℝ) ≠ some 0
    intro h
    apply hd
    have := Option.some.inj h
    push_cast at this
    linarith
  rw [← hx] at e
  obtain ⟨u, hu, e⟩ := bind_ok e
  obtain ⟨x1, x2, rfl⟩ := sx
  obtain ⟨u, rfl⟩ := num_unwind fuel (e := Vec.angleRV ⟨some cx, some cy⟩ ⟨some x1, some x2⟩) ⟨_, rfl⟩ hu
  obtain ⟨r, -, hr, -⟩ := dst_num (v := ⟨some ax, some ay⟩) (w := ⟨some x1, some x2⟩) ⟨_, _, rfl⟩ ⟨_, _, rfl⟩
  rw [hr] at e
  rintro t ⟨t, rfl⟩
  split at e <;> (cases e; exact ⟨_, _, rfl⟩)

theorem lines_type {fuel : ℕ} {typ : Str} {ps : List (Vec (Option ℝ))} (h : ∀ v ∈ ps, Somewhere v) {ls}
    (e : processType fuel typ ps = .ok ls) : Lines ls := by
  have bez : ∀ {ls}, processBezier fuel ps = .ok ls → Lines ls := fun e => lines_bezierLoop fuel h _ _ _ e
  unfold processType at e
  split at e
  · unfold processPerfect at e
    split at e
    · exact bez e
    · split at e
      · rename_i a b c _
        split at e
        · cases e; exact lines_linear _ h
        · rename_i hst
          unfold approximateCircularArc at e
          obtain ⟨arc, harc, e⟩ := bind_ok e
          have hp := arc_somewhere (h a (by simp)) (h b (by simp)) (h c (by simp)) (by simpa using hst) harc
          split at e
          · cases e
            exact lines_cons (h a (by simp)) (h b (by simp)) (lines_cons (h b (by simp)) (h c (by simp)) lines_nil)
          · obtain ⟨-, -, e⟩ := bind_ok e
            cases e
            by_cases hz : trunc (arc.r *. arc.totalAngle *. lit 0.125) = 0
            · rw [hz]; exact lines_nil
            · exact lines_arcLoop hp hz _ _
      · cases e; exact lines_linear _ h
  · split at e
    · cases e; exact lines_linear _ h
    · split at e
      · exact bez e
      · split at e
        · cases e
          unfold processCatmull
          cases ps with
          | nil => exact lines_nil
          | cons p rest => exact lines_processCatmull _ p (h p (by simp)) h
        · cases e; exact lines_nil

theorem lines_trim : ∀ (ls : List (Linear (Option ℝ))) (d : Option ℝ), Lines ls → IsNumber d → Lines (MultiCurve.trimRev ls d)
  | [], _, _, _ => lines_nil
  | l :: ls, d, h, hd => by
    obtain ⟨h1, h2⟩ := h l (by simp)
    have hls : Lines ls := fun l' hl' => h l' (List.mem_cons_of_mem _ hl')
    obtain ⟨r, hr0, hr, hz⟩ := dst_num h1 h2
    have hg : l.getLength = some r := hr
    unfold MultiCurve.trimRev
    rw [hg]
    split
    · split
      · exact lines_cons h1 h2 hls
      · rename_i heq
        refine lines_cons h1 (some_lerp h1 h2 (num_div (num_sub ⟨r, rfl⟩ hd) ⟨r, rfl⟩ fun h => ?_)) hls
        exact heq (hz (Option.some.inj h))
    · exact lines_trim ls _ hls (num_sub hd ⟨r, rfl⟩)

theorem total_num {ls : List (Linear (Option ℝ))} (h : Lines ls) : ∃ r : ℝ, 0 ≤ r ∧ MultiCurve.totalLength ls = some r := by
  unfold MultiCurve.totalLength
  have key : ∀ (ls : List (Linear (Option ℝ))) (s : ℝ), Lines ls → 0 ≤ s →
      ∃ r : ℝ, 0 ≤ r ∧ ls.foldl (fun acc l => acc +. l.getLength) (some s) = some r := by
    intro ls
    induction ls with
    | nil => exact fun s _ hs => ⟨s, hs, rfl⟩
    | cons l ls ih =>
      intro s h hs
      obtain ⟨r, hr0, hr, -⟩ := dst_num (h l (by simp)).1 (h l (by simp)).2
      have hg : l.getLength = some r := hr
      rw [List.foldl_cons, hg, Exact.add]
      exact ih _ (fun l' hl' => h l' (List.mem_cons_of_mem _ hl')) (by linarith)
  have h0 : (lit 0 : Option ℝ) = some 0 := by rw [Exact.lit]; norm_num
  rw [h0]
  exact key ls 0 h le_rfl

theorem sections_num : ∀ (ls : List (Linear (Option ℝ))) (s : Option ℝ), Lines ls → IsNumber s →
    (MultiCurve.sectionsFrom s ls).length = ls.length ∧ ∀ x ∈ MultiCurve.sectionsFrom s ls, IsNumber x
  | [], _, _, _ => ⟨rfl, by simp [MultiCurve.sectionsFrom]⟩
  | l :: ls, s, h, hs => by
    obtain ⟨r, -, hr, -⟩ := dst_num (h l (by simp)).1 (h l (by simp)).2
    have hg : IsNumber (s +. l.getLength) := num_add hs ⟨r, hr⟩
    obtain ⟨i1, i2⟩ := sections_num ls _ (fun l' hl' => h l' (List.mem_cons_of_mem _ hl')) hg
    refine ⟨by simp [MultiCurve.sectionsFrom, i1], fun x hx => ?_⟩
    rcases List.mem_cons.mp hx with rfl | hx
    · exact hg
    · exact i2 x hx

theorem newT_drawn {fuel : ℕ} {typ : Str} {ps : List (Vec (Option ℝ))} (h : ∀ v ∈ ps, Somewhere v) {len : Option ℝ} (hl : IsNumber len)
    {mc : MultiCurve (Option ℝ)} (e : MultiCurve.newT fuel typ ps len = .ok mc) : Drawn mc := by
  unfold MultiCurve.newT at e
  obtain ⟨ls, hls, e⟩ := bind_ok e
  obtain ⟨p, hp, e⟩ := bind_ok e
  have hL := lines_type h hls
  have key : ∀ ls' : List (Linear (Option ℝ)), Lines ls' →
      Drawn { lines := ls', firstPoint := p, length := MultiCurve.totalLength ls', sections := MultiCurve.mkSections ls' } := by
    intro ls' h'
    obtain ⟨i1, i2⟩ := sections_num ls' _ h' (num_lit 0)
    refine ⟨?_, h', by simp [MultiCurve.mkSections, i1], ?_, total_num h'⟩
    · cases ps with
      | nil => cases hp
      | cons q rest => cases hp; exact h _ (by simp)
    · intro s hs
      rcases List.mem_cons.mp hs with rfl | hs
      · exact num_lit 0
      · exact i2 s hs
  obtain ⟨r, -, hr⟩ := total_num hL
  cases e
  refine key _ ?_
  split
  · have := lines_trim ls.reverse (up (MultiCurve.totalLength ls) -. len) (fun l hl => hL l (List.mem_reverse.mp hl)) (num_sub ⟨r, hr⟩ hl)
    exact fun l hl => this l (List.mem_reverse.mp hl)
  · exact hL

end GosuPP.Exactly
