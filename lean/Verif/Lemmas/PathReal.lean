import Verif.Lemmas.CurveReal
import Verif.Lemmas.Bezier

/-! Slider paths are connected, in exact arithmetic. -/

namespace GosuPP
open Go MultiCurve

theorem connected_append {s : Vec ℝ} {a b : List (Linear ℝ)} :
    Spec.Connected s (a ++ b) ↔ Spec.Connected s a ∧ Spec.Connected (Spec.pathEnd s a) b := by
  induction a generalizing s with
  | nil => simp [Spec.Connected, Spec.pathEnd]
  | cons l ls ih =>
    show l.p1 = s ∧ Spec.Connected l.p2 (ls ++ b) ↔
      (l.p1 = s ∧ Spec.Connected l.p2 ls) ∧ Spec.Connected (Spec.pathEnd l.p2 ls) b
    rw [ih, and_assoc]

theorem pathEnd_append {s : Vec ℝ} {a b : List (Linear ℝ)} :
    Spec.pathEnd s (a ++ b) = Spec.pathEnd (Spec.pathEnd s a) b := by
  induction a generalizing s with
  | nil => rfl
  | cons l ls ih => exact ih

/-- The lines lead from `a` to `b`. -/
def Leads (a b : Vec ℝ) (ls : List (Linear ℝ)) : Prop := Spec.Connected a ls ∧ Spec.pathEnd a ls = b

theorem Leads.append {a b c : Vec ℝ} {l m : List (Linear ℝ)} (h : Leads a b l) (h' : Leads b c m) :
    Leads a c (l ++ m) :=
  ⟨connected_append.mpr ⟨h.1, by rw [h.2]; exact h'.1⟩, by rw [pathEnd_append, h.2, h'.2]⟩

theorem Leads.nil (a : Vec ℝ) : Leads a a [] := ⟨trivial, rfl⟩

theorem joinPoints_leads (a : Vec ℝ) (l : List (Vec ℝ)) :
    Leads a ((a :: l).getLast (by simp)) (joinPoints (a :: l)) := by
  induction l generalizing a with
  | nil => exact Leads.nil a
  | cons b t ih =>
    rw [joinPoints]
    have h := ih b
    refine ⟨⟨rfl, h.1⟩, ?_⟩
    rw [List.getLast_cons (by simp)]
    exact h.2

theorem processLinear_leads (a : Vec ℝ) (l : List (Vec ℝ)) :
    Leads a ((a :: l).getLast (by simp)) (processLinear (a :: l)) := by
  induction l generalizing a with
  | nil => exact Leads.nil a
  | cons b t ih =>
    rw [processLinear]
    have h := ih b
    rw [List.getLast_cons (by simp)]
    split
    · rename_i he
      rw [vec_eq_real] at he
      subst he
      exact h
    · exact ⟨⟨rfl, h.1⟩, h.2⟩

/-- What `ApproximateBezier` returns. -/
theorem approximateBezier_out {S : Type} [GoFloat S] {fuel : Nat} {cps : List (Vec S)} {ls : List (Linear S)}
    (h : approximateBezier fuel cps = .ok ls) : ∃ (hne : cps ≠ []) (l : List (Vec S)), Spec.Flattens cps l ∧
      ls = joinPoints (l ++ [cps.getLast hne]) := by
  unfold approximateBezier Approximator.createBezier at h
  obtain ⟨out, h1, h⟩ := bind_ok h
  obtain ⟨st, h2, h1⟩ := bind_ok h1
  cases h1
  cases h
  by_cases hne : cps = []
  · subst hne
    simp [Approximator.createBezierState] at h2
  refine ⟨hne, ?_⟩
  have key := Approximator.createBezierState_ok hne fuel
  cases ha : Approximator.absLoop fuel [cps] [] with
  | none => rw [key.2 ha] at h2; cases h2
  | some res =>
    obtain ⟨st', h3, h4, -⟩ := key.1 res ha
    rw [h3] at h2
    cases h2
    obtain ⟨l, hf, hr⟩ := Approximator.absLoop_sound fuel _ _ _ ha
    cases hf with
    | cons hc hn =>
      cases hn
      simp only [List.nil_append, List.flatten_cons, List.flatten_nil, List.append_nil] at hr
      subst hr
      exact ⟨res, hc, by rw [h4]⟩

theorem approximateBezier_leads {fuel : Nat} {a : Vec ℝ} {l : List (Vec ℝ)} {ls : List (Linear ℝ)}
    (h : approximateBezier fuel (a :: l) = .ok ls) : Leads a ((a :: l).getLast (by simp)) ls := by
  obtain ⟨hne, out, hf, rfl⟩ := approximateBezier_out h
  have hh := Approximator.flattens_head hf hne
  cases out with
  | nil => cases hh
  | cons x t =>
    simp only [List.head?_cons, Option.some.injEq] at hh
    subst hh
    have := joinPoints_leads x (t ++ [(x :: l).getLast hne])
    rw [List.cons_append]
    have e : (x :: (t ++ [(x :: l).getLast hne])).getLast (by simp) = (x :: l).getLast (by simp) := by simp
    rw [e] at this
    exact this

theorem getLast_drop_take {α : Type} (l : List α) {i j : ℕ} (hij : i ≤ j) (hj : j < l.length)
    (hne : (l.drop i).take (j + 1 - i) ≠ []) : ((l.drop i).take (j + 1 - i)).getLast hne = l[j] := by
  rw [List.getLast_eq_getElem, List.getElem_take, List.getElem_drop]
  congr 1
  rw [List.length_take, List.length_drop]
  omega

/-- A red point: the next point is the same and not the last one. -/
def isMulti {S : Type} [GoFloat S] (points : List (Vec S)) (i : ℕ) (p : Vec S) : Bool :=
  decide (i + 2 < points.length) && (match points[i + 1]? with | some q => p.eq q | none => false)

theorem processBezierLoop_step {S : Type} [GoFloat S] {fuel : Nat} {points : List (Vec S)} {k i last : Nat} {p : Vec S}
    (hp : points[i]? = some p) :
    processBezierLoop fuel points (k + 1) i last =
      if isMulti points i p || i + 1 == points.length then do
        let ls ← match (points.drop last).take (i + 1 - last) with
          | [a, b] => pure [⟨a, b⟩]
          | _ => approximateBezier fuel ((points.drop last).take (i + 1 - last))
        let rest ← processBezierLoop fuel points k ((if isMulti points i p then i + 1 else i) + 1)
          (if isMulti points i p then i + 1 else i)
        return ls ++ rest
      else processBezierLoop fuel points k (i + 1) last := by
  rw [processBezierLoop, hp]
  simp only
  unfold isMulti
  generalize (points.drop last).take (i + 1 - last) = sub
  cases points[i + 1]? <;>
  · rcases sub with _ | ⟨a, _ | ⟨b, _ | ⟨c, t⟩⟩⟩ <;> rfl

theorem processBezierLoop_leads {fuel : Nat} (points : List (Vec ℝ)) (k i last : Nat) (hk : points.length ≤ i + k)
    (hi : i < points.length) (hl : last ≤ i) {ls : List (Linear ℝ)}
    (h : processBezierLoop fuel points k i last = .ok ls) :
    Leads (points[last]'(by omega)) (points.getLast (by rintro rfl; simp at hi)) ls := by
  induction k generalizing i last ls with
  | zero => omega
  | succ k ih =>
    rw [processBezierLoop_step (List.getElem?_eq_getElem hi)] at h
    generalize hm : isMulti points i points[i] = multi at h
    unfold isMulti at hm
    split at h
    · rename_i hc
      have hne : (points.drop last).take (i + 1 - last) ≠ [] := by
        intro he
        have := congrArg List.length he
        simp only [List.length_take, List.length_drop, List.length_nil] at this
        omega
      have hlast := getLast_drop_take points hl hi hne
      have hhead : ((points.drop last).take (i + 1 - last)).head hne = points[last]'(by omega) := by
        rw [List.head_eq_getElem, List.getElem_take, List.getElem_drop]
        congr 1
      have hseg : ∀ ls' : List (Linear ℝ),
          (match (points.drop last).take (i + 1 - last) with
            | [a, b] => (pure [⟨a, b⟩] : Result (List (Linear ℝ)))
            | _ => approximateBezier fuel ((points.drop last).take (i + 1 - last))) = .ok ls' →
          Leads (points[last]'(by omega)) points[i] ls' := by
        intro ls' h'
        rw [← hlast, ← hhead]
        generalize (points.drop last).take (i + 1 - last) = sub at h' hne
        match sub, h' with
        | [], _ => exact absurd rfl hne
        | [a, b], h' =>
          cases h'
          exact ⟨⟨rfl, trivial⟩, rfl⟩
        | [a], h' => exact approximateBezier_leads h'
        | a :: b :: c :: t, h' => exact approximateBezier_leads h'
      have hrest : ∀ rest : List (Linear ℝ),
          processBezierLoop fuel points k ((if multi = true then i + 1 else i) + 1) (if multi = true then i + 1 else i) =
            .ok rest → Leads points[i] (points.getLast (by rintro rfl; simp at hi)) rest := by
        intro rest h'
        by_cases hmul : multi = true
        · subst hmul
          simp only [if_true] at h'
          simp only [Bool.and_eq_true, decide_eq_true_eq] at hm
          have h1 : i + 1 < points.length := by omega
          have heq : points[i] = points[i + 1] := by
            have := hm.2
            rw [List.getElem?_eq_getElem h1] at this
            exact vec_eq_real.mp this
          rw [heq]
          exact ih (i + 1 + 1) (i + 1) (by omega) (by omega) (by omega) h'
        · have hf : multi = false := by simpa using hmul
          subst hf
          simp only [Bool.false_or, beq_iff_eq] at hc
          simp only [Bool.false_eq_true, if_false] at h'
          have hnil : rest = [] := by
            cases k with
            | zero => cases h'; rfl
            | succ k =>
              rw [processBezierLoop, List.getElem?_eq_none (by omega)] at h'
              cases h'
              rfl
          subst hnil
          have : points.getLast (by rintro rfl; simp at hi) = points[i] := by
            rw [List.getLast_eq_getElem]
            congr 1
            omega
          rw [this]
          exact Leads.nil _
      simp only at h
      split at h
      · rename_i a b he
        obtain ⟨ls', h1, h⟩ := bind_ok h
        obtain ⟨rest, h2, h⟩ := bind_ok h
        cases h
        refine Leads.append (hseg ls' ?_) (hrest rest h2)
        rw [he]
        exact h1
      · rename_i he
        obtain ⟨ls', h1, h⟩ := bind_ok h
        obtain ⟨rest, h2, h⟩ := bind_ok h
        cases h
        refine Leads.append (hseg ls' ?_) (hrest rest h2)
        split
        · rename_i a b he'
          exact absurd he' (he a b)
        · exact h1
    · rename_i hc
      simp only [Bool.or_eq_true, beq_iff_eq, not_or] at hc
      exact ih (i + 1) last (by omega) (by omega) (by omega) h

theorem processBezier_leads {fuel : Nat} {a : Vec ℝ} {l : List (Vec ℝ)} {ls : List (Linear ℝ)}
    (h : processBezier fuel (a :: l) = .ok ls) : Leads a ((a :: l).getLast (by simp)) ls :=
  processBezierLoop_leads (a :: l) _ 0 0 (by simp) (by simp) (le_refl _) h

theorem catmullCoord_zero (a b c d : ℝ) : catmullCoord a b c d 0 = b := by
  show (lit 0.5 : ℝ) * ((lit 2 : ℝ) * b + (-a + c) * 0 + ((lit 2 : ℝ) * a - (lit 5 : ℝ) * b + (lit 4 : ℝ) * c - d) * (0 * 0) +
    (-a + (lit 3 : ℝ) * b - (lit 3 : ℝ) * c + d) * (0 * (0 * 0))) = b
  simp only [RealArith.lit]
  push_cast
  ring

theorem catmullCoord_one (a b c d : ℝ) : catmullCoord a b c d 1 = c := by
  show (lit 0.5 : ℝ) * ((lit 2 : ℝ) * b + (-a + c) * 1 + ((lit 2 : ℝ) * a - (lit 5 : ℝ) * b + (lit 4 : ℝ) * c - d) * (1 * 1) +
    (-a + (lit 3 : ℝ) * b - (lit 3 : ℝ) * c + d) * (1 * (1 * 1))) = c
  simp only [RealArith.lit]
  push_cast
  ring

theorem catmullLoop_leads (p1 p2 p3 p4 : Vec ℝ) (detail : Int) (k : Nat) (i : Int) :
    Leads (catmullPoint p1 p2 p3 p4 ((i : ℝ) / (detail : ℝ))) (catmullPoint p1 p2 p3 p4 (((i + k : Int) : ℝ) / (detail : ℝ)))
      (catmullLoop p1 p2 p3 p4 detail k i) := by
  induction k generalizing i with
  | zero =>
    simp only [Nat.cast_zero, add_zero]
    exact Leads.nil _
  | succ k ih =>
    rw [catmullLoop]
    have h := ih (i + 1)
    have e : i + 1 + (k : Int) = i + ((k + 1 : ℕ) : Int) := by push_cast; ring
    rw [e] at h
    exact ⟨⟨rfl, h.1⟩, h.2⟩

theorem approximateCatmullRom_leads (p1 p2 p3 p4 : Vec ℝ) : Leads p2 p3 (approximateCatmullRom p1 p2 p3 p4) := by
  have h := catmullLoop_leads p1 p2 p3 p4 50 50 0
  have e0 : ((0 : Int) : ℝ) / ((50 : Int) : ℝ) = 0 := by norm_num
  have e1 : ((0 + ((50 : ℕ) : Int) : Int) : ℝ) / ((50 : Int) : ℝ) = 1 := by norm_num
  rw [e0, e1] at h
  have h0 : catmullPoint p1 p2 p3 p4 0 = p2 := by
    unfold catmullPoint
    rw [catmullCoord_zero, catmullCoord_zero]
  have h1 : catmullPoint p1 p2 p3 p4 1 = p3 := by
    unfold catmullPoint
    rw [catmullCoord_one, catmullCoord_one]
  rw [h0, h1] at h
  exact h

theorem processCatmullLoop_leads (p a : Vec ℝ) (l : List (Vec ℝ)) :
    Leads a ((a :: l).getLast (by simp)) (processCatmullLoop p (a :: l)) := by
  induction l generalizing p a with
  | nil => exact Leads.nil a
  | cons b t ih =>
    unfold processCatmullLoop
    rw [List.getLast_cons (by simp)]
    exact (approximateCatmullRom_leads _ _ _ _).append (ih a b)

theorem arcLoop_leads (arc : CirArc ℝ) (segments : Int) (k : Nat) (i : Int) :
    Leads (arc.pointAt (D := ℝ) ((i : ℝ) / (segments : ℝ))) (arc.pointAt (D := ℝ) (((i + k : Int) : ℝ) / (segments : ℝ)))
      (arcLoop (D := ℝ) arc segments k i) := by
  induction k generalizing i with
  | zero =>
    simp only [Nat.cast_zero, add_zero]
    exact Leads.nil _
  | succ k ih =>
    rw [arcLoop]
    have h := ih (i + 1)
    have e : i + 1 + (k : Int) = i + ((k + 1 : ℕ) : Int) := by push_cast; ring
    rw [e] at h
    exact ⟨⟨rfl, h.1⟩, h.2⟩

/-- Polar coordinates around `c`. -/
theorem polar (a c : Vec ℝ) :
    (Vec.ofRad (D := ℝ) (a.angleRV (D := ℝ) c) (a.dst (D := ℝ) c)).add c = a := by
  have hz : ‖(⟨a.x - c.x, a.y - c.y⟩ : ℂ)‖ = Real.sqrt ((c.x - a.x) * (c.x - a.x) + (c.y - a.y) * (c.y - a.y)) := by
    rw [Complex.norm_eq_sqrt_sq_add_sq]
    congr 1
    simp only
    ring
  have h1 := Complex.norm_mul_cos_arg (⟨a.x - c.x, a.y - c.y⟩ : ℂ)
  have h2 := Complex.norm_mul_sin_arg (⟨a.x - c.x, a.y - c.y⟩ : ℂ)
  rw [hz] at h1 h2
  simp only at h1 h2
  apply Vec.ext
  · show Real.cos (Complex.arg ⟨a.x - c.x, a.y - c.y⟩) *
      Real.sqrt ((c.x - a.x) * (c.x - a.x) + (c.y - a.y) * (c.y - a.y)) + c.x = a.x
    linarith
  · show Real.sin (Complex.arg ⟨a.x - c.x, a.y - c.y⟩) *
      Real.sqrt ((c.x - a.x) * (c.x - a.x) + (c.y - a.y) * (c.y - a.y)) + c.y = a.y
    linarith

theorem arc_new_spec {fuel : Nat} {a b c : Vec ℝ} {arc : CirArc ℝ} (h : CirArc.new (D := ℝ) fuel a b c = .ok arc) :
    arc.r = a.dst (D := ℝ) arc.centre ∧ arc.startAngle = a.angleRV (D := ℝ) arc.centre := by
  unfold CirArc.new at h
  simp only at h
  obtain ⟨e, -, h⟩ := bind_ok h
  split at h
  · cases h; exact ⟨rfl, rfl⟩
  · cases h; exact ⟨rfl, rfl⟩

theorem arc_start {fuel : Nat} {a b c : Vec ℝ} {arc : CirArc ℝ} (h : CirArc.new (D := ℝ) fuel a b c = .ok arc) :
    arc.pointAt (D := ℝ) 0 = a := by
  obtain ⟨h1, h2⟩ := arc_new_spec h
  unfold CirArc.pointAt
  have e : arc.startAngle +. arc.dir *. 0 *. arc.totalAngle = arc.startAngle := by
    show arc.startAngle + arc.dir * 0 * arc.totalAngle = _
    ring
  rw [e, h1, h2]
  exact polar a arc.centre

theorem approximateCircularArc_connected {fuel : Nat} {a b c : Vec ℝ} {detail : ℝ} {ls : List (Linear ℝ)}
    (h : approximateCircularArc (D := ℝ) fuel a b c detail = .ok ls) : Spec.Connected a ls := by
  unfold approximateCircularArc at h
  obtain ⟨arc, h1, h⟩ := bind_ok h
  split at h
  · cases h; exact ⟨rfl, rfl, trivial⟩
  · simp only at h
    obtain ⟨_, -, h⟩ := bind_ok h
    cases h
    have := (arcLoop_leads arc (trunc (arc.r *. arc.totalAngle *. detail))
      (trunc (arc.r *. arc.totalAngle *. detail)).toNat 0).1
    rw [Int.cast_zero, zero_div, arc_start h1] at this
    exact this

theorem processPerfect_connected {fuel : Nat} {a : Vec ℝ} {l : List (Vec ℝ)} {ls : List (Linear ℝ)}
    (h : processPerfect (D := ℝ) fuel (a :: l) = .ok ls) : Spec.Connected a ls := by
  unfold processPerfect at h
  split at h
  · exact (processBezier_leads h).1
  · split at h
    · rename_i a' b c he
      obtain ⟨rfl, -⟩ := List.cons.inj he
      split at h
      · cases h
        exact (processLinear_leads _ _).1
      · exact approximateCircularArc_connected h
    · cases h
      exact (processLinear_leads _ _).1

/-- Before trimming, the lines of a path are connected and start at the first control point; unless
it is a circular arc or of unknown type they end at the last one. -/
theorem processType_leads {fuel : Nat} {typ : Str} {a : Vec ℝ} {l : List (Vec ℝ)} {ls : List (Linear ℝ)}
    (h : processType (D := ℝ) fuel typ (a :: l) = .ok ls) : Spec.Connected a ls ∧
      (typ = ['L'] ∨ typ = ['B'] ∨ typ = ['C'] → Spec.pathEnd a ls = (a :: l).getLast (by simp)) := by
  unfold processType at h
  split at h
  · rename_i ht
    subst ht
    refine ⟨processPerfect_connected h, ?_⟩
    rintro (h | h | h) <;> cases h
  split at h
  · cases h
    exact ⟨(processLinear_leads _ _).1, fun _ => (processLinear_leads _ _).2⟩
  split at h
  · exact ⟨(processBezier_leads h).1, fun _ => (processBezier_leads h).2⟩
  split at h
  · cases h
    exact ⟨(processCatmullLoop_leads _ _ _).1, fun _ => (processCatmullLoop_leads _ _ _).2⟩
  · rename_i h1 h2 h3 h4
    cases h
    refine ⟨trivial, ?_⟩
    rintro (h | h | h)
    · exact absurd h h2
    · exact absurd h h3
    · exact absurd h h4

theorem connected_prefix {s : Vec ℝ} {a b : List (Linear ℝ)} {l l' : Linear ℝ} (h : Spec.Connected s (a ++ l :: b))
    (hp : l'.p1 = l.p1) : Spec.Connected s (a ++ [l']) := by
  rw [connected_append] at h ⊢
  exact ⟨h.1, by rw [hp]; exact h.2.1, trivial⟩

theorem trim_connected {s : Vec ℝ} {ls : List (Linear ℝ)} (h : Spec.Connected s ls) (diff : ℝ) :
    Spec.Connected s (trimRev ls.reverse diff).reverse := by
  rcases trimRev_cases ls.reverse diff with ⟨gone, l, rest, h1, h2, -⟩ | ⟨h1, -⟩ | ⟨-, l, rest, -, -, h1⟩
  · rw [h2, List.reverse_cons]
    have e : ls = rest.reverse ++ l :: gone.reverse := by
      have := congrArg List.reverse h1
      simpa using this
    rw [e] at h
    exact connected_prefix h rfl
  · rw [h1]; trivial
  · rw [h1, List.reverse_reverse]; exact h

theorem newT_connected {fuel : Nat} {typ : Str} {a : Vec ℝ} {l : List (Vec ℝ)} {len : ℝ} {mc : MultiCurve ℝ}
    (h : MultiCurve.newT fuel typ (a :: l) len = .ok mc) : Spec.Connected a mc.lines := by
  obtain ⟨lines, h1, h2⟩ := newT_lines h
  have hc := (processType_leads h1).1
  rw [h2]
  split
  · exact trim_connected hc _
  · exact hc

end GosuPP
