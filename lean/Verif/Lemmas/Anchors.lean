import Verif.Lemmas.PathReal
import Verif.Spec.Anchors

/-! Which control points a path goes through. -/

namespace GosuPP
open Go MultiCurve

section
variable {S : Type} [GoFloat S]

theorem joinPoints_eq (l : List (Vec S)) : joinPoints l = List.zipWith Linear.mk l l.tail := by
  induction l with
  | nil => rfl
  | cons a t ih =>
    cases t with
    | nil => rfl
    | cons b t =>
      rw [joinPoints, ih]
      rfl

/-- The lines that the code makes of one part. -/
def partPiece (fuel : Nat) (w : List (Vec S)) : Result (List (Linear S)) :=
  match w with
  | [a, b] => .ok [⟨a, b⟩]
  | _ => approximateBezier fuel w

theorem partPiece_lines {fuel : Nat} {w : List (Vec S)} {ls : List (Linear S)} (h : partPiece fuel w = .ok ls) :
    Spec.PartLines w ls := by
  have hb : ∀ w : List (Vec S), w.length ≠ 2 → approximateBezier fuel w = .ok ls → Spec.PartLines w ls := by
    intro w hw h
    obtain ⟨hne, l, hf, rfl⟩ := approximateBezier_out h
    rw [joinPoints_eq]
    exact .curve hw (List.getLast?_eq_getLast_of_ne_nil hne) hf
  match w, h with
  | [], h => exact hb _ (by simp) h
  | [a], h => exact hb _ (by simp) h
  | [a, b], h => cases h; exact .line a b
  | a :: b :: c :: t, h => exact hb _ (by simp) h

theorem processBezierLoop_scan {fuel : Nat} {points : List (Vec S)} {last : Nat} (n : Nat) :
    ∀ (k i : Nat), (∀ j p, i ≤ j → j < i + n → points[j]? = some p → isMulti points j p = false) →
      i + n < points.length → points.length ≤ i + k → 
      ∃ k', points.length ≤ i + n + (k' + 1) ∧
        processBezierLoop fuel points k i last = processBezierLoop fuel points (k' + 1) (i + n) last := by
  induction n with
  | zero =>
    intro k i _ h2 h3
    obtain ⟨k', rfl⟩ : ∃ k', k = k' + 1 := ⟨k - 1, by omega⟩
    exact ⟨k', h3, rfl⟩
  | succ n ih =>
    intro k i h1 h2 h3
    obtain ⟨k', rfl⟩ : ∃ k', k = k' + 1 := ⟨k - 1, by omega⟩
    have hi : i < points.length := by omega
    rw [processBezierLoop_step (List.getElem?_eq_getElem hi),
      h1 i points[i] (le_refl _) (by omega) (List.getElem?_eq_getElem hi)]
    rw [if_neg (by simp only [Bool.false_or, beq_iff_eq]; omega)]
    obtain ⟨k'', h4, h5⟩ := ih k' (i + 1) (fun j p hj hj' => h1 j p (by omega) (by omega)) (by omega) (by omega)
    refine ⟨k'', by omega, ?_⟩
    rw [h5]
    congr 1
    omega

theorem processBezierLoop_past {fuel : Nat} {points : List (Vec S)} {k i last : Nat} (h : points.length ≤ i) :
    processBezierLoop fuel points k i last = .ok [] := by
  cases k with
  | zero => rfl
  | succ k => rw [processBezierLoop, List.getElem?_eq_none h]

theorem redParts_length {skip : Nat} {w : List (Vec S)} {ws : List (List (Vec S))} (h : Spec.RedParts skip (w :: ws)) :
    skip < w.length := by
  cases h with
  | last h _ => exact h
  | cons h => rw [List.length_append, List.length_singleton]; omega

/-- The part that is cut at `i` is the one that starts at `last`. -/
theorem processBezierLoop_cut {fuel : Nat} {points : List (Vec S)} {k i last : Nat} {p : Vec S} {w : List (Vec S)}
    (hp : points[i]? = some p) (hw : (points.drop last).take (i + 1 - last) = w)
    (hc : (isMulti points i p || i + 1 == points.length) = true) :
    processBezierLoop fuel points (k + 1) i last = (do
      let ls ← partPiece fuel w
      let rest ← processBezierLoop fuel points k ((if isMulti points i p then i + 1 else i) + 1)
          (if isMulti points i p then i + 1 else i)
      return ls ++ rest) := by
  rw [processBezierLoop_step hp, if_pos hc, hw]
  rcases w with _ | ⟨a, _ | ⟨b, _ | ⟨c, t⟩⟩⟩ <;> rfl

theorem processBezierLoop_parts {fuel : Nat} {skip : Nat} {ws : List (List (Vec S))} (h : Spec.RedParts skip ws) :
    ∀ (pre : List (Vec S)) (k : Nat), (pre ++ ws.flatten).length ≤ pre.length + skip + k →
      processBezierLoop fuel (pre ++ ws.flatten) k (pre.length + skip) pre.length =
        (do let ps ← ws.mapM (partPiece fuel); return ps.flatten) := by
  induction h with
  | @last skip w h1 h2 =>
    intro pre k hk
    have hfl : [w].flatten = w := by simp
    rw [hfl] at hk ⊢
    obtain ⟨k', hk', he⟩ := processBezierLoop_scan (fuel := fuel) (points := pre ++ w) (last := pre.length)
      (w.length - 1 - skip) k (pre.length + skip) (by
        intro j p hj hj' hp
        unfold isMulti
        by_cases hb : j + 2 < (pre ++ w).length
        · rw [List.length_append] at hb
          have hq : (pre ++ w)[j + 1]? = w[j + 1 - pre.length]? := List.getElem?_append_right (by omega)
          rw [List.getElem?_append_right (by omega)] at hp
          have hj1 : j + 1 - pre.length < w.length := by omega
          rw [hq, List.getElem?_eq_getElem hj1]
          show (_ && p.eq w[j + 1 - pre.length]) = false
          rw [h2 (j - pre.length) p w[j + 1 - pre.length] (by omega) (by
              rw [List.getElem?_dropLast, if_pos (by omega)]; exact hp) (by
              rw [List.getElem?_dropLast, if_pos (by omega)]
              rw [show j - pre.length + 1 = j + 1 - pre.length by omega]
              exact List.getElem?_eq_getElem hj1)]
          simp
        · rw [decide_eq_false hb]; rfl) (by rw [List.length_append]; omega) (by omega)
    rw [he]
    have hi : pre.length + skip + (w.length - 1 - skip) = pre.length + (w.length - 1) := by omega
    rw [hi]
    have hlt : pre.length + (w.length - 1) < (pre ++ w).length := by rw [List.length_append]; omega
    rw [processBezierLoop_cut (w := w) (List.getElem?_eq_getElem hlt)
      (by rw [List.drop_left]; exact List.take_of_length_le (by omega))
      (by rw [Bool.or_eq_true, beq_iff_eq, List.length_append]; right; omega)]
    have hm : isMulti (pre ++ w) (pre.length + (w.length - 1)) (pre ++ w)[pre.length + (w.length - 1)] = false := by
      unfold isMulti
      rw [decide_eq_false (by rw [List.length_append]; omega)]
      rfl
    rw [hm]
    simp only [Bool.false_eq_true, if_false]
    rw [processBezierLoop_past (by rw [List.length_append]; omega)]
    simp only [List.mapM_cons, List.mapM_nil]
    cases partPiece fuel w with
    | error e => rfl
    | ok ls => simp [ok_bind, pure, Except.pure]
  | @cons skip w v p q ws h1 h2 h3 h4 ih =>
    intro pre k hk
    have hlen := redParts_length h4
    rw [List.length_cons] at hlen
    set tail := ((q :: v) :: ws).flatten with htail
    have hfl : ((w ++ [p]) :: (q :: v) :: ws).flatten = (w ++ [p]) ++ tail := by rw [List.flatten_cons]
    rw [hfl] at hk ⊢
    have htl : tail = q :: (v ++ ws.flatten) := by rw [htail, List.flatten_cons]; rfl
    have htlen : 2 ≤ tail.length := by rw [htl]; simp only [List.length_cons, List.length_append]; omega
    set points := pre ++ (w ++ [p] ++ tail) with hpts
    have hplen : points.length = pre.length + (w.length + 1 + tail.length) := by
      rw [hpts]; simp only [List.length_append, List.length_cons, List.length_nil]
    have hget : ∀ j, j ≤ w.length → points[pre.length + j]? = (w ++ [p])[j]? := by
      intro j hj
      rw [hpts, List.getElem?_append_right (by omega), List.getElem?_append_left (by simp; omega)]
      congr 1
      omega
    obtain ⟨k', hk', he⟩ := processBezierLoop_scan (fuel := fuel) (points := points) (last := pre.length)
      (w.length - skip) k (pre.length + skip) (by
        intro j r hj hj' hr
        obtain ⟨n, rfl⟩ : ∃ n, j = pre.length + n := ⟨j - pre.length, by omega⟩
        unfold isMulti
        rw [show pre.length + n + 1 = pre.length + (n + 1) by omega, hget (n + 1) (by omega)]
        rw [hget n (by omega)] at hr
        have hn : n + 1 < (w ++ [p]).length := by simp; omega
        rw [List.getElem?_eq_getElem hn]
        show (_ && r.eq (w ++ [p])[n + 1]) = false
        rw [h2 n r _ (by omega) hr (List.getElem?_eq_getElem hn)]
        simp) (by omega) (by omega)
    rw [he]
    have hi : pre.length + skip + (w.length - skip) = pre.length + w.length := by omega
    rw [hi]
    have hp : points[pre.length + w.length]? = some p := by
      rw [hget _ (le_refl _), List.getElem?_append_right (le_refl _)]
      simp
    have hq : points[pre.length + w.length + 1]? = some q := by
      rw [hpts, List.getElem?_append_right (by omega), List.getElem?_append_right (by simp; omega), htl]
      simp only [List.length_append, List.length_cons, List.length_nil]
      rw [show pre.length + w.length + 1 - pre.length - (w.length + 1) = 0 by omega]
      rfl
    have hm : isMulti points (pre.length + w.length) p = true := by
      unfold isMulti
      rw [hq, decide_eq_true (by omega)]
      exact h3
    rw [processBezierLoop_cut (w := w ++ [p]) hp
      (by
        have hn : pre.length + w.length + 1 - pre.length = (w ++ [p]).length := by
          rw [List.length_append, List.length_singleton]
          omega
        rw [hpts, List.drop_left, hn]
        exact List.take_left) (by rw [hm]; rfl), hm]
    simp only [if_true]
    have hpre : points = (pre ++ (w ++ [p])) ++ tail := by rw [hpts, List.append_assoc pre]
    have hprelen : (pre ++ (w ++ [p])).length = pre.length + w.length + 1 := by
      rw [List.length_append, List.length_append, List.length_singleton]
      omega
    have := ih (pre ++ (w ++ [p])) k' (by rw [← hpre, hprelen]; omega)
    rw [← hpre, hprelen] at this
    rw [this]
    have hmap : ((w ++ [p]) :: (q :: v) :: ws).mapM (partPiece fuel) = (do
        let x ← partPiece fuel (w ++ [p])
        let xs ← ((q :: v) :: ws).mapM (partPiece fuel)
        return x :: xs) := List.mapM_cons
    rw [hmap]
    cases partPiece fuel (w ++ [p]) with
    | error e => rfl
    | ok ls =>
      simp only [ok_bind]
      cases ((q :: v) :: ws).mapM (partPiece fuel) with
      | error e => rfl
      | ok ps => simp [ok_bind, pure, Except.pure]

theorem processBezier_parts {fuel : Nat} {ws : List (List (Vec S))} (h : Spec.RedParts 0 ws) :
    processBezier fuel ws.flatten = (do let ps ← ws.mapM (partPiece fuel); return ps.flatten) := by
  have := processBezierLoop_parts (fuel := fuel) h [] ws.flatten.length (by simp)
  exact this

/-- Every list of points can be cut in this way. -/
theorem redParts_exists (n : Nat) : ∀ (skip : Nat) (points : List (Vec S)), points.length ≤ n → skip < points.length →
    ∃ w ws, points = (w :: ws).flatten ∧ Spec.RedParts skip (w :: ws) ∧ w.head? = points.head? := by
  induction n with
  | zero => intro skip points h1 h2; omega
  | succ n ih =>
    intro skip points h1 h2
    by_cases hex : ∃ i, skip ≤ i ∧ i + 2 < points.length ∧ ∃ p q, points[i]? = some p ∧ points[i + 1]? = some q ∧ p.eq q = true
    · classical
      let i := Nat.find hex
      obtain ⟨hi1, hi2, p, q, hp, hq, hpq⟩ := Nat.find_spec hex
      have hmin := fun m => Nat.find_min (H := hex) (m := m)
      change skip ≤ i at hi1
      change i + 2 < _ at hi2
      change points[i]? = _ at hp
      change points[i + 1]? = _ at hq
      change ∀ m, m < i → _ at hmin
      clear_value i
      have hsplit : points = (points.take i ++ [p]) ++ points.drop (i + 1) := by
        have : points.take (i + 1) = points.take i ++ [p] := by rw [List.take_add_one, hp]; rfl
        rw [← this, List.take_append_drop]
      obtain ⟨w, ws, h3, h4, h5⟩ := ih 1 (points.drop (i + 1)) (by rw [List.length_drop]; omega)
        (by rw [List.length_drop]; omega)
      rw [List.head?_drop, hq] at h5
      cases w with
      | nil => cases h5
      | cons q' v =>
        cases h5
        refine ⟨points.take i ++ [p], (q :: v) :: ws, ?_, .cons ?_ ?_ hpq h4, ?_⟩
        · rw [List.flatten_cons, ← h3]; exact hsplit
        · rw [List.length_take]; omega
        · intro j x y hj hx hy
          by_contra hne
          have hj2 : j + 1 < (points.take i ++ [p]).length := (List.getElem?_eq_some_iff.mp hy).1
          rw [List.length_append, List.length_take, List.length_singleton] at hj2
          have get : ∀ m, m ≤ i → (points.take i ++ [p])[m]? = points[m]? := by
            intro m hm
            have hl : m < (points.take i ++ [p]).length := by
              rw [List.length_append, List.length_take, List.length_singleton]
              omega
            have := List.getElem?_append_left (l₂ := points.drop (i + 1)) hl
            rw [← hsplit] at this
            exact this.symm
          rw [get _ (by omega)] at hx hy
          exact hmin j (by omega) ⟨hj, by omega, x, y, hx, hy, by simpa using hne⟩
        · conv_rhs => rw [hsplit]
          cases points.take i <;> rfl
    · refine ⟨points, [], by simp, .last h2 ?_, rfl⟩
      intro j x y hj hx hy
      by_contra hne
      have hj2 : j + 1 < points.dropLast.length := (List.getElem?_eq_some_iff.mp hy).1
      rw [List.length_dropLast] at hj2
      rw [List.getElem?_dropLast, if_pos (by omega)] at hx hy
      exact hex ⟨j, hj, by omega, x, y, hx, hy, by simpa using hne⟩

end

/-! Visits. -/

theorem visits_single {a b : Vec ℝ} {ls : List (Linear ℝ)} (h : Leads a b ls) :
    Spec.Visits a ls [(Spec.pathLength ls, b)] :=
  ⟨ls, [], by simp, rfl, h.2, rfl⟩

theorem Leads.visits {a b : Vec ℝ} {part rest : List (Linear ℝ)} {vs : List (ℝ × Vec ℝ)} (h : Leads a b part)
    (hv : Spec.Visits b rest vs) : Spec.Visits a (part ++ rest) ((Spec.pathLength part, b) :: vs) :=
  ⟨part, rest, rfl, rfl, h.2, hv⟩

theorem processLinear_visits (a : Vec ℝ) (l : List (Vec ℝ)) :
    Spec.Visits a (processLinear (a :: l)) (Spec.hops a l) := by
  induction l generalizing a with
  | nil => rfl
  | cons b t ih =>
    rw [processLinear]
    split
    · rename_i he
      rw [vec_eq_real] at he
      subst he
      refine ⟨[], _, rfl, ?_, rfl, ih a⟩
      rw [pathLength_nil, len_eq_zero.mpr rfl]
    · exact ⟨[⟨a, b⟩], _, rfl, by rw [pathLength_cons, pathLength_nil, add_zero], rfl, ih b⟩

theorem processCatmullLoop_visits (p a : Vec ℝ) (l : List (Vec ℝ)) :
    ∃ ds : List ℝ, ds.length = l.length ∧ Spec.Visits a (processCatmullLoop p (a :: l)) (ds.zip l) := by
  induction l generalizing p a with
  | nil => exact ⟨[], rfl, rfl⟩
  | cons b t ih =>
    unfold processCatmullLoop
    obtain ⟨ds, h1, h2⟩ := ih a b
    exact ⟨_ :: ds, by simp [h1], (approximateCatmullRom_leads _ _ _ _).visits h2⟩

theorem partPiece_leads {fuel : Nat} {a z : Vec ℝ} {w : List (Vec ℝ)} {ls : List (Linear ℝ)} (ha : w.head? = some a)
    (hz : w.getLast? = some z) (h : partPiece fuel w = .ok ls) : Leads a z ls := by
  have hb : ∀ (x : Vec ℝ) (t : List (Vec ℝ)), (x :: t).head? = some a → (x :: t).getLast? = some z →
      approximateBezier fuel (x :: t) = .ok ls → Leads a z ls := by
    intro x t ha hz h
    cases ha
    rw [List.getLast?_eq_getLast_of_ne_nil (by simp)] at hz
    cases hz
    exact approximateBezier_leads h
  match w, h with
  | [], h => cases ha
  | [x], h => exact hb _ _ ha hz h
  | [x, y], h =>
    cases h
    cases ha
    cases hz
    exact ⟨⟨rfl, trivial⟩, rfl⟩
  | x :: y :: c :: t, h => exact hb _ _ ha hz h

theorem parts_visits {fuel : Nat} {skip : Nat} {ws : List (List (Vec ℝ))} (h : Spec.RedParts skip ws) :
    ∀ {a : Vec ℝ} {ps : List (List (Linear ℝ))}, ws.flatten.head? = some a → ws.mapM (partPiece fuel) = .ok ps →
      ∃ ds : List ℝ, ds.length = ws.length ∧ Spec.Visits a ps.flatten (ds.zip (ws.filterMap List.getLast?)) := by
  induction h with
  | @last skip w h1 h2 =>
    intro a ps ha hps
    rw [List.mapM_cons] at hps
    obtain ⟨ls, hls, hps⟩ := bind_ok hps
    obtain ⟨r, hr, hps⟩ := bind_ok hps
    cases hr
    cases hps
    have hne : w ≠ [] := by rintro rfl; simp at h1
    have hz := List.getLast?_eq_getLast_of_ne_nil hne
    have hl := partPiece_leads (by simpa using ha) hz hls
    refine ⟨[Spec.pathLength ls], rfl, ?_⟩
    simp only [List.reverse_nil, List.flatten_cons, List.flatten_nil, List.append_nil, List.filterMap_cons, hz, List.filterMap_nil]
    exact visits_single hl
  | @cons skip w v p q ws h1 h2 h3 h4 ih =>
    intro a ps ha hps
    rw [List.mapM_cons] at hps
    obtain ⟨ls, hls, hps⟩ := bind_ok hps
    obtain ⟨r, hr, hps⟩ := bind_ok hps
    cases hps
    rw [vec_eq_real] at h3
    subst h3
    obtain ⟨ds, hd1, hd2⟩ := ih (a := p) rfl hr
    have hz : (w ++ [p]).getLast? = some p := by simp
    have hl := partPiece_leads (a := a) (by
      rw [List.flatten_cons] at ha
      cases w <;> exact ha) hz hls
    refine ⟨Spec.pathLength ls :: ds, by simp [hd1], ?_⟩
    rw [List.filterMap_cons, hz]
    exact hl.visits hd2

/-- Where the walk is when it reaches the end of a part. -/
theorem walk_visits {vs : List (ℝ × Vec ℝ)} : ∀ {a : Vec ℝ} {ls : List (Linear ℝ)}, Spec.Connected a ls → Spec.Visits a ls vs →
    ∀ {i : Nat} {d : ℝ} {q : Vec ℝ}, vs[i]? = some (d, q) →
      ((vs.take (i + 1)).map Prod.fst).sum ≤ Spec.pathLength ls ∧
      Spec.walk a ls ((vs.take (i + 1)).map Prod.fst).sum = q := by
  suffices H : ∀ {i : Nat} {vs : List (ℝ × Vec ℝ)} {a : Vec ℝ} {ls : List (Linear ℝ)}, Spec.Visits a ls vs →
      ∀ {d : ℝ} {q : Vec ℝ}, vs[i]? = some (d, q) →
        ∃ part rest, ls = part ++ rest ∧ Spec.pathLength part = ((vs.take (i + 1)).map Prod.fst).sum ∧
          Spec.pathEnd a part = q by
    intro a ls hc hv i d q hi
    obtain ⟨part, rest, rfl, h1, h2⟩ := H hv hi
    rw [← h1]
    refine ⟨by rw [pathLength_append]; linarith [pathLength_nonneg rest], ?_⟩
    rw [connected_append] at hc
    by_cases hn : part = []
    · subst hn
      have h2 : a = q := h2
      subst h2
      rw [pathLength_nil, List.nil_append]
      have hc : Spec.Connected a rest := hc.2
      cases rest with
      | nil => rfl
      | cons x xs =>
        unfold Spec.walk
        rw [if_pos (len_nonneg x), zero_div, along_zero]
        exact hc.1
    · rw [walk_append (le_refl _) hn, walk_end hc.1, h2]
  intro i
  induction i with
  | zero =>
    intro vs a ls hv d q hi
    cases vs with
    | nil => cases hi
    | cons v vs =>
      cases hi
      obtain ⟨part, rest, h1, h2, h3, -⟩ := hv
      exact ⟨part, rest, h1, by simp [h2], h3⟩
  | succ i ih =>
    intro vs a ls hv d q hi
    cases vs with
    | nil => cases hi
    | cons v vs =>
      obtain ⟨part, rest, h1, h2, h3, h4⟩ := hv
      obtain ⟨part', rest', h5, h6, h7⟩ := ih h4 (by simpa using hi)
      refine ⟨part ++ part', rest', by rw [h1, h5, List.append_assoc], ?_, ?_⟩
      · rw [pathLength_append, h2, h6]
        simp
      · rw [pathEnd_append, h3, h7]

theorem visits_length {vs : List (ℝ × Vec ℝ)} : ∀ {a : Vec ℝ} {ls : List (Linear ℝ)}, Spec.Visits a ls vs →
    Spec.pathLength ls = (vs.map Prod.fst).sum := by
  induction vs with
  | nil => intro a ls h; cases h; rfl
  | cons v vs ih =>
    intro a ls h
    obtain ⟨part, rest, rfl, h2, -, h4⟩ := h
    rw [pathLength_append, h2, ih h4]
    simp

end GosuPP
