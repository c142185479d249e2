import Verif.Lemmas.Order
import Verif.Lemmas.Motion
import Verif.Lemmas.Steady

/-! The speed skill is monotone in the hit window and the distances. -/

namespace GosuPP.Exactly
open Go Spec
attribute [local instance] exactLibm

/-! ### Hit values -/

/-- The time of a hit after the one before, if that one was slower. -/
noncomputable def eased (T : ℝ) (P : Option ℝ) (W : ℝ) : ℝ := match P with
  | some P => if T < W ∧ T < P then P + (T - P) * (T / W) else T
  | none => T

theorem eased_ge {T W : ℝ} (hT : 0 < T) (P : Option ℝ) : T ≤ eased T P W := by
  rcases P with _ | P
  · exact le_rfl
  · unfold eased
    dsimp only
    split
    · rename_i h
      have hW : 0 < W := hT.trans h.1
      have h1 : T / W ≤ 1 := (div_le_one hW).mpr h.1.le
      nlinarith [h.2]
    · exact le_rfl

theorem eased_mono {T W W' : ℝ} (hT : 0 < T) (h : W' ≤ W) (P : Option ℝ) : eased T P W' ≤ eased T P W := by
  by_cases hlt : T < W'
  · rcases P with _ | P
    · exact le_rfl
    · unfold eased
      dsimp only
      by_cases hP : T < P
      · rw [if_pos ⟨hlt, hP⟩, if_pos ⟨hlt.trans_le h, hP⟩]
        have hW' : 0 < W' := hT.trans hlt
        have h1 : T / W ≤ T / W' := div_le_div_of_nonneg_left hT.le hW' h
        nlinarith
      · rw [if_neg fun h => hP h.2, if_neg fun h => hP h.2]
  · have : eased T P W' = T := by
      rcases P with _ | P
      · rfl
      · unfold eased
        exact if_neg fun h => hlt h.1
    rw [this]
    exact eased_ge hT P

theorem doubletap_eq {s W : ℝ} (hs : 0 < s) (hW : 0 < W) :
    doubletapTime s W = max s (min (s / 0.92) (0.93 * W)) := by
  unfold doubletapTime
  have e : s / W / 0.93 = s / (0.93 * W) := by rw [div_div, mul_comm]
  rw [e]
  have hW' : (0 : ℝ) < 0.93 * W := by positivity
  generalize 0.93 * W = w at hW'
  by_cases h1 : s / w ≤ 0.92
  · have h2 : s / 0.92 ≤ w := by
      rw [div_le_iff₀ hW'] at h1
      rw [div_le_iff₀ (by norm_num)]; linarith
    rw [max_eq_left h1, min_eq_right (by norm_num), min_eq_left h2, max_eq_right]
    rw [le_div_iff₀ (by norm_num)]; nlinarith
  · push Not at h1
    have h2 : w ≤ s / 0.92 := by
      rw [lt_div_iff₀ hW'] at h1
      rw [le_div_iff₀ (by norm_num)]; linarith
    rw [max_eq_right h1.le, min_eq_right h2]
    by_cases h3 : s / w ≤ 1
    · rw [min_eq_right h3, max_eq_right ((div_le_one hW').mp h3), div_div_cancel₀ hs.ne']
    · push Not at h3
      rw [min_eq_left h3.le, max_eq_left ((one_lt_div hW').mp h3).le, div_one]

theorem doubletap_mono {s s' W W' : ℝ} (hs : 0 < s') (h : s' ≤ s) (hW : 0 < W') (hWW : W' ≤ W) :
    doubletapTime s' W' ≤ doubletapTime s W := by
  rw [doubletap_eq hs hW, doubletap_eq (hs.trans_le h) (hW.trans_le hWW)]
  refine max_le_max h (min_le_min ?_ ?_)
  · exact div_le_div_of_nonneg_right h (by norm_num)
  · nlinarith

theorem doubletap_ge {s W : ℝ} (hs : 0 < s) (hW : 0 < W) : s ≤ doubletapTime s W := by
  rw [doubletap_eq hs hW]; exact le_max_left _ _

/-- The bonus for fast hits. -/
noncomputable def fast (t : ℝ) : ℝ := if t < 75 then 1 + 0.75 * ((75 - t) / 40) ^ 2 else 1

theorem fast_anti {t t' : ℝ} (h : t' ≤ t) : fast t ≤ fast t' := by
  unfold fast
  by_cases h1 : t < 75
  · rw [if_pos h1, if_pos (h.trans_lt h1)]
    nlinarith
  · rw [if_neg h1]
    split
    · nlinarith [sq_nonneg ((75 - t') / 40)]
    · exact le_rfl

theorem fast_pos (t : ℝ) : 0 < fast t := by
  unfold fast
  split
  · positivity
  · norm_num

/-- What a hit adds to the speed strain. -/
theorem speed_value_of {T w r : ℝ} (hT : 25 ≤ T) (hw : 0 < w) (hr : 0 < r) {sk : Skill (Option ℝ) (Option ℝ)}
    {c : DiffObject (Option ℝ) (Option ℝ)} (hsp : c.baseObject.obj.isSpinner = false) (hc : c.strainTime = some T)
    {P : Option ℝ} (hp : match sk.getPrevious 0 with
      | some o => ∃ p, P = some p ∧ o.strainTime = some p
      | none => P = none)
    (h3 : sk.diff.hit300 = some w) (hs : sk.diff.speed = some r) :
    Speed.strainValue sk c =
      (some (fast (doubletapTime (eased T P (2 * w / r)) (2 * w / r))) +.
        some (fast (doubletapTime (eased T P (2 * w / r)) (2 * w / r))) *.
          GoLibm.pow (fmin (lit 125) (c.travelDistance +. c.jumpDistance) /. lit 125) (lit 3.5)) /.
        some (doubletapTime (eased T P (2 * w / r)) (2 * w / r)) := by
  have hW : 0 < 2 * w / r := by positivity
  have e1 : some w /. some r *. lit 2 = some (2 * w / r) := by
    rw [Exact.div _ hr.ne', Exact.lit, Exact.mul]
    congr 1; push_cast; ring
  generalize 2 * w / r = W at *
  have hT0 : 0 < T := by linarith
  have e2 : ∀ s : ℝ, some s /. clampF64 ((some s /. some W) /. lit 0.93) (lit 0.92) (lit 1) = some (doubletapTime s W) := by
    intro s
    have hm : 0 < min 1 (max 0.92 (s / W / 0.93)) := by
      rw [lt_min_iff]
      exact ⟨by norm_num, lt_max_of_lt_left (by norm_num)⟩
    rw [Exact.div _ hW.ne', Exact.lit, Exact.div _ (by norm_num), Exact.lit, Exact.lit, Exact.clamp]
    have : min ((1 : ℚ) : ℝ) (max ((0.92 : ℚ) : ℝ) (s / W / ((0.93 : ℚ) : ℝ))) = min 1 (max 0.92 (s / W / 0.93)) := by norm_num
    rw [this, Exact.div _ hm.ne']
    rfl
  have e3 : ∀ t : ℝ, (if some t <. lit 75 then
      lit 1 +. lit 0.75 *. GoLibm.pow ((lit 75 -. some t) /. lit 40) (lit 2) else lit 1) = some (fast t) := by
    intro t
    unfold fast
    by_cases h75 : t < 75
    · rw [if_pos (by rw [Exact.lit, Exact.lt]; simpa using h75), if_pos h75]
      rw [Exact.lit 75, Exact.sub, Exact.lit 40, Exact.div _ (by norm_num), Exact.lit 2, Exact.pow, Exact.lit 0.75, Exact.mul,
        Exact.lit, Exact.add]
      congr 1
      push_cast
      rw [Real.rpow_two]
    · rw [if_neg (by rw [Exact.lit, Exact.lt]; simpa using h75), if_neg h75, Exact.lit]
      norm_num
  unfold Speed.strainValue
  rw [if_neg (by rw [hsp]; simp)]
  rcases hg : sk.getPrevious 0 with _ | o
  · rw [hg] at hp
    subst hp
    simp only [hc, h3, hs, e1]
    rw [e2, e3]
    rfl
  · rw [hg] at hp
    obtain ⟨p, rfl, ho⟩ := hp
    have e4 : (if some T <. some W && some p >. some T then lerpF64 (some p) (some T) (some T /. some W) else some T) =
        some (eased T (some p) W) := by
      unfold eased lerpF64
      rw [Exact.div _ hW.ne', Exact.sub, Exact.mul, Exact.add, Exact.lt, Exact.lt]
      by_cases h1 : T < W <;> by_cases h2 : T < p <;> simp [h1, h2]
    simp only [hc, h3, hs, e1, ho, e4]
    rw [e2, e3]

/-! ### Objects and skills that are compared -/

/-- The second object is at the same time as the first and not closer to the one before. -/
structure Wider (o o' : DiffObject (Option ℝ) (Option ℝ)) : Prop where
  spinner : o'.baseObject.obj.isSpinner = o.baseObject.obj.isSpinner
  slider : o'.baseObject.lazy.isSome = o.baseObject.lazy.isSome
  strainTime : ∃ T, 25 ≤ T ∧ o.strainTime = some T ∧ o'.strainTime = some T
  startTime : ∃ t, o.startTime = some t ∧ o'.startTime = some t
  deltaTime : ∃ t, o.deltaTime = some t ∧ o'.deltaTime = some t
  distance : NoMore (o.travelDistance +. o.jumpDistance) (o'.travelDistance +. o'.jumpDistance)

/-- The second settings have a hit window that is not longer. -/
structure Stricter (d d' : Difficulty (Option ℝ)) : Prop where
  speed : ∃ r, 0 < r ∧ d.speed = some r ∧ d'.speed = some r
  window : ∃ w w', 0 < w' ∧ w' ≤ w ∧ d.hit300 = some w ∧ d'.hit300 = some w'

/-- How the speed skill makes a value of its peaks. -/
structure Tuning (n : ℕ) (b w m : Option ℝ) : Prop where
  count : 0 < n
  baseline : b = lit 0.75
  weight : w = some 0.9
  mult : m = some 1.04

/-- Two speed skills after the same number of objects. -/
structure Ahead (sk sk' : Skill (Option ℝ) (Option ℝ)) : Prop where
  rest : sk' = { sk with diff := sk'.diff, previous := sk'.previous, currentStrain := sk'.currentStrain
                         currentRhythm := sk'.currentRhythm, currentSectionPeak := sk'.currentSectionPeak
                         strainPeaks := sk'.strainPeaks }
  kind : sk.kind = .speed
  base : ∃ b, 0 < b ∧ sk.strainDecayBase = some b
  mult : ∃ m, 0 ≤ m ∧ sk.skillMultiplier = some m
  length : sk.sectionLength = lit 400
  tuning : Tuning sk.reducedSectionCount sk.reducedStrainBaseline sk.decayWeight sk.difficultyMultiplier
  diff : Stricter sk.diff sk'.diff
  previous : List.Forall₂ Wider sk.previous sk'.previous
  strain : NoMore sk.currentStrain sk'.currentStrain
  rhythm : NoMore sk.currentRhythm sk'.currentRhythm
  peak : NoMore sk.currentSectionPeak sk'.currentSectionPeak
  peaks : List.Forall₂ NoMore sk.strainPeaks sk'.strainPeaks
  ends : sk.previous ≠ [] → ∃ e, sk.currentSectionEnd = some e

section Deref
variable {sk sk' : Skill (Option ℝ) (Option ℝ)}

theorem get_wider (h : List.Forall₂ Wider sk.previous sk'.previous) (i : ℕ) :
    Option.Rel Wider (sk.getPrevious i) (sk'.getPrevious i) := by
  unfold Skill.getPrevious
  have hr := List.rel_reverse h
  generalize sk.previous.reverse = l at hr
  generalize sk'.previous.reverse = l' at hr
  induction hr generalizing i with
  | nil => exact .none
  | cons hp _ ih => cases i with
    | zero => exact .some hp
    | succ i => exact ih i

theorem deref_wider (h : List.Forall₂ Wider sk.previous sk'.previous) (i : ℕ) :
    Both Wider (sk.derefPrevious i) (sk'.derefPrevious i) := by
  unfold Skill.derefPrevious
  have := get_wider h i
  revert this
  cases sk.getPrevious i <;> cases sk'.getPrevious i <;> intro h
  · rfl
  · cases h
  · cases h
  · cases h; assumption

theorem value_wider (hd : Stricter sk.diff sk'.diff) (h : List.Forall₂ Wider sk.previous sk'.previous)
    {c c' : DiffObject (Option ℝ) (Option ℝ)} (hc : Wider c c') :
    NoMore (Speed.strainValue sk c) (Speed.strainValue sk' c') := by
  by_cases hsp : c.baseObject.obj.isSpinner = true
  · unfold Speed.strainValue
    rw [hc.spinner, if_pos hsp, if_pos hsp]
    exact .lit (by norm_num)
  · have hsp : c.baseObject.obj.isSpinner = false := by simpa using hsp
    obtain ⟨T, hT, e, e'⟩ := hc.strainTime
    obtain ⟨r, hr, er, er'⟩ := hd.speed
    obtain ⟨w, w', hw', hww, ew, ew'⟩ := hd.window
    obtain ⟨P, hP, hP'⟩ : ∃ P : Option ℝ, (match sk.getPrevious 0 with
      | some o => ∃ p, P = some p ∧ o.strainTime = some p
      | none => P = none) ∧ (match sk'.getPrevious 0 with
      | some o => ∃ p, P = some p ∧ o.strainTime = some p
      | none => P = none) := by
      have := get_wider h 0
      revert this
      cases sk.getPrevious 0 <;> cases sk'.getPrevious 0 <;> intro h
      · exact ⟨none, rfl, rfl⟩
      · cases h
      · cases h
      · rename_i a b
        cases h with
        | some h =>
          obtain ⟨p, _, e, e'⟩ := h.strainTime
          exact ⟨some p, ⟨p, rfl, e⟩, ⟨p, rfl, e'⟩⟩
    rw [speed_value_of hT (hw'.trans_le hww) hr hsp e hP ew er,
      speed_value_of hT hw' hr (hc.spinner.trans hsp) e' hP' ew' er']
    have hW' : 0 < 2 * w' / r := by positivity
    have hWW : 2 * w' / r ≤ 2 * w / r := by gcongr
    generalize 2 * w' / r = W' at *
    generalize 2 * w / r = W at *
    have hT0 : 0 < T := by linarith
    have hs' : 0 < eased T P W' := hT0.trans_le (eased_ge hT0 P)
    have hle := doubletap_mono hs' (eased_mono hT0 hWW P) hW' hWW
    have hpos : 0 < doubletapTime (eased T P W') W' := hs'.trans_le (doubletap_ge hs' hW')
    generalize doubletapTime (eased T P W') W' = t' at *
    generalize doubletapTime (eased T P W) W = t at *
    have hb : NoMore (some (fast t)) (some (fast t')) := .of_some (fast_pos t).le (fast_anti hle)
    have hj : NoMore (GoLibm.pow (fmin (lit 125) (c.travelDistance +. c.jumpDistance) /. lit 125) (lit 3.5))
        (GoLibm.pow (fmin (lit 125) (c'.travelDistance +. c'.jumpDistance) /. lit 125) (lit 3.5)) :=
      (((NoMore.lit (by norm_num)).fmin hc.distance).div_lit (by norm_num)).pow (by norm_num)
    exact (hb.add (hb.mul hj)).div hpos hle

/-! ### Rhythm -/

/-- States of the loop over the history. -/
structure Livelier (r r' : Speed.Rhythm (Option ℝ)) : Prop where
  previousIslandSize : r'.previousIslandSize = r.previousIslandSize
  islandSize : r'.islandSize = r.islandSize
  switch : r'.firstDeltaSwitch = r.firstDeltaSwitch
  sum : NoMore r.complexitySum r'.complexitySum
  ratio : NoMore r.startRatio r'.startRatio

theorem penalise_livelier {r r' : Speed.Rhythm (Option ℝ)} (hr : Livelier r r')
    {a a' b b' l l' : DiffObject (Option ℝ) (Option ℝ)} (ha : Wider a a') (hb : Wider b b') (hl : Wider l l')
    {x x' : Option ℝ} (h : NoMore x x') :
    NoMore (Speed.penalise r a b l x) (Speed.penalise r' a' b' l' x') := by
  obtain ⟨A, _, ea, ea'⟩ := ha.strainTime
  obtain ⟨B, _, eb, eb'⟩ := hb.strainTime
  obtain ⟨L, _, el, el'⟩ := hl.strainTime
  unfold Speed.penalise
  simp only [ea, ea', eb, eb', el, el', ha.slider, hb.slider, hr.previousIslandSize, hr.islandSize]
  have step : ∀ (p : Prop) [Decidable p] {x x' : Option ℝ} {q : ℚ}, 0 ≤ q → NoMore x x' →
      NoMore (if p then x *. lit q else x) (if p then x' *. lit q else x') := by
    intro p _ x x' q hq h
    split
    · exact h.mul (.lit hq)
    · exact h
  refine step _ (by norm_num) (step _ (by norm_num) (step _ (by norm_num) (step _ (by norm_num) (step _ (by norm_num) h))))

theorem penalty_atMost {g g' x : ℝ} (hg : 0 < g') (h : g' ≤ g) (hx : 0 ≤ x) :
    NoMore (fmin (lit 1) (fmin (lit 1) (fmax (lit 0) (some x -. some g *. lit 0.6) /. (some g *. lit 0.6))))
      (fmin (lit 1) (fmin (lit 1) (fmax (lit 0) (some x -. some g' *. lit 0.6) /. (some g' *. lit 0.6)))) := by
  refine NoMore.fmin (.lit (by norm_num)) (NoMore.fmin (.lit (by norm_num)) ?_)
  simp only [Exact.lit 0.6, Exact.mul]
  refine NoMore.div ?_ ?_ ?_
  · push_cast; nlinarith
  · push_cast; nlinarith
  · rw [Exact.sub, Exact.sub, Exact.lit, Exact.fmax, Exact.fmax]
    refine .of_some (le_max_of_le_left (by norm_num)) (max_le_max_left _ ?_)
    push_cast; nlinarith

theorem ratio_nonneg (a b : ℝ) (ha : 0 < a) (hb : 0 < b) :
    NoMore (lit 1 +. lit 6 *. fmin (lit 0.5) (GoLibm.pow (GoLibm.sin (lit piConst /.
      (fmin (some a) (some b) /. fmax (some a) (some b)))) (lit 2)) : Option ℝ)
      (lit 1 +. lit 6 *. fmin (lit 0.5) (GoLibm.pow (GoLibm.sin (lit piConst /.
      (fmin (some a) (some b) /. fmax (some a) (some b)))) (lit 2))) := by
  refine NoMore.add (.lit (by norm_num)) (NoMore.mul (.lit (by norm_num)) (NoMore.fmin (.lit (by norm_num)) ?_))
  have h1 : 0 < max a b := lt_max_of_lt_left ha
  have h2 : 0 < min a b := lt_min ha hb
  rw [Exact.fmin, Exact.fmax, Exact.div _ h1.ne', Exact.lit, Exact.lit, Exact.div _ (div_pos h2 h1).ne', Exact.sin, Exact.pow]
  refine .const ?_
  push_cast
  rw [Real.rpow_two]
  positivity

theorem decay_nonneg {n i : ℕ} (hi : i ≤ n) (s t : ℝ) :
    NoMore (fmin (ofInt ((n : ℤ) - i) /. ofInt n) (fmax (lit 0) (lit 5000 -. (some s -. some t)) /. lit 5000) : Option ℝ)
      (fmin (ofInt ((n : ℤ) - i) /. ofInt n) (fmax (lit 0) (lit 5000 -. (some s -. some t)) /. lit 5000)) := by
  refine NoMore.fmin ?_ ?_
  · rw [Exact.ofInt, Exact.ofInt]
    rcases Nat.eq_zero_or_pos n with rfl | hn
    · have : ((0 : ℕ) : ℤ) = 0 := rfl
      rw [this, Int.cast_zero, Exact.div_zero]
      exact .inl ⟨rfl, rfl⟩
    · refine NoMore.div (by exact_mod_cast hn) le_rfl (.const ?_)
      have : (0 : ℤ) ≤ (n : ℤ) - i := by omega
      exact_mod_cast this
  · refine NoMore.div_lit (by norm_num) ?_
    rw [Exact.sub, Exact.lit 5000, Exact.sub, Exact.lit, Exact.fmax]
    exact .const (le_max_of_le_left (by norm_num))

theorem rhythmStep_livelier {g g' : ℝ} (hg : 0 < g') (hgg : g' ≤ g) {n i : ℕ} (hi : i ≤ n)
    {c c' a a' b b' l l' : DiffObject (Option ℝ) (Option ℝ)} (hc : Wider c c') (ha : Wider a a') (hb : Wider b b') (hl : Wider l l')
    {r r' : Speed.Rhythm (Option ℝ)} (hr : Livelier r r') :
    Livelier (Speed.rhythmStep (some g) n i c a b l r) (Speed.rhythmStep (some g') n i c' a' b' l' r') := by
  obtain ⟨A, hA, ea, ea'⟩ := ha.strainTime
  obtain ⟨B, hB, eb, eb'⟩ := hb.strainTime
  obtain ⟨sc, es, es'⟩ := hc.startTime
  obtain ⟨sa, et, et'⟩ := ha.startTime
  have heff : NoMore
      (fmin (lit 1) (fmin (lit 1) (fmax (lit 0) (GoFloat.abs (some B -. some A) -. some g *. lit 0.6) /. (some g *. lit 0.6))) *.
        (lit 1 +. lit 6 *. fmin (lit 0.5) (GoLibm.pow (GoLibm.sin (lit piConst /.
          (fmin (some B) (some A) /. fmax (some B) (some A)))) (lit 2))))
      (fmin (lit 1) (fmin (lit 1) (fmax (lit 0) (GoFloat.abs (some B -. some A) -. some g' *. lit 0.6) /. (some g' *. lit 0.6))) *.
        (lit 1 +. lit 6 *. fmin (lit 0.5) (GoLibm.pow (GoLibm.sin (lit piConst /.
          (fmin (some B) (some A) /. fmax (some B) (some A)))) (lit 2)))) := by
    refine NoMore.mul ?_ (ratio_nonneg B A (by linarith) (by linarith))
    rw [Exact.sub, Exact.abs]
    exact penalty_atMost hg hgg (abs_nonneg _)
  have hdec := decay_nonneg hi sc sa
  unfold Speed.rhythmStep
  simp only [ea, ea', eb, eb', es, es', et, et', hr.switch, hr.islandSize]
  generalize hE : fmin (lit 1) (fmin (lit 1) (fmax (lit 0) (GoFloat.abs (some B -. some A) -. some g *. lit 0.6) /. (some g *. lit 0.6))) *.
        (lit 1 +. lit 6 *. fmin (lit 0.5) (GoLibm.pow (GoLibm.sin (lit piConst /.
          (fmin (some B) (some A) /. fmax (some B) (some A)))) (lit 2))) = E at heff ⊢
  generalize hE' : fmin (lit 1) (fmin (lit 1) (fmax (lit 0) (GoFloat.abs (some B -. some A) -. some g' *. lit 0.6) /. (some g' *. lit 0.6))) *.
        (lit 1 +. lit 6 *. fmin (lit 0.5) (GoLibm.pow (GoLibm.sin (lit piConst /.
          (fmin (some B) (some A) /. fmax (some B) (some A)))) (lit 2))) = E' at heff ⊢
  generalize fmin (ofInt ((n : ℤ) - i) /. ofInt n) (fmax (lit 0) (lit 5000 -. (some sc -. some sa)) /. lit 5000) = dec at hdec ⊢
  have hnat : ∀ k : ℕ, NoMore (GoFloat.sqrt (lit 4 +. ofInt k) : Option ℝ) (GoFloat.sqrt (lit 4 +. ofInt k)) :=
    fun k => NoMore.sqrt_self _
  cases hz : (!(fmax (lit 0) (lit 5000 -. (some sc -. some sa)) /. lit 5000 ==. lit 0) : Bool)
  · simp only [Bool.false_eq_true, if_false]; exact hr
  simp only [if_true]
  cases hsw : r.firstDeltaSwitch
  · simp only [Bool.false_eq_true, if_false]
    split
    · exact ⟨hr.previousIslandSize, rfl, rfl, hr.sum, heff⟩
    · exact hr
  · simp only [if_true]
    split
    · split
      · exact ⟨hr.previousIslandSize, rfl, rfl, hr.sum, hr.ratio⟩
      · exact hr
    · have hp := penalise_livelier hr ha hb hl heff
      refine ⟨rfl, rfl, rfl, ?_, hp⟩
      rw [hr.previousIslandSize]
      exact hr.sum.add ((((((hp.mul hr.ratio).sqrt.mul hdec).mul (hnat _)).div_lit (by norm_num)).mul (hnat _)).div_lit (by norm_num))

theorem rhythmLoop_livelier {g g' : ℝ} (hg : 0 < g') (hgg : g' ≤ g) (h : List.Forall₂ Wider sk.previous sk'.previous)
    {c c' : DiffObject (Option ℝ) (Option ℝ)} (hc : Wider c c') (i : ℕ) (hi : i ≤ sk.previous.length)
    {r r' : Speed.Rhythm (Option ℝ)} (hr : Livelier r r') :
    Both Livelier (Speed.rhythmLoop (some g) sk c i r) (Speed.rhythmLoop (some g') sk' c' i r') := by
  induction i generalizing r r' with
  | zero => exact hr
  | succ i ih =>
    unfold Speed.rhythmLoop
    refine (deref_wider h i).bind fun a a' ha => (deref_wider h (i + 1)).bind fun b b' hb => (deref_wider h (i + 2)).bind
      fun l l' hl => ?_
    rw [← h.length_eq]
    exact ih (by omega) (rhythmStep_livelier hg hgg hi hc ha hb hl hr)

theorem rhythm_livelier (hd : Stricter sk.diff sk'.diff) (h : List.Forall₂ Wider sk.previous sk'.previous)
    {c c' : DiffObject (Option ℝ) (Option ℝ)} (hc : Wider c c') :
    Both NoMore (Speed.rhythm sk c) (Speed.rhythm sk' c') := by
  obtain ⟨s, hs, es, es'⟩ := hd.speed
  obtain ⟨w, w', hw', hww, ew, ew'⟩ := hd.window
  unfold Speed.rhythm
  rw [hc.spinner]
  split
  · exact NoMore.lit (by norm_num)
  · simp only [es, es', ew, ew', Exact.div _ hs.ne']
    rw [← h.length_eq]
    refine (rhythmLoop_livelier (by positivity) (by gcongr) h hc _ (by omega) ?_).bind fun r r' hr => ?_
    · exact ⟨rfl, rfl, rfl, .lit (by norm_num), .lit (by norm_num)⟩
    · exact ((NoMore.lit (by norm_num)).add (hr.sum.mul (.lit (by norm_num)))).sqrt.div_lit (by norm_num)

end Deref

/-! ### Processing objects -/

variable {sk sk' : Skill (Option ℝ) (Option ℝ)}

theorem decay_atMost (h : ∃ b, 0 < b ∧ sk.strainDecayBase = some b) (x : ℝ) :
    NoMore (sk.strainDecay (some x)) (sk.strainDecay (some x)) := by
  obtain ⟨b, hb, e⟩ := h
  unfold Skill.strainDecay
  rw [e, Exact.lit, Exact.div _ (by norm_num), Exact.pow]
  exact .const (Real.rpow_nonneg hb.le _)

theorem addStrain_ahead (h : Ahead sk sk') {c c' : DiffObject (Option ℝ) (Option ℝ)} (hc : Wider c c') :
    Both (fun r r' => Ahead r r' ∧ r.currentSectionEnd = sk.currentSectionEnd) (sk.addStrain c) (sk'.addStrain c') := by
  obtain ⟨δ, e, e'⟩ := hc.deltaTime
  have hv : ∀ x x' : Option ℝ, NoMore (Speed.strainValue { sk with currentStrain := x } c)
      (Speed.strainValue { sk' with currentStrain := x' } c') := fun x x' =>
      value_wider (sk := { sk with currentStrain := x }) (sk' := { sk' with currentStrain := x' }) h.diff h.previous hc
  have hr : ∀ x x' : Option ℝ, Both NoMore (Speed.rhythm { sk with currentStrain := x } c)
      (Speed.rhythm { sk' with currentStrain := x' } c') := fun x x' =>
      rhythm_livelier (sk := { sk with currentStrain := x }) (sk' := { sk' with currentStrain := x' }) h.diff h.previous hc
  have hdec := decay_atMost h.base δ
  obtain ⟨m, hm, em⟩ := h.mult
  have hk := h.kind
  obtain ⟨f', p', s', y', k', q', rfl⟩ : ∃ f' p' s' y' k' q', sk' = { sk with diff := f', previous := p', currentStrain := s', currentRhythm := y', currentSectionPeak := k', strainPeaks := q' } := ⟨_, _, _, _, _, _, h.rest⟩
  have e1 : sk.addStrain c = (do
      let s := (sk.currentStrain *. sk.strainDecay (some δ)) +.
        Speed.strainValue { sk with currentStrain := sk.currentStrain *. sk.strainDecay (some δ) } c *. sk.skillMultiplier
      let bonus ← Speed.rhythm { sk with currentStrain := s } c
      return { sk with currentStrain := s, currentRhythm := bonus, currentSectionPeak := fmax (s *. bonus) sk.currentSectionPeak }) := by
    unfold Skill.addStrain Skill.strainValueOf
    simp only [hk, e]
    rfl
  have e2 : Skill.addStrain c' { sk with diff := f', previous := p', currentStrain := s', currentRhythm := y', currentSectionPeak := k', strainPeaks := q' } = (do
      let s := (s' *. sk.strainDecay (some δ)) +.
        Speed.strainValue { sk with diff := f', previous := p', currentStrain := s' *. sk.strainDecay (some δ), currentRhythm := y', currentSectionPeak := k', strainPeaks := q' } c' *. sk.skillMultiplier
      let bonus ← Speed.rhythm { sk with diff := f', previous := p', currentStrain := s, currentRhythm := y', currentSectionPeak := k', strainPeaks := q' } c'
      return { sk with diff := f', previous := p', strainPeaks := q', currentStrain := s, currentRhythm := bonus, currentSectionPeak := fmax (s *. bonus) k' }) := by
    unfold Skill.addStrain Skill.strainValueOf
    simp only [hk, e']
    rfl
  rw [e1, e2]
  have hs : NoMore (sk.currentStrain *. sk.strainDecay (some δ) +.
        Speed.strainValue { sk with currentStrain := sk.currentStrain *. sk.strainDecay (some δ) } c *. sk.skillMultiplier)
      (s' *. sk.strainDecay (some δ) +.
        Speed.strainValue { sk with diff := f', previous := p', currentStrain := s' *. sk.strainDecay (some δ), currentRhythm := y', currentSectionPeak := k', strainPeaks := q' } c' *. sk.skillMultiplier) :=
    (h.strain.mul hdec).add ((hv _ _).mul (em ▸ NoMore.const hm))
  refine (hr _ _).bind fun b b' hb => ?_
  exact ⟨⟨rfl, hk, h.base, h.mult, h.length, h.tuning, h.diff, h.previous, hs, hb, (hs.mul hb).fmax h.peak, h.peaks, h.ends⟩, rfl⟩

theorem initial_ahead (h : Ahead sk sk') {x : ℝ} :
    Both NoMore (sk.calculateInitialStrain (some x)) (sk'.calculateInitialStrain (some x)) := by
  have hk := h.kind
  have hk' : sk'.kind = .speed := by rw [h.rest]; exact hk
  have hd : ∀ y, sk'.strainDecay y = sk.strainDecay y := by intro y; rw [h.rest]; rfl
  unfold Skill.calculateInitialStrain
  refine (deref_wider h.previous 0).bind fun p p' hp => ?_
  obtain ⟨t, e, e'⟩ := hp.startTime
  simp only [hk, hk', hd, e, e', Exact.sub]
  exact (h.strain.mul h.rhythm).mul (decay_atMost h.base _)

theorem sectionLoop_ahead {t : ℝ} (fuel : ℕ) {e : ℝ} (h : Ahead sk sk') (he : sk.currentSectionEnd = some e) :
    Both (fun r r' => Ahead r r' ∧ ∃ e, r.currentSectionEnd = some e) (Skill.sectionLoop (some t) fuel sk)
      (Skill.sectionLoop (some t) fuel sk') := by
  induction fuel generalizing sk sk' e with
  | zero => exact rfl
  | succ n ih =>
    have hi := fun x => initial_ahead (x := x) h
    obtain ⟨f', p', s', y', k', q', rfl⟩ : ∃ f' p' s' y' k' q', sk' = { sk with diff := f', previous := p', currentStrain := s', currentRhythm := y', currentSectionPeak := k', strainPeaks := q' } := ⟨_, _, _, _, _, _, h.rest⟩
    unfold Skill.sectionLoop
    dsimp only
    split
    · rw [he]
      refine (hi e).bind fun p p' hp => ?_
      have hl : sk.sectionLength = some 400 := by rw [h.length, Exact.lit]; norm_num
      refine ih (e := e + 400) ⟨rfl, h.kind, h.base, h.mult, h.length, h.tuning, h.diff, h.previous, h.strain, h.rhythm, hp,
        List.rel_append h.peaks (.cons h.peak .nil), fun _ => ⟨e + 400, ?_⟩⟩ ?_
      · show some e +. sk.sectionLength = _
        rw [hl, Exact.add]
      · show some e +. sk.sectionLength = _
        rw [hl, Exact.add]
    · exact ⟨h, e, he⟩

theorem process_ahead (h : Ahead sk sk') {c c' : DiffObject (Option ℝ) (Option ℝ)} (hc : Wider c c') (fuel : ℕ) :
    Both Ahead (sk.process fuel c) (sk'.process fuel c') := by
  obtain ⟨t, et, et'⟩ := hc.startTime
  have hprev := h.previous
  have hl := hprev.length_eq
  have hlen : sk.sectionLength = some 400 := by rw [h.length, Exact.lit]; norm_num
  obtain ⟨f', p', s', y', k', q', rfl⟩ : ∃ f' p' s' y' k' q', sk' = { sk with diff := f', previous := p', currentStrain := s', currentRhythm := y', currentSectionPeak := k', strainPeaks := q' } := ⟨_, _, _, _, _, _, h.rest⟩
  have cut : Ahead
      (if sk.previous.length > sk.historyLength then
        { sk with previous := sk.previous.drop (sk.previous.length - sk.historyLength) } else sk)
      (if p'.length > sk.historyLength then
        { sk with diff := f', previous := p'.drop (p'.length - sk.historyLength), currentStrain := s', currentRhythm := y', currentSectionPeak := k', strainPeaks := q' }
        else { sk with diff := f', previous := p', currentStrain := s', currentRhythm := y', currentSectionPeak := k', strainPeaks := q' }) := by
    dsimp only at hl hprev
    rw [← hl]
    split
    · refine ⟨rfl, h.kind, h.base, h.mult, h.length, h.tuning, h.diff, List.forall₂_drop _ hprev, h.strain, h.rhythm, h.peak, h.peaks,
        fun hne => h.ends fun h0 => hne ?_⟩
      show List.drop _ sk.previous = []
      rw [h0, List.drop_nil]
    · exact h
  have hcl : ∀ s : Skill (Option ℝ) (Option ℝ), s = (if sk.previous.length > sk.historyLength then
        { sk with previous := sk.previous.drop (sk.previous.length - sk.historyLength) } else sk) → s.sectionLength = some 400 := by
    rintro s rfl; split <;> exact hlen
  unfold Skill.process
  dsimp only
  generalize hsk : (if sk.previous.length > sk.historyLength then
        { sk with previous := sk.previous.drop (sk.previous.length - sk.historyLength) } else sk) = u at cut
  generalize (if p'.length > sk.historyLength then
        { sk with diff := f', previous := p'.drop (p'.length - sk.historyLength), currentStrain := s', currentRhythm := y', currentSectionPeak := k', strainPeaks := q' }
        else { sk with diff := f', previous := p', currentStrain := s', currentRhythm := y', currentSectionPeak := k', strainPeaks := q' }) = u' at cut
  have hul := hcl u hsk.symm
  clear hsk hcl h hlen hl hprev
  have hprev := cut.previous
  have hl := hprev.length_eq
  have inner : Both (fun r r' => Ahead r r' ∧ ∃ e, r.currentSectionEnd = some e) (u.processInternal fuel c) (u'.processInternal fuel c') := by
    obtain ⟨f', p', s', y', k', q', rfl⟩ : ∃ f' p' s' y' k' q', u' = { u with diff := f', previous := p', currentStrain := s', currentRhythm := y', currentSectionPeak := k', strainPeaks := q' } := ⟨_, _, _, _, _, _, cut.rest⟩
    have start : ∃ e, Ahead
        (if u.previous.length = 0 then
          { u with currentSectionEnd := GoFloat.ceil (c.startTime /. u.sectionLength) *. u.sectionLength } else u)
        (if p'.length = 0 then
          { u with currentSectionEnd := GoFloat.ceil (c'.startTime /. u.sectionLength) *. u.sectionLength, diff := f', previous := p', currentStrain := s', currentRhythm := y', currentSectionPeak := k', strainPeaks := q' }
          else { u with diff := f', previous := p', currentStrain := s', currentRhythm := y', currentSectionPeak := k', strainPeaks := q' }) ∧
        (if u.previous.length = 0 then
          { u with currentSectionEnd := GoFloat.ceil (c.startTime /. u.sectionLength) *. u.sectionLength } else u).currentSectionEnd = some e := by
      dsimp only at hl
      obtain ⟨e, hceil⟩ : ∃ e, GoFloat.ceil (some t /. u.sectionLength) *. u.sectionLength = some e := by
        rw [hul, Exact.div _ (by norm_num), Exact.ceil, Exact.mul]
        exact ⟨_, rfl⟩
      rw [← hl, et, et', hceil]
      split
      · exact ⟨_, ⟨rfl, cut.kind, cut.base, cut.mult, cut.length, cut.tuning, cut.diff, cut.previous, cut.strain, cut.rhythm, cut.peak, cut.peaks,
          fun _ => ⟨_, rfl⟩⟩, rfl⟩
      · rename_i hne
        obtain ⟨e, he⟩ := cut.ends fun hn => hne (by rw [hn]; rfl)
        exact ⟨e, cut, he⟩
    obtain ⟨e, start, he⟩ := start
    unfold Skill.processInternal
    rw [et, et'] at *
    refine (sectionLoop_ahead fuel start he).bind fun r r' hr => ?_
    exact (addStrain_ahead hr.1 hc).mono fun x x' hx => ⟨hx.1, hx.2 ▸ hr.2⟩
  refine inner.bind fun r r' hr => ?_
  obtain ⟨h, hre⟩ := hr
  obtain ⟨f', p', s', y', k', q', rfl⟩ : ∃ f' p' s' y' k' q', r' = { r with diff := f', previous := p', currentStrain := s', currentRhythm := y', currentSectionPeak := k', strainPeaks := q' } := ⟨_, _, _, _, _, _, h.rest⟩
  exact ⟨rfl, h.kind, h.base, h.mult, h.length, h.tuning, h.diff, List.rel_append h.previous (.cons hc .nil), h.strain, h.rhythm, h.peak, h.peaks,
    fun _ => hre⟩

theorem value_ahead [GoSort] (h : Ahead sk sk') : NoMore sk.difficultyValue sk'.difficultyValue := by
  have ht' : Tuning sk'.reducedSectionCount sk'.reducedStrainBaseline sk'.decayWeight sk'.difficultyMultiplier := by
    rw [h.rest]; exact h.tuning
  exact value_atMost (by norm_num) (by norm_num) h.tuning.count h.tuning.baseline h.tuning.weight h.tuning.mult
    (by rw [h.rest]) ht'.baseline ht'.weight ht'.mult (List.rel_append h.peaks (.cons h.peak .nil))

theorem peaks_ahead (h : Ahead sk sk') : List.Forall₂ NoMore sk.getCurrentStrainPeaks sk'.getCurrentStrainPeaks :=
  List.rel_append h.peaks (.cons h.peak .nil)

theorem ahead_new {d d' : Difficulty (Option ℝ)} (h : Stricter d d') :
    Ahead (Skill.newSpeed d : Skill (Option ℝ) (Option ℝ)) (Skill.newSpeed d') where
  rest := rfl
  kind := rfl
  base := ⟨((0.3 : ℚ) : ℝ), by norm_num, rfl⟩
  mult := ⟨((1375 : ℚ) : ℝ), by norm_num, rfl⟩
  length := rfl
  tuning := by
    refine ⟨Nat.zero_lt_succ _, rfl, ?_, ?_⟩
    · show (lit 0.9 : Option ℝ) = _
      rw [Exact.lit]; norm_num
    · show (lit 1.04 : Option ℝ) = _
      rw [Exact.lit]; norm_num
  diff := h
  previous := .nil
  strain := .lit (by norm_num)
  rhythm := .lit (by norm_num)
  peak := .lit (by norm_num)
  peaks := .nil
  ends := fun h => absurd rfl h

end GosuPP.Exactly
