import Verif.Lemmas.Notes
import Verif.Spec.Rhythm

/-! The speed strain and the rhythm of an arbitrary map. -/

namespace GosuPP.Exactly
open Go Spec
attribute [local instance] exactLibm

variable {c r w : ℝ} {x : ℕ → Note} {d : Difficulty (Option ℝ)}

/-! ### The value -/

theorem tapGap_pos (hr : 0 < r) (hw : 0 < w) (n : ℕ) : 0 < tapGap r w x n := by
  have h1 := gap_ge (r := r) (x := x) n
  have h2 := gap_ge (r := r) (x := x) (n - 1)
  have hW : 0 < 2 * w / r := by positivity
  unfold tapGap
  split
  · rename_i h
    have hq : gap r x n / (2 * w / r) < 1 := (div_lt_one hW).mpr h.2.1
    have hq0 : 0 < gap r x n / (2 * w / r) := by positivity
    generalize gap r x n / (2 * w / r) = q at *
    nlinarith [h.2.2]
  · linarith

theorem speedHit_exact (hr0 : 0 < r) (hw : 0 < w) {sk : Skill (Option ℝ) (Option ℝ)}
    {o : DiffObject (Option ℝ) (Option ℝ)} {k : ℕ} (ho : Shown d c r x (k + 1) o)
    (hp : ∀ (i : ℕ) o, sk.previous.reverse[i]? = some o → Shown d c r x (k - i) o) (hlen : sk.previous.length = min k 32)
    (h3 : sk.diff.hit300 = some w) (hs : sk.diff.speed = some r) :
    Speed.strainValue sk o = some (speedHit r w x c (k + 1)) := by
  have hz : (lit 0 : Option ℝ) = some 0 := by rw [Exact.lit]; norm_num
  have hW : 0 < 2 * w / r := by positivity
  have hg : 0 < tapGap r w x (k + 1) := tapGap_pos hr0 hw _
  have hm : 0 < min 1 (max 0.92 (tapGap r w x (k + 1) / (2 * w / r) / 0.93)) := by
    rw [lt_min_iff]
    exact ⟨by norm_num, lt_max_of_lt_left (by norm_num)⟩
  have hT' : 0 < doubletapTime (tapGap r w x (k + 1)) (2 * w / r) := div_pos hg hm
  have e1 : some w /. some r *. lit 2 = some (2 * w / r) := by
    rw [Exact.div _ hr0.ne', Exact.lit, Exact.mul]
    congr 1; push_cast; ring
  unfold Speed.strainValue speedHit
  by_cases hsp : (x (k + 1)).spinner = true
  · rw [if_pos (by rw [ho.spinner, hsp]), if_pos hsp, hz]
  rw [if_neg (by rw [ho.spinner]; exact hsp), if_neg hsp]
  rw [h3, hs, e1, ho.strainTime, ho.travel, ho.jump]
  have e2 : some (tapGap r w x (k + 1)) /. clampF64 ((some (tapGap r w x (k + 1)) /. some (2 * w / r)) /. lit 0.93) (lit 0.92) (lit 1) =
      some (doubletapTime (tapGap r w x (k + 1)) (2 * w / r)) := by
    rw [Exact.div _ hW.ne', Exact.lit, Exact.div _ (by norm_num), Exact.lit, Exact.lit, Exact.clamp]
    have : min ((1 : ℚ) : ℝ) (max ((0.92 : ℚ) : ℝ) (tapGap r w x (k + 1) / (2 * w / r) / ((0.93 : ℚ) : ℝ))) =
        min 1 (max 0.92 (tapGap r w x (k + 1) / (2 * w / r) / 0.93)) := by norm_num
    rw [this, Exact.div _ hm.ne']
    rfl
  have fin : (
      let distance := fmin (lit 125) (some (slid x (k + 1)) +. some (jump c x (k + 1)))
      let strainTime := some (tapGap r w x (k + 1)) /.
        clampF64 ((some (tapGap r w x (k + 1)) /. some (2 * w / r)) /. lit 0.93) (lit 0.92) (lit 1)
      let speedBonus : Option ℝ :=
        if strainTime <. lit 75 then
          lit 1 +. lit 0.75 *. GoLibm.pow ((lit 75 -. strainTime) /. lit 40) (lit 2)
        else lit 1
      (speedBonus +. speedBonus *. GoLibm.pow (distance /. lit 125) (lit 3.5)) /. strainTime) =
      some (speedValue (tapGap r w x (k + 1)) (slid x (k + 1) + jump c x (k + 1)) (2 * w / r)) := by
    dsimp only
    rw [e2, Exact.add]
    generalize hJ : slid x (k + 1) + jump c x (k + 1) = J
    have e3 : fmin (lit 125) (some J) = some (min 125 J) := by
      rw [Exact.lit, Exact.fmin]; norm_num
    have e4 : GoLibm.pow (some (min 125 J) /. lit 125) (lit 3.5) = some ((min 125 J / 125) ^ (3.5 : ℝ)) := by
      rw [Exact.lit, Exact.lit, Exact.div _ (by norm_num), Exact.pow]; norm_num
    rw [e3, e4]
    generalize tapGap r w x (k + 1) = T at *
    generalize hg : doubletapTime T (2 * w / r) = T' at *
    unfold speedValue
    simp only [hg]
    by_cases h75 : T' < 75
    · rw [if_pos (by rw [Exact.lit, Exact.lt]; simpa using h75), if_pos h75]
      have e5 : lit 1 +. lit 0.75 *. GoLibm.pow ((lit 75 -. some T') /. lit 40) (lit 2) =
          some (1 + 0.75 * ((75 - T') / 40) ^ 2) := by
        rw [Exact.lit 75, Exact.sub, Exact.lit 40, Exact.div _ (by norm_num), Exact.lit 2, Exact.pow, Exact.lit 0.75, Exact.mul,
          Exact.lit, Exact.add]
        congr 1
        push_cast
        rw [Real.rpow_two]
      rw [e5, Exact.mul, Exact.add, Exact.div _ hT'.ne']
      congr 1; ring
    · rw [if_neg (by rw [Exact.lit, Exact.lt]; simpa using h75), if_neg h75]
      rw [Exact.lit, Exact.mul, Exact.add, Exact.div _ hT'.ne']
      congr 1; push_cast; ring
  dsimp only at fin ⊢
  cases hg : sk.getPrevious 0 with
  | none =>
    have hk : k = 0 := by
      unfold Skill.getPrevious at hg
      have := List.getElem?_eq_none_iff.mp hg
      rw [List.length_reverse, hlen] at this
      omega
    have et : tapGap r w x (k + 1) = gap r x (k + 1) := by
      unfold tapGap
      rw [if_neg (by omega)]
    rw [et] at fin ⊢
    exact fin
  | some p =>
    have hk : 1 ≤ k := by
      unfold Skill.getPrevious at hg
      have := (List.getElem?_eq_some_iff.mp hg).1
      rw [List.length_reverse, hlen] at this
      omega
    have hp0 := hp 0 p hg
    rw [Nat.sub_zero] at hp0
    have et : (if (some (gap r x (k + 1)) : Option ℝ) <. some (2 * w / r) && p.strainTime >. some (gap r x (k + 1)) then
          lerpF64 p.strainTime (some (gap r x (k + 1))) (some (gap r x (k + 1)) /. some (2 * w / r))
        else some (gap r x (k + 1))) = some (tapGap r w x (k + 1)) := by
      rw [hp0.strainTime, Exact.lt, Exact.lt]
      unfold tapGap
      rw [show k + 1 - 1 = k by omega]
      by_cases hc : gap r x (k + 1) < 2 * w / r ∧ gap r x (k + 1) < gap r x k
      · rw [if_pos (by simp only [hc.1, hc.2, decide_true, Bool.and_true]), if_pos ⟨by omega, hc⟩]
        unfold lerpF64
        rw [Exact.div _ hW.ne', Exact.sub, Exact.mul, Exact.add]
      · rw [if_neg (by simpa using hc), if_neg (fun h => hc h.2)]
    simp only [et]
    exact fin

theorem speedHit_nonneg (hc0 : 0 < c) (hr0 : 0 < r) (hw : 0 < w) (hx : Playable x) (n : ℕ) : 0 ≤ speedHit r w x c n := by
  unfold speedHit
  split
  · exact le_rfl
  · have hg : 0 < tapGap r w x n := tapGap_pos hr0 hw _
    have hm : 0 < min 1 (max 0.92 (tapGap r w x n / (2 * w / r) / 0.93)) := by
      rw [lt_min_iff]
      exact ⟨by norm_num, lt_max_of_lt_left (by norm_num)⟩
    have hT' : 0 < doubletapTime (tapGap r w x n) (2 * w / r) := div_pos hg hm
    have hJ : 0 ≤ slid x n + jump c x n := add_nonneg (slid_nonneg hx n) (jump_nonneg hc0 n)
    have hJ' : 0 ≤ min 125 (slid x n + jump c x n) / 125 := div_nonneg (le_min (by norm_num) hJ) (by norm_num)
    unfold speedValue
    simp only
    apply div_nonneg _ hT'.le
    apply mul_nonneg
    · split <;> positivity
    · have := Real.rpow_nonneg hJ' 3.5
      linarith

/-! ### One step of the rhythm -/

theorem tempoChange_nonneg (hr : 0 < r) (hw : 0 < w) (k : ℕ) : 0 ≤ tempoChange r w x k := by
  unfold tempoChange
  apply mul_nonneg
  · exact le_min zero_le_one (div_nonneg (le_max_left _ _) (by positivity))
  · have : (0 : ℝ) ≤ min 0.5 (Real.sin (goPi / (min (gap r x (k - 1)) (gap r x k) / max (gap r x (k - 1)) (gap r x k))) ^ 2) :=
      le_min (by norm_num) (sq_nonneg _)
    linarith

theorem endChange_nonneg (hr : 0 < r) (hw : 0 < w) (s : ℕ) (i : ℕ × ℕ) : 0 ≤ endChange r w x s i := by
  have := tempoChange_nonneg (x := x) hr hw i.2
  unfold endChange
  refine mul_nonneg (mul_nonneg (mul_nonneg (mul_nonneg (mul_nonneg this ?_) ?_) ?_) ?_) ?_ <;> split <;> norm_num

theorem penalise_exact {s : ℕ} {i : ℕ × ℕ} {st : Speed.Rhythm (Option ℝ)} {o p q : DiffObject (Option ℝ) (Option ℝ)}
    (ho : Shown d c r x i.2 o) (hp : Shown d c r x (i.2 - 1) p) (hq : Shown d c r x (i.2 - 2) q)
    (h1 : st.previousIslandSize = s) (h2 : st.islandSize = islandSize i) :
    Speed.penalise st o p q (some (tempoChange r w x i.2)) = some (endChange r w x s i) := by
  have half : ∀ (P : Prop) [Decidable P] (y : ℝ) (z : ℚ), (if P then (some y : Option ℝ) *. lit z else some y) =
      some (y * (if P then (z : ℝ) else 1)) := by
    intro P _ y z
    split
    · rw [Exact.lit, Exact.mul]
    · rw [mul_one]
  unfold Speed.penalise endChange
  rw [half, h1, h2, ho.lazy, hp.lazy]
  simp only [half]
  rw [ho.strainTime, hp.strainTime, hq.strainTime, Exact.lit 10, Exact.add, Exact.add, Exact.lt, Exact.lt]
  have e : (decide (gap r x (i.2 - 1) + ((10 : ℚ) : ℝ) < gap r x (i.2 - 2)) &&
      decide (gap r x i.2 + ((10 : ℚ) : ℝ) < gap r x (i.2 - 1))) = true ↔
      gap r x (i.2 - 1) + 10 < gap r x (i.2 - 2) ∧ gap r x i.2 + 10 < gap r x (i.2 - 1) := by
    simp
  have e' : tempoChange r w x i.2 * (if (x i.2).slide.isSome = true then ((0.125 : ℚ) : ℝ) else 1) *
      (if (x (i.2 - 1)).slide.isSome = true then ((0.25 : ℚ) : ℝ) else 1) * (if s = islandSize i then ((0.25 : ℚ) : ℝ) else 1) *
      (if s % 2 = islandSize i % 2 then ((0.5 : ℚ) : ℝ) else 1) =
      tempoChange r w x i.2 * (if (x i.2).slide.isSome = true then 0.125 else 1) *
      (if (x (i.2 - 1)).slide.isSome = true then 0.25 else 1) * (if s = islandSize i then 0.25 else 1) *
      (if s % 2 = islandSize i % 2 then 0.5 else 1) := by norm_num
  rw [e']
  congr 2
  · by_cases h : gap r x (i.2 - 1) + 10 < gap r x (i.2 - 2) ∧ gap r x i.2 + 10 < gap r x (i.2 - 1)
    · rw [if_pos (e.mpr h), if_pos h]; norm_num
    · rw [if_neg (fun h' => h (e.mp h')), if_neg h]

open Classical in
theorem rhythmStep_exact (hr : 0 < r) (hw : 0 < w) {n k i L : ℕ} (hi : n = k + i) (hL : L = min (n - 1) 32) (hL0 : 0 < L)
    {cur o p q : DiffObject (Option ℝ) (Option ℝ)} (hcur : Shown d c r x n cur) (ho : Shown d c r x k o)
    (hp : Shown d c r x (k - 1) p) (st : Speed.Rhythm (Option ℝ)) :
    Speed.rhythmStep (some (w / r)) L i cur o p q st =
      if clock r x n - clock r x k < 5000 then
        if st.firstDeltaSwitch then
          if Switch r x k then
            { complexitySum := st.complexitySum +.
                GoFloat.sqrt (Speed.penalise st o p q (some (tempoChange r w x k)) *. st.startRatio) *. some (memory r x n k) *.
                  GoFloat.sqrt (lit 4 +. ofInt st.islandSize) /. lit 2 *.
                  GoFloat.sqrt (lit 4 +. ofInt st.previousIslandSize) /. lit 2
              startRatio := Speed.penalise st o p q (some (tempoChange r w x k))
              previousIslandSize := st.islandSize
              firstDeltaSwitch := decide (¬ Slower r x k)
              islandSize := 1 }
          else if st.islandSize < 7 then { st with islandSize := st.islandSize + 1 } else st
        else if Faster r x k then
          { st with firstDeltaSwitch := true, startRatio := some (tempoChange r w x k), islandSize := 1 }
        else st
      else st := by
  have hz : (lit 0 : Option ℝ) = some 0 := by rw [Exact.lit]; norm_num
  have g1 : (0 : ℝ) < gap r x k := by linarith [gap_ge (r := r) (x := x) k]
  have g2 : (0 : ℝ) < gap r x (k - 1) := by linarith [gap_ge (r := r) (x := x) (k - 1)]
  have hmm : max (gap r x (k - 1)) (gap r x k) ≠ 0 := (lt_max_of_lt_left g2).ne'
  have hmn : min (gap r x (k - 1)) (gap r x k) / max (gap r x (k - 1)) (gap r x k) ≠ 0 :=
    (div_pos (lt_min g2 g1) (lt_max_of_lt_left g2)).ne'
  have hWr : w / r * ((0.6 : ℚ) : ℝ) ≠ 0 := by
    have : (0 : ℝ) < ((0.6 : ℚ) : ℝ) := by norm_num
    positivity
  have ed : fmax (lit 0) (lit 5000 -. (cur.startTime -. o.startTime)) /. lit 5000 =
      some (max 0 (5000 - (clock r x n - clock r x k)) / 5000) := by
    rw [hcur.start, ho.start, Exact.sub, Exact.lit, Exact.lit, Exact.sub, Exact.fmax, Exact.div _ (by norm_num)]
    norm_num
  have er : fmin (lit 1) (fmin (lit 1) (fmax (lit 0) (GoFloat.abs (some (gap r x (k - 1)) -. some (gap r x k)) -. some (w / r) *. lit 0.6)
        /. (some (w / r) *. lit 0.6))) *.
      (lit 1 +. lit 6 *. fmin (lit 0.5) (GoLibm.pow (GoLibm.sin (lit piConst /.
        (fmin (some (gap r x (k - 1))) (some (gap r x k)) /. fmax (some (gap r x (k - 1))) (some (gap r x k))))) (lit 2))) =
      some (tempoChange r w x k) := by
    simp only [Exact.lit, Exact.sub, Exact.mul, Exact.abs, Exact.fmax, Exact.fmin, Exact.div _ hWr, Exact.div _ hmm, Exact.div _ hmn,
      Exact.sin, Exact.pow, Exact.add]
    congr 1
    unfold tempoChange goPi
    push_cast
    rw [Real.rpow_two, mul_comm (w / r) (0.6 : ℝ), ← min_assoc, min_self]
  have ef : ((some (gap r x (k - 1)) : Option ℝ) >. lit 1.25 *. some (gap r x k)) = decide (Faster r x k) := by
    rw [Exact.lit, Exact.mul, Exact.lt]
    unfold Faster
    congr 1
  have es : ((some (gap r x (k - 1)) : Option ℝ) *. lit 1.25 <. some (gap r x k)) = decide (Slower r x k) := by
    rw [Exact.lit, Exact.mul, Exact.lt]
    unfold Slower
    rw [mul_comm]
    norm_num
  unfold Speed.rhythmStep
  simp only [ed, ho.strainTime, hp.strainTime, er, ef, es]
  rw [hz, Exact.eq]
  by_cases hrec : clock r x n - clock r x k < 5000
  · have hpos : 0 < 5000 - (clock r x n - clock r x k) := by linarith
    have hne : ¬ max 0 (5000 - (clock r x n - clock r x k)) / 5000 = 0 := by
      rw [max_eq_right hpos.le]; positivity
    rw [if_pos (by simp only [hne, decide_false, Bool.not_false]), if_pos hrec]
    have em : fmin (ofInt ((L : ℤ) - (i : ℤ)) /. ofInt (L : ℤ)) (some (max 0 (5000 - (clock r x n - clock r x k)) / 5000)) =
        some (memory r x n k) := by
      have hLr : ((L : ℤ) : ℝ) ≠ 0 := by exact_mod_cast hL0.ne'
      rw [Exact.ofInt, Exact.ofInt, Exact.div _ hLr, Exact.fmin, max_eq_right hpos.le]
      unfold memory
      rw [← hL]
      congr 2
      rw [hi]
      push_cast
      have hLr' : (L : ℝ) ≠ 0 := by exact_mod_cast hL0.ne'
      field_simp
      ring
    rw [em]
    have eb : (!(decide (Faster r x k) || decide (Slower r x k))) = !decide (Switch r x k) := by
      unfold Switch
      by_cases h1 : Faster r x k <;> by_cases h2 : Slower r x k <;> simp [h1, h2]
    rw [eb]
    by_cases hsw : Switch r x k
    · simp only [hsw, decide_true, Bool.not_true, Bool.false_eq_true, if_false, if_true, decide_eq_true_eq, decide_not]
    · simp only [hsw, decide_false, Bool.not_false, if_true, if_false, decide_eq_true_eq]
  · have h0 : max 0 (5000 - (clock r x n - clock r x k)) = 0 := max_eq_left (by linarith)
    rw [if_neg hrec, if_neg (by rw [h0]; simp)]

/-! ### The islands -/

/-- Size, end and change of the last island. -/
noncomputable def lastIsland (r w : ℝ) (x : ℕ → Note) : ℕ × ℕ × ℝ → List (ℕ × ℕ) → ℕ × ℕ × ℝ
  | y, [] => y
  | y, i :: l => lastIsland r w x (islandSize i, i.2, endChange r w x y.1 i) l

theorem lastIsland_append (y : ℕ × ℕ × ℝ) (l : List (ℕ × ℕ)) (i : ℕ × ℕ) :
    lastIsland r w x y (l ++ [i]) = (islandSize i, i.2, endChange r w x (lastIsland r w x y l).1 i) := by
  induction l generalizing y with
  | nil => rfl
  | cons j l ih => exact ih _

theorem complexity_append (n : ℕ) (y : ℕ × ℕ × ℝ) (l : List (ℕ × ℕ)) (i : ℕ × ℕ) :
    complexityAfter r w x n y.1 y.2.1 y.2.2 (l ++ [i]) = complexityAfter r w x n y.1 y.2.1 y.2.2 l +
      Real.sqrt (endChange r w x (lastIsland r w x y l).1 i *
        (if i.1 = (lastIsland r w x y l).2.1 then (lastIsland r w x y l).2.2 else tempoChange r w x i.1)) * memory r x n i.2 *
      (Real.sqrt (4 + islandSize i) / 2) * (Real.sqrt (4 + (lastIsland r w x y l).1) / 2) := by
  induction l generalizing y with
  | nil =>
    simp only [List.nil_append, complexityAfter, lastIsland]
    rw [add_zero, zero_add]
    congr!
  | cons j l ih =>
    have := ih (islandSize j, j.2, endChange r w x y.1 j)
    simp only [List.cons_append, complexityAfter, lastIsland] at this ⊢
    rw [this, add_assoc]
    congr!

theorem lastIsland_nonneg (hr : 0 < r) (hw : 0 < w) (l : List (ℕ × ℕ)) {y : ℕ × ℕ × ℝ} (hy : 0 ≤ y.2.2) :
    0 ≤ (lastIsland r w x y l).2.2 := by
  induction l generalizing y with
  | nil => exact hy
  | cons j l ih => exact ih (endChange_nonneg hr hw _ _)

/-- The rhythm before note `k` is looked at, for note `n`. -/
structure Counted (r w : ℝ) (x : ℕ → Note) (n k : ℕ) (l : List (ℕ × ℕ)) (st : Speed.Rhythm (Option ℝ)) : Prop where
  all : ∀ i, i ∈ l ↔ Island r x n i ∧ i.2 < k
  sorted : l.Pairwise fun i j => i.2 ≤ j.1
  ended : (lastIsland r w x (0, 0, 0) l).2.1 < k
  size : st.previousIslandSize = (lastIsland r w x (0, 0, 0) l).1
  sum : st.complexitySum = some (complexityAfter r w x n 0 0 0 l)
  counting : st.firstDeltaSwitch = true → ∃ a, Remembered r x n a ∧ Faster r x a ∧ a < k ∧ (∀ j, a < j → j < k → ¬ Switch r x j) ∧
    st.islandSize = min 7 (k - a) ∧
    st.startRatio = some (if a = (lastIsland r w x (0, 0, 0) l).2.1 then (lastIsland r w x (0, 0, 0) l).2.2 else tempoChange r w x a)
  closed : st.firstDeltaSwitch = false → ∀ a, Remembered r x n a → Faster r x a → a < k → ∃ j, a < j ∧ j < k ∧ Switch r x j

theorem faster_slower {k : ℕ} (h1 : Faster r x k) (h2 : Slower r x k) : False := by
  have g1 := gap_ge (r := r) (x := x) k
  have g2 := gap_ge (r := r) (x := x) (k - 1)
  unfold Faster at h1
  unfold Slower at h2
  linarith

theorem counted_step (hr : 0 < r) (hw : 0 < w) (hx : Playable x) {n k i L : ℕ} (hi : n = k + i) (hL : L = min (n - 1) 32)
    (hk : 3 ≤ k) (hik : 0 < i) (hi30 : i ≤ 30)
    {cur o p q : DiffObject (Option ℝ) (Option ℝ)} (hcur : Shown d c r x n cur) (ho : Shown d c r x k o)
    (hp : Shown d c r x (k - 1) p) (hq : Shown d c r x (k - 2) q) {l : List (ℕ × ℕ)} {st : Speed.Rhythm (Option ℝ)}
    (h : Counted r w x n k l st) :
    ∃ l', Counted r w x n (k + 1) l' (Speed.rhythmStep (some (w / r)) L i cur o p q st) := by
  rw [rhythmStep_exact hr hw hi hL (by omega) hcur ho hp st]
  by_cases hrec : clock r x n - clock r x k < 5000
  · rw [if_pos hrec]
    have hrem : Remembered r x n k := ⟨hk, by omega, by omega, hrec⟩
    by_cases hfirst : st.firstDeltaSwitch = true
    · rw [if_pos hfirst]
      obtain ⟨a, ha1, ha2, ha3, ha4, ha5, ha6⟩ := h.counting hfirst
      by_cases hsw : Switch r x k
      · rw [if_pos hsw]
        have hisl : Island r x n (a, k) := ⟨ha1, ha2, ha3, by show k < n; omega, hsw, ha4⟩
        have hpen := penalise_exact (w := w) (s := (lastIsland r w x (0, 0, 0) l).1) (i := (a, k)) (st := st) (o := o) (p := p) (q := q)
          ho hp hq h.size (by rw [ha5]; rfl)
        have hne := lastIsland_nonneg (x := x) hr hw l (y := (0, 0, 0)) le_rfl
        have hst : 0 ≤ (if a = (lastIsland r w x (0, 0, 0) l).2.1 then (lastIsland r w x (0, 0, 0) l).2.2 else tempoChange r w x a) := by
          split
          · exact hne
          · exact tempoChange_nonneg hr hw a
        have hen := endChange_nonneg (x := x) hr hw (lastIsland r w x (0, 0, 0) l).1 (a, k)
        have ela := lastIsland_append (r := r) (w := w) (x := x) (0, 0, 0) l (a, k)
        refine ⟨l ++ [(a, k)], ⟨?_, ?_, ?_, ?_, ?_, ?_, ?_⟩⟩
        · intro j
          rw [List.mem_append, List.mem_singleton, h.all]
          constructor
          · rintro (⟨h1, h2⟩ | rfl)
            · exact ⟨h1, by omega⟩
            · exact ⟨hisl, by show k < k + 1; omega⟩
          · rintro ⟨h1, h2⟩
            rcases Nat.lt_or_ge j.2 k with h3 | h3
            · exact .inl ⟨h1, h3⟩
            · have e2 : j.2 = k := by omega
              right
              have e1 : j.1 = a := by
                rcases Nat.lt_trichotomy j.1 a with h4 | h4 | h4
                · exact absurd (.inl ha2) (h1.steady a h4 (by omega))
                · exact h4
                · exact absurd (.inl h1.starts) (ha4 j.1 h4 (by have := h1.lt; omega))
              exact Prod.ext e1 e2
        · rw [List.pairwise_append]
          refine ⟨h.sorted, List.pairwise_singleton _ _, ?_⟩
          intro j hj y hy
          rw [List.mem_singleton] at hy
          subst hy
          obtain ⟨h1, h2⟩ := (h.all j).mp hj
          by_contra hlt
          push Not at hlt
          exact ha4 j.2 hlt h2 h1.ends
        · rw [ela]; show k < k + 1; omega
        · rw [ela, ha5]; rfl
        · dsimp only
          rw [hpen, ha6, h.sum, complexity_append n (0, 0, 0) l (a, k), h.size, ha5, Exact.mul, Exact.sqrt (mul_nonneg hen hst), Exact.mul,
            Exact.lit 4, Exact.ofInt, Exact.ofInt, Exact.add, Exact.add, Exact.sqrt (by positivity), Exact.sqrt (by positivity), Exact.mul,
            Exact.lit 2, Exact.div _ (by norm_num), Exact.mul, Exact.div _ (by norm_num), Exact.add]
          congr 1
          unfold islandSize
          push_cast
          ring
        · dsimp only
          intro hd
          have hns : ¬ Slower r x k := by simpa using hd
          have hf : Faster r x k := hsw.resolve_right hns
          refine ⟨k, hrem, hf, by omega, fun j h1 h2 => by omega, by rw [show k + 1 - k = 1 by omega]; rfl, ?_⟩
          rw [ela, hpen]
          simp only [if_true]
        · dsimp only
          intro hd a' h1 h2 h3
          have hsl : Slower r x k := by
            by_contra hns
            simp [hns] at hd
          have : a' ≠ k := by rintro rfl; exact faster_slower h2 hsl
          exact ⟨k, by omega, by omega, hsw⟩
      · rw [if_neg hsw]
        refine ⟨l, ?_⟩
        have hstep : ∀ st' : Speed.Rhythm (Option ℝ), st'.previousIslandSize = st.previousIslandSize → st'.complexitySum = st.complexitySum →
            st'.startRatio = st.startRatio → st'.firstDeltaSwitch = true → st'.islandSize = min 7 (k + 1 - a) →
            Counted r w x n (k + 1) l st' := by
          intro st' e1 e2 e3 e4 e5
          refine ⟨?_, h.sorted, by have := h.ended; omega, e1.trans h.size, e2.trans h.sum, ?_, ?_⟩
          · intro j
            rw [h.all]
            constructor
            · rintro ⟨h1, h2⟩; exact ⟨h1, by omega⟩
            · rintro ⟨h1, h2⟩
              refine ⟨h1, ?_⟩
              have : j.2 ≠ k := by intro e; exact hsw (e ▸ h1.ends)
              omega
          · intro _
            refine ⟨a, ha1, ha2, by omega, ?_, e5, e3.trans ha6⟩
            intro j h1 h2
            rcases Nat.lt_or_ge j k with h3 | h3
            · exact ha4 j h1 h3
            · have : j = k := by omega
              rw [this]; exact hsw
          · intro hd; rw [e4] at hd; cases hd
        by_cases h7 : st.islandSize < 7
        · rw [if_pos h7]
          exact hstep _ rfl rfl rfl hfirst (by dsimp only; omega)
        · rw [if_neg h7]
          exact hstep _ rfl rfl rfl hfirst (by omega)
    · rw [if_neg hfirst]
      have hclosed := h.closed (by simpa using hfirst)
      have hall : ∀ j, j ∈ l ↔ Island r x n j ∧ j.2 < k + 1 := by
        intro j
        rw [h.all]
        constructor
        · rintro ⟨h1, h2⟩; exact ⟨h1, by omega⟩
        · rintro ⟨h1, h2⟩
          refine ⟨h1, ?_⟩
          by_contra h3
          have e : j.2 = k := by omega
          obtain ⟨m, m1, m2, m3⟩ := hclosed j.1 h1.remembered h1.starts (by have := h1.lt; omega)
          exact h1.steady m m1 (by omega) m3
      refine ⟨l, ?_⟩
      by_cases hf : Faster r x k
      · rw [if_pos hf]
        refine ⟨hall, h.sorted, by have := h.ended; omega, h.size, h.sum, ?_, fun hd => by cases hd⟩
        intro _
        refine ⟨k, hrem, hf, by omega, fun j h1 h2 => by omega, by dsimp only; omega, ?_⟩
        rw [if_neg (by have := h.ended; omega)]
      · rw [if_neg hf]
        refine ⟨hall, h.sorted, by have := h.ended; omega, h.size, h.sum, fun hd => absurd hd hfirst, ?_⟩
        intro _ a h1 h2 h3
        have : a ≠ k := by rintro rfl; exact hf h2
        obtain ⟨m, m1, m2, m3⟩ := hclosed a h1 h2 (by omega)
        exact ⟨m, m1, by omega, m3⟩
  · rw [if_neg hrec]
    have hno : ∀ a, a ≤ k → ¬ Remembered r x n a := by
      intro a ha hra
      have h1 : clock r x a ≤ clock r x k := div_le_div_of_nonneg_right (hx.sorted a k ha) hr.le
      have := hra.recent
      linarith
    refine ⟨l, ⟨?_, h.sorted, by have := h.ended; omega, h.size, h.sum, ?_, ?_⟩⟩
    · intro j
      rw [h.all]
      constructor
      · rintro ⟨h1, h2⟩; exact ⟨h1, by omega⟩
      · rintro ⟨h1, h2⟩
        exact absurd h1.remembered (hno _ (by have := h1.lt; omega))
    · intro hd
      obtain ⟨a, h1, -, h3, -⟩ := h.counting hd
      exact absurd h1 (hno a (by omega))
    · intro _ a h1 _ h3
      exact absurd h1 (hno a (by omega))

theorem counted_loop (hr : 0 < r) (hw : 0 < w) (hx : Playable x) {n : ℕ} {sk : Skill (Option ℝ) (Option ℝ)}
    (hlen : sk.previous.length = min (n - 1) 32) (hprev : ∀ (i : ℕ) o, sk.previous.reverse[i]? = some o → Shown d c r x (n - 1 - i) o)
    {cur : DiffObject (Option ℝ) (Option ℝ)} (hcur : Shown d c r x n cur) {i : ℕ} (hi : i + 2 ≤ sk.previous.length)
    {l : List (ℕ × ℕ)} {st st' : Speed.Rhythm (Option ℝ)} (h : Counted r w x n (n - i) l st)
    (he : Speed.rhythmLoop (some (w / r)) sk cur i st = .ok st') : ∃ l', Counted r w x n n l' st' := by
  induction i generalizing l st with
  | zero => cases he; exact ⟨l, h⟩
  | succ i ih =>
    have get : ∀ j o, sk.derefPrevious j = .ok o → Shown d c r x (n - 1 - j) o := by
      intro j o ho
      unfold Skill.derefPrevious at ho
      split at ho
      · rename_i o' ho'
        cases ho
        exact hprev j o ho'
      · cases ho
    unfold Speed.rhythmLoop at he
    obtain ⟨o, h1, he⟩ := bind_ok he
    obtain ⟨p, h2, he⟩ := bind_ok he
    obtain ⟨q, h3, he⟩ := bind_ok he
    have ho := get _ _ h1
    have hp := get _ _ h2
    have hq := get _ _ h3
    obtain ⟨l', hl'⟩ := counted_step (L := sk.previous.length) (i := i + 1) (k := n - (i + 1)) (cur := cur) (o := o) (p := p) (q := q)
      hr hw hx (by omega) hlen (by omega) (by omega) (by omega) hcur
      (by rwa [show n - (i + 1) = n - 1 - i by omega]) (by rwa [show n - (i + 1) - 1 = n - 1 - (i + 1) by omega])
      (by rwa [show n - (i + 1) - 2 = n - 1 - (i + 2) by omega]) h
    rw [show n - (i + 1) + 1 = n - i by omega] at hl'
    exact ih (by omega) hl' he

theorem islands_unique {n : ℕ} {l l' : List (ℕ × ℕ)} (h : Islands r x n l) (h' : Islands r x n l') : l = l' := by
  have strict : ∀ l, Islands r x n l → l.Pairwise fun i j => i.1 < j.1 := by
    intro l h
    refine List.Pairwise.imp_of_mem ?_ h.sorted
    intro a b ha _ hab
    have := ((h.all a).mp ha).lt
    omega
  have s1 := strict l h
  have s2 := strict l' h'
  have n1 : l.Nodup := s1.imp (by rintro a b hab rfl; omega)
  have n2 : l'.Nodup := s2.imp (by rintro a b hab rfl; omega)
  have hp : l.Perm l' := (List.perm_ext_iff_of_nodup n1 n2).mpr (fun i => by rw [h.all, h'.all])
  exact hp.eq_of_pairwise (fun a b _ _ h1 h2 => by omega) s1 s2

theorem memory_nonneg {n : ℕ} {i : ℕ × ℕ} (hr : 0 < r) (hx : Playable x) (h : Island r x n i) : 0 ≤ memory r x n i.2 := by
  have h1 := h.remembered.third
  have h2 := h.remembered.count
  have h3 := h.remembered.recent
  have h4 := h.lt
  have h5 := h.before
  have hc : clock r x i.1 ≤ clock r x i.2 := div_le_div_of_nonneg_right (hx.sorted _ _ h4.le) hr.le
  unfold memory
  apply le_min
  · have hL : (0 : ℝ) < (min (n - 1) 32 : ℕ) := by
      have : 0 < min (n - 1) 32 := by omega
      exact_mod_cast this
    have hle : (n : ℝ) - i.2 ≤ (min (n - 1) 32 : ℕ) := by
      have : n ≤ min (n - 1) 32 + i.2 := by omega
      have : (n : ℝ) ≤ (min (n - 1) 32 : ℕ) + i.2 := by exact_mod_cast this
      linarith
    have := (div_le_one hL).mpr hle
    linarith
  · apply div_nonneg _ (by norm_num)
    linarith

theorem complexity_nonneg (hr : 0 < r) (hx : Playable x) {n s e : ℕ} {ρ : ℝ} {l : List (ℕ × ℕ)} (h : ∀ i ∈ l, Island r x n i) :
    0 ≤ complexityAfter r w x n s e ρ l := by
  induction l generalizing s e ρ with
  | nil => exact le_rfl
  | cons i l ih =>
    unfold complexityAfter
    have hm := memory_nonneg hr hx (h i List.mem_cons_self)
    have := ih (s := islandSize i) (e := i.2) (ρ := endChange r w x s i) (fun j hj => h j (List.mem_cons_of_mem _ hj))
    positivity

theorem rhythm_exact (hr : 0 < r) (hw : 0 < w) (hx : Playable x) {k : ℕ} {sk : Skill (Option ℝ) (Option ℝ)}
    (hlen : sk.previous.length = min k 32) (hprev : ∀ (i : ℕ) o, sk.previous.reverse[i]? = some o → Shown d c r x (k - i) o)
    (h3 : sk.diff.hit300 = some w) (hs : sk.diff.speed = some r)
    {cur : DiffObject (Option ℝ) (Option ℝ)} (hcur : Shown d c r x (k + 1) cur) :
    ∃ l, Islands r x (k + 1) l ∧ Speed.rhythm sk cur = .ok (some (rhythmFactor r w x (k + 1) l)) := by
  have hz : (lit 0 : Option ℝ) = some 0 := by rw [Exact.lit]; norm_num
  obtain ⟨st', hst'⟩ := GosuPP.rhythmLoop_ok (some (w / r)) sk cur (sk.previous.length - 2)
      { previousIslandSize := 0, complexitySum := lit 0, islandSize := 1, startRatio := lit 0
        firstDeltaSwitch := false } (by omega)
  have h0 : Counted r w x (k + 1) (k + 1 - (sk.previous.length - 2)) []
      { previousIslandSize := 0, complexitySum := lit 0, islandSize := 1, startRatio := lit 0
        firstDeltaSwitch := false } := by
    have hno : ∀ a, Remembered r x (k + 1) a → ¬ a < k + 1 - (sk.previous.length - 2) := by
      intro a ha hlt
      have h1 := ha.third
      have h2 := ha.count
      have h3 := ha.before
      omega
    refine ⟨?_, List.Pairwise.nil, ?_, rfl, hz, (fun h => by cases h), fun _ a h1 _ h2 => absurd h2 (hno a h1)⟩
    · intro i
      constructor
      · intro h; cases h
      · rintro ⟨h1, h2⟩
        exact absurd (lt_trans h1.lt h2) (hno _ h1.remembered)
    · show 0 < _
      omega
  obtain ⟨l, hl⟩ : ∃ l, Counted r w x (k + 1) (k + 1) l st' := by
    by_cases h2 : 2 ≤ sk.previous.length
    · exact counted_loop hr hw hx (by rw [hlen]; rfl) (fun i o ho => hprev i o ho) hcur (by omega) h0 hst'
    · rw [show sk.previous.length - 2 = 0 by omega] at hst' h0
      cases hst'
      exact ⟨[], h0⟩
  have hisl : Islands r x (k + 1) l := ⟨fun i => by
    rw [hl.all]
    exact ⟨fun h => h.1, fun h => ⟨h, h.before⟩⟩, hl.sorted⟩
  refine ⟨l, hisl, ?_⟩
  unfold Speed.rhythm rhythmFactor
  by_cases hsp : (x (k + 1)).spinner = true
  · rw [if_pos (by rw [hcur.spinner, hsp]), if_pos hsp, hz]
    rfl
  · rw [if_neg (by rw [hcur.spinner]; exact hsp), if_neg hsp]
    simp only [h3, hs, Exact.div w hr.ne', hst', ok_bind]
    have hn := complexity_nonneg (w := w) hr hx (s := 0) (e := 0) (ρ := 0) (fun i hi => (hisl.all i).mp hi)
    rw [hl.sum, Exact.lit, Exact.lit, Exact.mul, Exact.add, Exact.sqrt (by push_cast; positivity), Exact.lit, Exact.div _ (by norm_num)]
    show Except.ok _ = _
    congr 2
    push_cast
    rw [mul_comm (complexityAfter r w x (k + 1) 0 0 0 l)]

end GosuPP.Exactly
