import Verif.Lemmas.SteadyMap
import Verif.Props.Sections
import Verif.Props.Motion

/-!
# C90: closed forms for the strain of steady maps
-/

namespace GosuPP.Props
open Go Spec Exactly
attribute [local instance] exactLibm

/-! ### Decaying sums -/

/-- The sum of a geometric series. -/
theorem decayed_eq (v q : ℝ) (n : ℕ) : decayed v q n * (1 - q) = v * (1 - q ^ n) := by
  induction n with
  | zero => simp [decayed]
  | succ n ih =>
    rw [decayed, pow_succ]
    linear_combination q * ih

theorem decayed_step (v q : ℝ) (n : ℕ) : decayed v q (n + 1) = decayed v q n + v * q ^ n := by
  induction n with
  | zero => simp [decayed]
  | succ n ih =>
    rw [decayed, pow_succ]
    have e : decayed v q (n + 1) = decayed v q n * q + v := rfl
    linear_combination q * ih - e

theorem decayed_mono {v q : ℝ} (hv : 0 ≤ v) (hq : 0 ≤ q) (n : ℕ) : decayed v q n ≤ decayed v q (n + 1) := by
  rw [decayed_step]
  have := mul_nonneg hv (pow_nonneg hq n)
  linarith

theorem decayed_nonneg {v q : ℝ} (hv : 0 ≤ v) (hq : 0 ≤ q) (n : ℕ) : 0 ≤ decayed v q n := by
  induction n with
  | zero => exact le_rfl
  | succ n ih => exact ih.trans (decayed_mono hv hq n)

theorem speedValue_nonneg {T J W : ℝ} (hT : 0 < T) (hJ : 0 ≤ J) : 0 ≤ speedValue T J W := by
  have hm : 0 < min 1 (max 0.92 (T / W / 0.93)) := by
    rw [lt_min_iff]
    exact ⟨by norm_num, lt_max_of_lt_left (by norm_num)⟩
  have hT' : 0 < doubletapTime T W := div_pos hT hm
  have h1 : (0 : ℝ) ≤ (min 125 J / 125) ^ (3.5 : ℝ) := by
    apply Real.rpow_nonneg
    exact div_nonneg (le_min (by norm_num) hJ) (by norm_num)
  unfold speedValue
  simp only
  apply div_nonneg _ hT'.le
  apply mul_nonneg _ (by linarith)
  split
  · positivity
  · norm_num

section
variable {t0 Δ dist r c w : ℝ} {pos : ℕ → ℝ × ℝ} {objs : List (Obj (Option ℝ) (Option ℝ))} {d : Difficulty (Option ℝ)}

/-- The state of the speed skill after a steady map. -/
private theorem speed_after (hs : Stream d.mods t0 Δ dist pos objs) (hdist : 0 ≤ dist) (hr : d.speed = some r) (hr0 : 0 < r)
    (hc : d.circleRadius = some c) (hc0 : 0 < c) (hw : d.hit300 = some w) (hw0 : 0 < w) {fuel : ℕ}
    {ds : List (DiffObject (Option ℝ) (Option ℝ))} (hd : createDifficultyObjects objs d = .ok ds)
    {sk : Skill (Option ℝ) (Option ℝ)} (h : ds.foldlM (fun s o => s.process fuel o) (Skill.newSpeed d) = .ok sk) :
    After (Even (max (Δ / r) 25) (jumpLength c dist) (Δ / r))
      (decayed (1375 * speedValue (max (Δ / r) 25) (jumpLength c dist) (2 * w / r)) (0.3 ^ (Δ / r / 1000)))
      (fun k => (t0 + k * Δ) / r) (Skill.newSpeed d) (objs.length - 1) sk := by
  obtain ⟨ds', hd', hlen, he, ht, -⟩ := steady_objects hs hdist hr hr0 hc hc0
  rw [hd] at hd'
  cases hd'
  have hT : (25 : ℝ) ≤ max (Δ / r) 25 := le_max_right _ _
  have hJ := jumpLength_nonneg hc0 hdist
  have hset : Set (0.3 : ℝ) 1375 (Skill.newSpeed d : Skill (Option ℝ) (Option ℝ)) := by
    refine ⟨?_, ?_, ?_, ?_⟩
    · show (lit 0.3 : Option ℝ) = _; rw [Exact.lit]; norm_num
    · show (lit 1375 : Option ℝ) = _; rw [Exact.lit]; norm_num
    · show (lit 400 : Option ℝ) = _; rw [Exact.lit]; norm_num
    · show 1 ≤ 32; norm_num
  have hq : (0 : ℝ) ≤ 0.3 ^ (Δ / r / 1000) := Real.rpow_nonneg (by norm_num) _
  have hsv := speedValue_nonneg (W := 2 * w / r) (by linarith : 0 < max (Δ / r) 25) hJ
  rw [← hlen, ← Nat.zero_add ds.length]
  refine run_after (b := 0.3) (m := 1375) (δ := Δ / r) (by norm_num) (by norm_num) hset rfl
    (val := fun _ => speedValue (max (Δ / r) 25) (jumpLength c dist) (2 * w / r)) (fun k => ?_) (fun k => ?_) ?_ he
    (fun o ho => (he o ho).deltaTime) (k := 0) (fun i o ho => ?_) ?_ h
  · rw [decayed]; ring
  · exact decayed_mono (by linarith) hq k
  · intro k sk c hsk hP hl hc'
    have kind : ∀ s, SameSettings sk s → s.kind = .speed ∧ s.diff = d := fun s h =>
      ⟨h.kind.symm.trans hsk.kind.symm, h.diff.symm.trans hsk.diff.symm⟩
    refine ⟨fun s h1 h2 => ?_, fun _ s h1 h2 => ?_⟩
    · unfold Skill.strainValueOf
      rw [(kind s h1).1]
      simp only
      rw [speed_value hT hw0 hr0 hc' (by rw [h2]; exact hP) (by rw [(kind s h1).2, hw]) (by rw [(kind s h1).2, hr])]
    · exact rhythm_even (by linarith) hc' (by rw [h2]; exact hP)
  · rw [ht i o ho]; congr 2; push_cast; ring
  · have hz : (lit 0 : Option ℝ) = some 0 := by rw [Exact.lit]; norm_num
    exact ⟨⟨rfl, rfl, rfl, rfl, rfl, rfl, rfl, rfl, rfl, rfl⟩, (by intro o ho; cases ho), by simp [Skill.newSpeed, Skill.new],
      fun _ => ⟨rfl, hz⟩, fun h => absurd rfl h, hz⟩

/-- The state of an aim skill after a map that jumps back and forth. -/
private theorem aim_after (b : Bool) (hs : Stream d.mods t0 Δ dist pos objs) (hdist : 0 ≤ dist)
    (hback : ∀ i, i + 2 < objs.length → pos (i + 2) = pos i) (hr : d.speed = some r) (hr0 : 0 < r) (hT : 100 ≤ Δ / r)
    (hc : d.circleRadius = some c) (hc0 : 0 < c) {fuel : ℕ}
    {ds : List (DiffObject (Option ℝ) (Option ℝ))} (hd : createDifficultyObjects objs d = .ok ds)
    {sk : Skill (Option ℝ) (Option ℝ)} (h : ds.foldlM (fun s o => s.process fuel o) (Skill.newAim d b) = .ok sk) :
    ∃ P, After P (fun k => decayed (23.25 * (jumpLength c dist / (Δ / r))) (0.15 ^ (Δ / r / 1000)) (k - 2))
      (fun k => (t0 + k * Δ) / r) (Skill.newAim d b) (objs.length - 1) sk := by
  obtain ⟨ds', hd', hlen, he, ht, ha⟩ := steady_objects hs hdist hr hr0 hc hc0
  rw [hd] at hd'
  cases hd'
  rw [max_eq_left (by linarith)] at he
  have hJ := jumpLength_nonneg hc0 hdist
  have hset : Set (0.15 : ℝ) 23.25 (Skill.newAim d b : Skill (Option ℝ) (Option ℝ)) := by
    refine ⟨?_, ?_, ?_, ?_⟩
    · show (lit 0.15 : Option ℝ) = _; rw [Exact.lit]; norm_num
    · show (lit 23.25 : Option ℝ) = _; rw [Exact.lit]; norm_num
    · show (lit 400 : Option ℝ) = _; rw [Exact.lit]; norm_num
    · show 1 ≤ 2; norm_num
  have hq : (0 : ℝ) ≤ 0.15 ^ (Δ / r / 1000) := Real.rpow_nonneg (by norm_num) _
  have hv : 0 ≤ jumpLength c dist / (Δ / r) := div_nonneg hJ (by linarith)
  refine ⟨fun o => Even (Δ / r) (jumpLength c dist) (Δ / r) o ∧ (o.angle = none ∨ o.angle = some 0), ?_⟩
  rw [← hlen, ← Nat.zero_add ds.length]
  refine run_after (b := 0.15) (m := 23.25) (δ := Δ / r) (by norm_num) (by norm_num) hset rfl
    (val := fun k => if k ≤ 1 then 0 else jumpLength c dist / (Δ / r)) (fun k => ?_) (fun k => ?_) ?_
    (fun o ho => ⟨he o ho, ha hback o ho⟩) (fun o ho => (he o ho).deltaTime) (k := 0) (fun i o ho => ?_) ?_ h
  · rcases k with _ | _ | k
    · simp [decayed]
    · simp [decayed]
    · rw [if_neg (by omega), show k + 1 + 1 + 1 - 2 = k + 1 by omega, show k + 1 + 1 - 2 = k by omega, decayed]; ring
  · rcases k with _ | _ | k
    · exact le_rfl
    · exact le_rfl
    · exact decayed_mono (by linarith) hq k
  · intro k sk c hsk hP hl hc'
    have kind : ∀ s, SameSettings sk s → s.kind = .aim b := fun s h => h.kind.symm.trans hsk.kind.symm
    refine ⟨fun s h1 h2 => ?_, fun h => ?_⟩
    · unfold Skill.strainValueOf
      rw [kind s h1]
      simp only
      rw [aim_value hT hJ b hc'.1 (by rw [h2]; exact fun o ho => (hP o ho).1) hc'.2 (by rw [h2]; exact fun o ho => (hP o ho).2),
        h2, hl]
      have : (Skill.newAim d b : Skill (Option ℝ) (Option ℝ)).historyLength = 2 := rfl
      rw [this]
      congr 3
      simp only [eq_iff_iff]; omega
    · rw [← hsk.kind] at h; cases h
  · rw [ht i o ho]; congr 2; push_cast; ring
  · have hz : (lit 0 : Option ℝ) = some 0 := by rw [Exact.lit]; norm_num
    exact ⟨⟨rfl, rfl, rfl, rfl, rfl, rfl, rfl, rfl, rfl, rfl⟩, (by intro o ho; cases ho), by simp [Skill.newAim, Skill.new],
      fun _ => ⟨rfl, hz⟩, fun h => absurd rfl h, hz⟩

private theorem peaks_skills {fuel : ℕ} {p : StrainPeaks (Option ℝ)} (h : calculateStrainPeaks fuel objs d = .ok p) :
    ∃ ds a s, createDifficultyObjects objs d = .ok ds ∧
      ds.foldlM (fun s o => s.process fuel o) (Skill.newAim d true) = .ok a ∧
      ds.foldlM (fun s o => s.process fuel o) (Skill.newSpeed d) = .ok s ∧
      p.aim = a.getCurrentStrainPeaks ∧ p.speed = s.getCurrentStrainPeaks := by
  unfold calculateStrainPeaks at h
  obtain ⟨ds, hd, h⟩ := bind_ok h
  obtain ⟨sk, hs, h⟩ := bind_ok h
  obtain ⟨h1, h2⟩ := peakLoop_fold hs
  unfold getPeaks at h
  simp only at h
  obtain ⟨t, -, h⟩ := bind_ok h
  cases h
  exact ⟨ds, sk.aim, sk.speed, hd, h1, h2, rfl, rfl⟩

private theorem after_peaks {P : DiffObject (Option ℝ) (Option ℝ) → Prop} {str t : ℕ → ℝ} {sk0 sk : Skill (Option ℝ) (Option ℝ)} {k : ℕ}
    (h : After P str t sk0 k sk) (h0 : str 0 = 0) :
    sk.getCurrentStrainPeaks.getLast? = some (some (str k)) ∧
      ∀ x ∈ sk.getCurrentStrainPeaks, ∃ y, x = some y ∧ 0 ≤ y ∧ y ≤ str k := by
  refine ⟨by simp [Skill.getCurrentStrainPeaks, h.peak], ?_⟩
  by_cases hk : k = 0
  · subst hk
    simp only [Skill.getCurrentStrainPeaks, (h.start rfl).1, h.peak, h0, List.nil_append, List.mem_singleton]
    rintro x rfl
    exact ⟨0, rfl, le_rfl, le_rfl⟩
  · exact (h.holds hk).peaks

/-- C90 (exact arithmetic). The speed strain at the end of a steady map, which is the greatest of its peaks: a closed
form in the number of circles, the time and distance between them, the circle size and the window for a 300. -/
theorem C90_speed (hs : Stream d.mods t0 Δ dist pos objs) (hdist : 0 ≤ dist) (hr : d.speed = some r) (hr0 : 0 < r)
    (hc : d.circleRadius = some c) (hc0 : 0 < c) (hw : d.hit300 = some w) (hw0 : 0 < w) {fuel : ℕ}
    {p : StrainPeaks (Option ℝ)} (h : calculateStrainPeaks fuel objs d = .ok p) {top : ℝ}
    (htop : top = decayed (1375 * speedValue (max (Δ / r) 25) (jumpLength c dist) (2 * w / r)) (0.3 ^ (Δ / r / 1000))
      (objs.length - 1)) :
    p.speed.getLast? = some (some top) ∧ ∀ x ∈ p.speed, ∃ y, x = some y ∧ 0 ≤ y ∧ y ≤ top := by
  obtain ⟨ds, a, s, hd, -, h2, -, e⟩ := peaks_skills h
  rw [e, htop]
  exact after_peaks (speed_after hs hdist hr hr0 hc hc0 hw hw0 hd h2) rfl

/-- C90 (exact arithmetic). The aim strain at the end of a map that jumps back and forth between two places, with at
least 100 ms on the player's clock between jumps; it is the greatest of its peaks. -/
theorem C90_aim (hs : Stream d.mods t0 Δ dist pos objs) (hdist : 0 ≤ dist)
    (hback : ∀ i, i + 2 < objs.length → pos (i + 2) = pos i) (hr : d.speed = some r) (hr0 : 0 < r) (hT : 100 ≤ Δ / r)
    (hc : d.circleRadius = some c) (hc0 : 0 < c) {fuel : ℕ}
    {p : StrainPeaks (Option ℝ)} (h : calculateStrainPeaks fuel objs d = .ok p) {top : ℝ}
    (htop : top = decayed (23.25 * (jumpLength c dist / (Δ / r))) (0.15 ^ (Δ / r / 1000)) (objs.length - 3)) :
    p.aim.getLast? = some (some top) ∧ ∀ x ∈ p.aim, ∃ y, x = some y ∧ 0 ≤ y ∧ y ≤ top := by
  obtain ⟨ds, a, s, hd, h1, -, e, -⟩ := peaks_skills h
  obtain ⟨P, ha⟩ := aim_after true hs hdist hback hr hr0 hT hc hc0 hd h1
  rw [e, htop, show objs.length - 3 = objs.length - 1 - 2 by omega]
  exact after_peaks (str := fun k => decayed (23.25 * (jumpLength c dist / (Δ / r))) (0.15 ^ (Δ / r / 1000)) (k - 2)) ha rfl

/-- C90. The closed form is a geometric sum, and stays below its limit however long the map is. -/
theorem C90_limit {v q : ℝ} (hv : 0 < v) (hq : 0 < q) (hq1 : q < 1) (n : ℕ) :
    decayed v q n = v * (1 - q ^ n) / (1 - q) ∧ decayed v q n < decayed v q (n + 1) ∧ decayed v q n < v / (1 - q) := by
  have h1 : 0 < 1 - q := by linarith
  have e : decayed v q n = v * (1 - q ^ n) / (1 - q) := by rw [eq_div_iff h1.ne', decayed_eq]
  refine ⟨e, ?_, ?_⟩
  · rw [decayed_step]; have := mul_pos hv (pow_pos hq n); linarith
  · rw [e]; apply div_lt_div_of_pos_right _ h1
    have := mul_pos hv (pow_pos hq n); linarith

/-- In exact arithmetic every time that is a number is on the grid. -/
theorem exactGrid : Grid (Option ℝ) (fun t => t.isSome = true) (fun t => ⌈t.getD 0 / 400⌉) (fun x k => x = some (400 * (k : ℝ))) where
  start {t} h := by
    obtain ⟨x, rfl⟩ := Option.isSome_iff_exists.mp h
    rw [Exact.lit, Exact.div _ (by norm_num), Exact.ceil, Exact.mul]
    congr 1; push_cast; simp only [Option.getD_some]; ring
  lt {x k t} h ht := by
    obtain ⟨y, rfl⟩ := Option.isSome_iff_exists.mp ht
    subst h
    rw [Exact.lt]
    simp only [Option.getD_some, Int.lt_ceil, lt_div_iff₀ (show (0 : ℝ) < 400 by norm_num), mul_comm]
  next {x k t} h _ _ := by
    subst h
    rw [Exact.lit, Exact.add]
    congr 1; push_cast; ring

/-- C90 (exact arithmetic). The calculations on a steady map return, and there is a peak for each section of 400 ms from that of
the second circle on. -/
theorem C90_returns [GoSort] (hs : Stream d.mods t0 Δ dist pos objs) (hne : objs ≠ []) (hdist : 0 ≤ dist) (hr : d.speed = some r)
    (hr0 : 0 < r) (hc : d.circleRadius = some c) (hc0 : 0 < c) :
    ∃ N, ∀ fuel ≥ N, ∃ p a, calculateStrainPeaks fuel objs d = .ok p ∧ calculateSingle fuel objs d = .ok a ∧
      p.aim.length = sectionCount ((List.range (objs.length - 1)).map fun i => section400 ((t0 + (i + 1 : ℕ) * Δ) / r)) := by
  obtain ⟨ds, hd, hlen, he, ht, -⟩ := steady_objects hs hdist hr hr0 hc hc0
  have hst : ∀ i o, objs.tail[i]? = some o → o.base.startTime /. d.speed = some ((t0 + (i + 1 : ℕ) * Δ) / r) := by
    intro i o ho
    rw [List.getElem?_tail] at ho
    rw [hs.time _ _ ho, hr, Exact.div _ hr0.ne']
  have hsec : (objs.tail.map fun o => ⌈(o.base.startTime /. d.speed).getD 0 / 400⌉) =
      (List.range (objs.length - 1)).map fun i => section400 ((t0 + (i + 1 : ℕ) * Δ) / r) := by
    apply List.ext_getElem?
    intro i
    rw [List.getElem?_map, List.getElem?_map]
    cases ho : objs.tail[i]? with
    | none =>
      rw [List.getElem?_eq_none_iff, List.length_tail] at ho
      rw [List.getElem?_eq_none (by simpa using ho)]
      rfl
    | some o =>
      have hlt := (List.getElem?_eq_some_iff.mp ho).1
      rw [List.length_tail] at hlt
      rw [List.getElem?_range hlt, Option.map_some, Option.map_some, hst i o ho]
      rfl
  refine ⟨sectionCount (objs.tail.map fun o => ⌈(o.base.startTime /. d.speed).getD 0 / 400⌉), fun fuel hf => ?_⟩
  rcases count_grid exactGrid fuel objs hne d hd (by
    intro o ho
    obtain ⟨i, hi, rfl⟩ := List.getElem_of_mem ho
    rw [hst i _ (List.getElem?_eq_getElem hi)]
    rfl) with ⟨h1, -⟩ | ⟨p, a, h1, h2, h3⟩
  · exact absurd hf (Nat.not_le.mpr h1)
  · exact ⟨p, a, h1, h2, by rw [h3, hsec]⟩

/-! ### A burst within one section -/

private theorem value_single [GoSort] {sk : Skill (Option ℝ) (Option ℝ)} {x m : ℝ} (hn : sk.reducedSectionCount ≠ 0)
    (hb : sk.reducedStrainBaseline = lit 0.75) (hm : sk.difficultyMultiplier = some m) (hp : sk.strainPeaks = [])
    (hx : sk.currentSectionPeak = some x) : sk.difficultyValue = some (0.75 * x * m) := by
  have srt : ∀ y : Option ℝ, Skill.reverseSort [y] = [y] := by
    intro y
    exact List.perm_singleton.mp (GoSort.slice_perm _ [y])
  unfold Skill.difficultyValue Skill.getCurrentStrainPeaks Skill.valueOfPeaks
  have hn' : (0 : ℝ) < sk.reducedSectionCount := by exact_mod_cast Nat.pos_of_ne_zero hn
  rw [hp, hx, List.nil_append]
  simp only
  rw [srt, Skill.reduceLoop, if_pos (Nat.pos_of_ne_zero hn), Skill.reduceLoop, hb, hm]
  simp only
  rw [srt, Skill.weightedSum, Skill.weightedSum]
  have e0 : (ofInt ((0 : ℕ) : ℤ) : Option ℝ) /. ofInt (sk.reducedSectionCount : ℤ) = some 0 := by
    rw [Exact.ofInt, Exact.ofInt, Exact.div _ (by exact_mod_cast hn'.ne')]
    norm_num
  rw [e0]
  unfold lerpF64
  simp only [Exact.lit, Exact.clamp, Exact.sub, Exact.mul, Exact.add, Exact.log10]
  congr 1
  have : Real.logb 10 (((1 : ℚ) : ℝ) + (((10 : ℚ) : ℝ) - ((1 : ℚ) : ℝ)) * min ((1 : ℚ) : ℝ) (max ((0 : ℚ) : ℝ) 0)) = 0 := by
    norm_num
  rw [this]
  push_cast
  ring

private theorem sectionCount_const {k : ℤ} {l : List ℤ} (h : ∀ x ∈ l, x = k) : sectionCount l = 1 := by
  cases l with
  | nil => rfl
  | cons a l =>
    show (l.foldl max a - a).toNat + 1 = 1
    have : ∀ (l : List ℤ) (b : ℤ), b = k → (∀ x ∈ l, x = k) → l.foldl max b = k := by
      intro l
      induction l with
      | nil => intro b hb _; exact hb
      | cons y l ih =>
        intro b hb hl
        rw [List.foldl_cons]
        exact ih _ (by rw [hb, hl y List.mem_cons_self, max_self]) (fun x hx => hl x (List.mem_cons_of_mem _ hx))
    rw [this l a (h a List.mem_cons_self) (fun x hx => h x (List.mem_cons_of_mem _ hx)), h a List.mem_cons_self]
    simp

private theorem burst_skills [GoSort] (hs : Stream d.mods t0 Δ dist pos objs) (hdist : 0 ≤ dist) (hr : d.speed = some r)
    (hr0 : 0 < r) (hc : d.circleRadius = some c) (hc0 : 0 < c) {k : ℤ}
    (hone : ∀ i, i + 1 < objs.length → section400 ((t0 + (i + 1 : ℕ) * Δ) / r) = k) {fuel : ℕ} {a : Attributes (Option ℝ)}
    (h : calculateSingle fuel objs d = .ok a) :
    ∃ ds attr sk, createDifficultyObjects objs d = .ok ds ∧ a = SkillSet.getStars sk d attr ∧
      ds.foldlM (fun s o => s.process fuel o) (Skill.newAim d true) = .ok sk.aim ∧
      ds.foldlM (fun s o => s.process fuel o) (Skill.newAim d false) = .ok sk.aimNoSliders ∧
      ds.foldlM (fun s o => s.process fuel o) (Skill.newSpeed d) = .ok sk.speed ∧
      sk.aim.strainPeaks = [] ∧ sk.aimNoSliders.strainPeaks = [] ∧ sk.speed.strainPeaks = [] := by
  have h' := h
  unfold calculateSingle at h
  obtain ⟨⟨a', s'⟩, h1, h⟩ := bind_ok h
  cases h
  unfold calculateSingleCore at h1
  obtain ⟨ds, hd, h1⟩ := bind_ok h1
  obtain ⟨o, hi, h1⟩ := bind_ok h1
  obtain ⟨⟨attr, sk⟩, hl, h1⟩ := bind_ok h1
  obtain ⟨rfl, rfl⟩ := Prod.mk.inj (Except.ok.inj h1)
  have hne : objs ≠ [] := by rintro rfl; cases hi
  obtain ⟨f1, f2, f3⟩ := singleLoop_fold hl
  have hst : ∀ i o, objs.tail[i]? = some o → o.base.startTime /. d.speed = some ((t0 + (i + 1 : ℕ) * Δ) / r) := by
    intro i o ho
    rw [List.getElem?_tail] at ho
    rw [hs.time _ _ ho, hr, Exact.div _ hr0.ne']
  have hlock : Locked sk := by
    rcases peakLoop_single fuel ds objs.tail (by rw [createDifficultyObjects_length hd, List.length_tail])
      (addObjectToAttribs o Attributes.zero) (SkillSet.new d) (locked_new d) with ⟨e, e1, -⟩ | ⟨at2, sk2, e1, -, e3, -⟩
    · rw [hl] at e1; cases e1
    · rw [hl] at e1; cases e1; exact e3
  have hz : sk.aim.strainPeaks = [] := by
    rcases count_grid exactGrid fuel objs hne d hd (by
      intro o ho
      obtain ⟨i, hi, rfl⟩ := List.getElem_of_mem ho
      rw [hst i _ (List.getElem?_eq_getElem hi)]
      rfl) with ⟨-, -, e⟩ | ⟨p, a, e1, e2, e3⟩
    · rw [e] at h'; cases h'
    · obtain ⟨ds', x, y, g1, g2, g3, g4, g5⟩ := peaks_skills e1
      rw [hd] at g1
      cases g1
      have g2' : ds.foldlM (fun s o => s.process fuel o) (Skill.newAim d true) = .ok sk.aim := f1
      rw [g2] at g2'
      cases g2'
      rw [sectionCount_const (k := k), g4] at e3
      · simpa [Skill.getCurrentStrainPeaks] using e3
      · intro z hz
        obtain ⟨o, ho, rfl⟩ := List.mem_map.mp hz
        obtain ⟨i, hi, rfl⟩ := List.getElem_of_mem ho
        rw [List.length_tail] at hi
        rw [hst i _ (List.getElem?_eq_getElem _), ← hone i (by omega)]
        rfl
  have pk : ∀ s : Skill (Option ℝ) (Option ℝ), sk.aim.sec = s.sec → s.strainPeaks = [] := by
    intro s e
    have := congrArg Skill.Sec.peaks e
    simp only [Skill.sec, hz, List.length_nil] at this
    exact List.eq_nil_of_length_eq_zero this.symm
  exact ⟨ds, attr, sk, hd, rfl, f1, f2, f3, hz, pk _ hlock.aim, pk _ hlock.speed⟩

/-- C90 (exact arithmetic). If all circles of a steady map after the first are in one section of 400 ms, its speed rating
(without Relax) is a closed form, too. -/
theorem C90_burst_speed [GoSort] (hs : Stream d.mods t0 Δ dist pos objs) (hdist : 0 ≤ dist) (hr : d.speed = some r)
    (hr0 : 0 < r) (hc : d.circleRadius = some c) (hc0 : 0 < c) (hw : d.hit300 = some w) (hw0 : 0 < w)
    (hrx : d.checkModActive Mod.Relax = false) {k : ℤ}
    (hone : ∀ i, i + 1 < objs.length → section400 ((t0 + (i + 1 : ℕ) * Δ) / r) = k) {fuel : ℕ} {a : Attributes (Option ℝ)}
    (h : calculateSingle fuel objs d = .ok a) :
    a.speed = some (0.0675 * Real.sqrt (0.75 * 1.04 * decayed (1375 * speedValue (max (Δ / r) 25) (jumpLength c dist) (2 * w / r))
      (0.3 ^ (Δ / r / 1000)) (objs.length - 1))) := by
  obtain ⟨ds, attr, sk, hd, rfl, f1, f2, f3, -, -, z3⟩ := burst_skills hs hdist hr hr0 hc hc0 hone h
  have haf := speed_after hs hdist hr hr0 hc hc0 hw hw0 hd f3
  have hv := value_single (m := 1.04) (by rw [← haf.same.reducedSectionCount]; simp [Skill.newSpeed, Skill.newAim, Skill.new]) (by rw [← haf.same.reducedStrainBaseline]; rfl)
    (by rw [← haf.same.difficultyMultiplier]; show (lit 1.04 : Option ℝ) = _; rw [Exact.lit]; norm_num) z3 haf.peak
  unfold SkillSet.getStars getStarsFromRawValues
  simp only [hrx, hv, Bool.false_eq_true, if_false]
  have hsv := speedValue_nonneg (W := 2 * w / r) (lt_of_lt_of_le (by norm_num) (le_max_right (Δ / r) 25) : 0 < max (Δ / r) 25)
    (jumpLength_nonneg hc0 hdist)
  have hn := decayed_nonneg (mul_nonneg (by norm_num : (0 : ℝ) ≤ 1375) hsv)
    (Real.rpow_nonneg (by norm_num) _ : (0 : ℝ) ≤ 0.3 ^ (Δ / r / 1000)) (objs.length - 1)
  rw [mul_right_comm (0.75 : ℝ), Exact.sqrt (by positivity), Exact.lit, Exact.mul, mul_comm, show ((0.0675 : ℚ) : ℝ) = 0.0675 by norm_num]

/-- C90 (exact arithmetic). The same for aim, if the map jumps back and forth and there are at least 100 ms between jumps; its slider
factor is one. -/
theorem C90_burst_aim [GoSort] (hs : Stream d.mods t0 Δ dist pos objs) (hdist : 0 ≤ dist)
    (hback : ∀ i, i + 2 < objs.length → pos (i + 2) = pos i) (hr : d.speed = some r)
    (hr0 : 0 < r) (hT : 100 ≤ Δ / r) (hc : d.circleRadius = some c) (hc0 : 0 < c) {k : ℤ}
    (hone : ∀ i, i + 1 < objs.length → section400 ((t0 + (i + 1 : ℕ) * Δ) / r) = k) {fuel : ℕ} {a : Attributes (Option ℝ)}
    (h : calculateSingle fuel objs d = .ok a) :
    a.aim = some (0.0675 * Real.sqrt (0.75 * 1.06 * decayed (23.25 * (jumpLength c dist / (Δ / r))) (0.15 ^ (Δ / r / 1000))
      (objs.length - 3))) ∧ a.sliderFactor = some 1 := by
  obtain ⟨ds, attr, sk, hd, rfl, f1, f2, f3, z1, z2, -⟩ := burst_skills hs hdist hr hr0 hc hc0 hone h
  have val : ∀ (b : Bool) (s : Skill (Option ℝ) (Option ℝ)), s.strainPeaks = [] →
      ds.foldlM (fun s o => s.process fuel o) (Skill.newAim d b) = .ok s → s.difficultyValue =
        some (0.75 * decayed (23.25 * (jumpLength c dist / (Δ / r))) (0.15 ^ (Δ / r / 1000)) (objs.length - 3) * 1.06) := by
    intro b s z f
    obtain ⟨P, haf⟩ := aim_after b hs hdist hback hr hr0 hT hc hc0 hd f
    rw [show objs.length - 3 = objs.length - 1 - 2 by omega]
    exact value_single (m := 1.06) (by rw [← haf.same.reducedSectionCount]; simp [Skill.newSpeed, Skill.newAim, Skill.new]) (by rw [← haf.same.reducedStrainBaseline]; rfl)
      (by rw [← haf.same.difficultyMultiplier]; show (lit 1.06 : Option ℝ) = _; rw [Exact.lit]; norm_num) z haf.peak
  have hv : 0 ≤ jumpLength c dist / (Δ / r) := div_nonneg (jumpLength_nonneg hc0 hdist) (by linarith)
  have hn := decayed_nonneg (mul_nonneg (by norm_num : (0 : ℝ) ≤ 23.25) hv)
    (Real.rpow_nonneg (by norm_num) _ : (0 : ℝ) ≤ 0.15 ^ (Δ / r / 1000)) (objs.length - 3)
  unfold SkillSet.getStars getStarsFromRawValues
  simp only [val true _ z1 f1, val false _ z2 f2]
  rw [mul_right_comm (0.75 : ℝ), Exact.sqrt (by positivity), Exact.lit, Exact.mul]
  constructor
  · rw [mul_comm, show ((0.0675 : ℚ) : ℝ) = 0.0675 by norm_num]
  · split
    · rename_i hlt
      rw [Exact.lit, Exact.lt, decide_eq_true_eq] at hlt
      have h0 : ((0.00001 : ℚ) : ℝ) > 0 := by norm_num
      rw [Exact.div _ (by linarith : (0 : ℝ) < _).ne', div_self (by linarith : (0 : ℝ) < _).ne']
    · rw [Exact.lit]; norm_num


end

/-! ### Concrete cases -/

/-- Circles of radius 32, a window of 40 ms, half time. -/
noncomputable def exactDiff : Difficulty (Option ℝ) :=
  { (Difficulty.new (lit 5) (lit 5) (lit 5) (lit 5)) with
    mods := Mod.HalfTime, speed := some 0.75, circleRadius := some 32, hit300 := some 40 }

/-- `n` circles, every 90 ms, back and forth over 200 pixels. -/
noncomputable def exactStream (t0 : ℝ) (n : ℕ) : List (Obj (Option ℝ) (Option ℝ)) :=
  (List.range n).map fun i : ℕ => exactCircle (if i % 2 = 0 then 100 else 300) 50 (t0 + i * 90)

theorem exactStream_stream (t0 : ℝ) (n : ℕ) :
    Stream exactDiff.mods t0 90 200 (fun i => (if i % 2 = 0 then 100 else 300, 50)) (exactStream t0 n) := by
  have get : ∀ (i : ℕ) o, (exactStream t0 n)[i]? = some o → o = exactCircle (if i % 2 = 0 then 100 else 300) 50 (t0 + i * 90) := by
    intro i o h
    unfold exactStream at h
    rw [List.getElem?_map] at h
    obtain ⟨j, hj, rfl⟩ := Option.map_eq_some_iff.mp h
    obtain ⟨hl, e⟩ := List.getElem?_eq_some_iff.mp hj
    rw [List.getElem_range] at e
    rw [e]
  have h1 : Modifier.active Mod.HalfTime Mod.HardRock = false := by decide
  have h2 : Modifier.active Mod.HalfTime Mod.Easy = false := by decide
  refine ⟨?_, ?_, ?_, ?_⟩
  · intro o ho
    unfold exactStream at ho
    obtain ⟨i, -, rfl⟩ := List.mem_map.mp ho
    rfl
  · intro i o h
    rw [get i o h]
    rfl
  · intro i o h
    rw [get i o h]
    show HitObject.modifyPosition _ _ Mod.HalfTime = _
    unfold HitObject.modifyPosition
    rw [h1, h2]
    simp [exactCircle, Vec.add, Exact.add]
  · intro i _
    simp only
    rcases Nat.mod_two_eq_zero_or_one i with h | h
    · rw [if_pos h, if_neg (by omega)]; norm_num
    · rw [if_pos (by omega), if_neg (by omega)]; norm_num

theorem exactStream_length (t0 : ℝ) (n : ℕ) : (exactStream t0 n).length = n := by unfold exactStream; simp

/-- C90: the hypotheses hold for streams of any length; 120 ms pass between circles. -/
example [GoSort] (n : ℕ) (hn : 0 < n) : ∃ fuel p, calculateStrainPeaks fuel (exactStream 0 n) exactDiff = .ok p ∧
    p.speed.getLast? = some (some (decayed (1375 * speedValue 120 312.5 (2 * 40 / 0.75)) (0.3 ^ (0.12 : ℝ)) (n - 1))) ∧
    p.aim.getLast? = some (some (decayed (23.25 * (312.5 / 120)) (0.15 ^ (0.12 : ℝ)) (n - 3))) := by
  have hs := exactStream_stream 0 n
  obtain ⟨N, hN⟩ := C90_returns hs (by rw [← List.length_pos_iff, exactStream_length]; exact hn) (by norm_num) rfl (by norm_num)
    rfl (by norm_num)
  obtain ⟨p, a, hp, -, -⟩ := hN N le_rfl
  have e1 : (90 : ℝ) / 0.75 = 120 := by norm_num
  have e2 : (120 : ℝ) / 1000 = 0.12 := by norm_num
  have e3 : jumpLength 32 200 = 312.5 := by unfold jumpLength; norm_num
  have h1 := (C90_speed hs (by norm_num) rfl (by norm_num) rfl (by norm_num) rfl (by norm_num) hp rfl).1
  have h2 := (C90_aim hs (by norm_num) (fun i _ => by simp) rfl (by norm_num) (by norm_num) rfl (by norm_num) hp rfl).1
  rw [exactStream_length, e1, e2, e3] at h1 h2
  rw [max_eq_left (by norm_num)] at h1
  exact ⟨N, p, hp, h1, h2⟩

/-- C90: four circles, the last three of which are hit at 860, 980 and 1100 ms on the player's clock. The aim strain is that of one jump. -/
example [GoSort] : ∃ fuel a, calculateSingle fuel (exactStream 555 4) exactDiff = .ok a ∧
    a.speed = some (0.0675 * Real.sqrt (0.75 * 1.04 * decayed (1375 * speedValue 120 312.5 (2 * 40 / 0.75)) (0.3 ^ (0.12 : ℝ)) 3)) ∧
    a.aim = some (0.0675 * Real.sqrt (0.75 * 1.06 * (23.25 * (312.5 / 120)))) := by
  have hs := exactStream_stream 555 4
  obtain ⟨N, hN⟩ := C90_returns hs (by rw [← List.length_pos_iff, exactStream_length]; norm_num) (by norm_num) rfl (by norm_num)
    rfl (by norm_num)
  obtain ⟨p, a, -, ha, -⟩ := hN N le_rfl
  have hone : ∀ i, i + 1 < (exactStream 555 4).length → section400 ((555 + (i + 1 : ℕ) * 90 : ℝ) / 0.75) = 3 := by
    intro i hi
    rw [exactStream_length] at hi
    unfold section400
    rw [Int.ceil_eq_iff]
    have : i = 0 ∨ i = 1 ∨ i = 2 := by omega
    rcases this with rfl | rfl | rfl <;> norm_num
  have e1 : (90 : ℝ) / 0.75 = 120 := by norm_num
  have e2 : (120 : ℝ) / 1000 = 0.12 := by norm_num
  have e3 : jumpLength 32 200 = 312.5 := by unfold jumpLength; norm_num
  have e4 : ∀ v q : ℝ, decayed v q 1 = v := by intro v q; simp [decayed]
  have h1 := C90_burst_speed hs (by norm_num) rfl (by norm_num) rfl (by norm_num) rfl (by norm_num) (by decide) hone ha
  have h2 := (C90_burst_aim hs (by norm_num) (fun i _ => by simp) rfl (by norm_num) (by norm_num) rfl (by norm_num) hone ha).1
  rw [exactStream_length, e1, e2, e3] at h1 h2
  rw [max_eq_left (by norm_num)] at h1
  rw [e4] at h2
  exact ⟨N, a, ha, h1, h2⟩

end GosuPP.Props
