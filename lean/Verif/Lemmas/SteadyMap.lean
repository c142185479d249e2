import Verif.Lemmas.Steady

/-! From the objects of a steady map to the strains of its skills. -/

namespace GosuPP.Exactly
open Go Spec
attribute [local instance] exactLibm

/-! ### The run of one skill -/

/-- A skill that has processed `k` objects of which it knows that they satisfy `P`. -/
structure After (P : DiffObject (Option ℝ) (Option ℝ) → Prop) (str t : ℕ → ℝ) (sk0 : Skill (Option ℝ) (Option ℝ)) (k : ℕ)
    (sk : Skill (Option ℝ) (Option ℝ)) : Prop where
  same : SameSettings sk0 sk
  known : ∀ o ∈ sk.previous, P o
  length : sk.previous.length = min k (sk0.historyLength + 1)
  start : k = 0 → sk.strainPeaks = [] ∧ sk.currentStrain = some 0
  holds : k ≠ 0 → Holds (str k) (t k) sk
  peak : sk.currentSectionPeak = some (str k)

theorem run_after {b m δ : ℝ} (hb : 0 < b) (hb1 : b ≤ 1) {fuel : ℕ} {P : DiffObject (Option ℝ) (Option ℝ) → Prop}
    {str t val : ℕ → ℝ} {sk0 : Skill (Option ℝ) (Option ℝ)} (hset : Set b m sk0) (h0 : str 0 = 0)
    (hstr : ∀ k, str (k + 1) = str k * b ^ (δ / 1000) + val k * m) (hmono : ∀ k, str k ≤ str (k + 1))
    (hval : ∀ k (sk : Skill (Option ℝ) (Option ℝ)) c, SameSettings sk0 sk → (∀ o ∈ seen sk, P o) →
      (seen sk).length = min k sk0.historyLength → P c → Values sk c (val k))
    {ds : List (DiffObject (Option ℝ) (Option ℝ))} (hP : ∀ o ∈ ds, P o) (hδ : ∀ o ∈ ds, o.deltaTime = some δ) {k : ℕ}
    (ht : ∀ i o, ds[i]? = some o → o.startTime = some (t (k + i + 1))) {sk sk' : Skill (Option ℝ) (Option ℝ)}
    (h : After P str t sk0 k sk) (hr : ds.foldlM (fun s o => s.process fuel o) sk = .ok sk') :
    After P str t sk0 (k + ds.length) sk' := by
  induction ds generalizing k sk with
  | nil => cases hr; exact h
  | cons c ds ih =>
    rw [List.foldlM_cons] at hr
    obtain ⟨s1, h1, hr⟩ := bind_ok hr
    have hc := ht 0 c rfl
    rw [Nat.add_zero] at hc
    have hd := hδ c List.mem_cons_self
    have hsub : ∀ o ∈ seen sk, P o := fun o ho => h.known o (List.mem_of_mem_drop ho)
    have hlen : (seen sk).length = min k sk0.historyLength := by
      unfold seen
      rw [List.length_drop, h.length, ← h.same.historyLength]
      omega
    have hv := hval k sk c h.same hsub hlen (hP c List.mem_cons_self)
    have step : After P str t sk0 (k + 1) s1 := by
      by_cases hk : k = 0
      · subst hk
        obtain ⟨q1, q2⟩ := h.start rfl
        have hp : sk.previous = [] := by
          apply List.eq_nil_of_length_eq_zero; rw [h.length]; simp
        have hm := hmono 0
        rw [hstr, h0, zero_mul, zero_add] at hm
        obtain ⟨r1, r2, r3, r4⟩ := process_first (hset.of h.same) hp q1 q2 (by rw [h.peak, h0]) hc hd hv hm h1
        have es : str 1 = val 0 * m := by rw [hstr, h0]; ring
        refine ⟨h.same.trans r3, ?_, ?_, fun h => by simp at h, fun _ => ?_, ?_⟩
        · rw [r4]; intro o ho; rw [List.mem_singleton.mp ho]; exact hP c List.mem_cons_self
        · rw [r4]; simp
        · rw [es]; exact r1
        · rw [es]; exact r2
      · have hm := hmono k
        rw [hstr] at hm
        obtain ⟨r1, r2, r3, r4⟩ := process_holds hb hb1 (hset.of h.same) (h.holds hk) hc hd hv hm h1
        rw [← hstr] at r1 r2
        refine ⟨h.same.trans r3, ?_, ?_, fun h => by simp at h, fun _ => r1, r2⟩
        · rw [r4]; intro o ho
          rcases List.mem_append.mp ho with ho | ho
          · exact hsub o ho
          · rw [List.mem_singleton.mp ho]; exact hP c List.mem_cons_self
        · rw [r4, List.length_append, hlen, List.length_singleton]; omega
    have := ih (fun o ho => hP o (List.mem_cons_of_mem _ ho)) (fun o ho => hδ o (List.mem_cons_of_mem _ ho)) (k := k + 1)
      (fun i o ho => by rw [ht (i + 1) o ho]; congr 2; omega) step hr
    rw [List.length_cons, show k + (ds.length + 1) = k + 1 + ds.length by omega]
    exact this

theorem peakLoop_fold {fuel : ℕ} {ds : List (DiffObject (Option ℝ) (Option ℝ))} {sk sk' : PeakSkills (Option ℝ) (Option ℝ)}
    (h : peakLoop fuel ds sk = .ok sk') :
    ds.foldlM (fun s o => s.process fuel o) sk.aim = .ok sk'.aim ∧
      ds.foldlM (fun s o => s.process fuel o) sk.speed = .ok sk'.speed := by
  induction ds generalizing sk with
  | nil => cases h; exact ⟨rfl, rfl⟩
  | cons c ds ih =>
    rw [peakLoop] at h
    obtain ⟨a, h1, h⟩ := bind_ok h
    obtain ⟨s, h2, h⟩ := bind_ok h
    obtain ⟨f, h3, h⟩ := bind_ok h
    obtain ⟨r1, r2⟩ := ih h
    rw [List.foldlM_cons, List.foldlM_cons, h1, h2]
    exact ⟨r1, r2⟩

theorem singleLoop_fold [GoSort] {fuel : ℕ} {ds : List (DiffObject (Option ℝ) (Option ℝ))} {objs : List (Obj (Option ℝ) (Option ℝ))}
    {attr attr' : Attributes (Option ℝ)} {sk sk' : SkillSet (Option ℝ) (Option ℝ)}
    (h : singleLoop fuel ds objs attr sk = .ok (attr', sk')) :
    ds.foldlM (fun s o => s.process fuel o) sk.aim = .ok sk'.aim ∧
      ds.foldlM (fun s o => s.process fuel o) sk.aimNoSliders = .ok sk'.aimNoSliders ∧
      ds.foldlM (fun s o => s.process fuel o) sk.speed = .ok sk'.speed := by
  induction ds generalizing objs attr sk with
  | nil => cases h; exact ⟨rfl, rfl, rfl⟩
  | cons c ds ih =>
    rw [singleLoop] at h
    obtain ⟨o, -, h⟩ := bind_ok h
    obtain ⟨s, hs, h⟩ := bind_ok h
    unfold SkillSet.process at hs
    obtain ⟨a, h1, hs⟩ := bind_ok hs
    obtain ⟨b, h2, hs⟩ := bind_ok hs
    obtain ⟨d, h3, hs⟩ := bind_ok hs
    obtain ⟨e, h4, hs⟩ := bind_ok hs
    cases hs
    obtain ⟨r1, r2, r3⟩ := ih h
    rw [List.foldlM_cons, List.foldlM_cons, List.foldlM_cons, h1, h2, h3]
    exact ⟨r1, r2, r3⟩

/-! ### The objects -/

variable {t0 Δ dist r c : ℝ} {pos : ℕ → ℝ × ℝ} {objs : List (Obj (Option ℝ) (Option ℝ))} {d : Difficulty (Option ℝ)}

theorem scaling_exact (hc : 0 < c) : (distanceScaling (some c : Option ℝ) : Option ℝ) = some (jumpLength c 1) := by
  unfold distanceScaling jumpLength
  simp only [Exact.down, Exact.lit, Math32.min, Exact.up, Exact.div _ hc.ne', Exact.lt, Exact.sub, Exact.fmin]
  by_cases h : c < 30
  · rw [if_pos (by simpa using h), if_pos h, Exact.div _ (by norm_num), Exact.add, Exact.mul]
    congr 1; push_cast; ring
  · rw [if_neg (by simpa using h), if_neg h]
    congr 1; push_cast; ring

theorem jumpLength_mul (c x : ℝ) : jumpLength c x = x * jumpLength c 1 := by
  unfold jumpLength; ring

theorem jumpLength_nonneg {c x : ℝ} (hc : 0 < c) (hx : 0 ≤ x) : 0 ≤ jumpLength c x := by
  unfold jumpLength
  apply mul_nonneg (mul_nonneg hx (by positivity))
  split
  · have : (0 : ℝ) ≤ min (30 - c) 5 := le_min (by linarith) (by norm_num)
    linarith [div_nonneg this (by norm_num : (0 : ℝ) ≤ 50)]
  · norm_num

theorem jump_exact (hc : 0 < c) (hdist : 0 ≤ dist) {p q : ℝ × ℝ} (h : (p.1 - q.1) ^ 2 + (p.2 - q.2) ^ 2 = dist ^ 2) :
    (Go.up (((⟨some p.1, some p.2⟩ : Vec (Option ℝ)).scl (distanceScaling (some c : Option ℝ))).dst
      ((⟨some q.1, some q.2⟩ : Vec (Option ℝ)).scl (distanceScaling (some c : Option ℝ)))) : Option ℝ) = some (jumpLength c dist) := by
  have hk := jumpLength_nonneg hc zero_le_one
  rw [scaling_exact hc, jumpLength_mul c dist]
  generalize jumpLength c 1 = k at hk ⊢
  unfold Vec.scl Vec.dst Math32.sqrt
  simp only [Exact.mul, Exact.sub, Exact.add, Exact.up, Exact.down]
  have e : (q.1 * k - p.1 * k) * (q.1 * k - p.1 * k) + (q.2 * k - p.2 * k) * (q.2 * k - p.2 * k) = (dist * k) ^ 2 := by
    linear_combination (k ^ 2) * h
  rw [e, Exact.sqrt (by positivity), Real.sqrt_sq (by positivity)]

theorem decorate_circle {o : Obj (Option ℝ) (Option ℝ)} (h : o.isCircle = true) : decorate d o = .ok ⟨o, none⟩ := by
  unfold Obj.isCircle at h
  unfold decorate
  cases hk : o.kind <;> simp_all <;> rfl

theorem decorateAll_circles {objs : List (Obj (Option ℝ) (Option ℝ))} (h : ∀ o ∈ objs, o.isCircle = true) :
    decorateAll d objs = .ok (objs.map (⟨·, none⟩)) := by
  induction objs with
  | nil => rfl
  | cons o objs ih =>
    rw [decorateAll, decorate_circle (h o List.mem_cons_self), ih (fun o ho => h o (List.mem_cons_of_mem _ ho))]
    rfl

theorem steady_objects (hs : Stream d.mods t0 Δ dist pos objs) (hdist : 0 ≤ dist) (hr : d.speed = some r) (hr0 : 0 < r)
    (hc : d.circleRadius = some c) (hc0 : 0 < c) :
    ∃ ds, createDifficultyObjects objs d = .ok ds ∧ ds.length = objs.length - 1 ∧
      (∀ o ∈ ds, Even (max (Δ / r) 25) (jumpLength c dist) (Δ / r) o) ∧
      (∀ (i : ℕ) o, ds[i]? = some o → o.startTime = some ((t0 + (i + 1) * Δ) / r)) ∧
      ((∀ i, i + 2 < objs.length → pos (i + 2) = pos i) → ∀ o ∈ ds, o.angle = none ∨ o.angle = some 0) := by
  have hdec := decorateAll_circles (d := d) hs.circle
  obtain ⟨ds, hds⟩ : ∃ ds, createDifficultyObjects objs d = .ok ds := by
    unfold createDifficultyObjects
    rw [hdec]
    cases objs <;> exact ⟨_, rfl⟩
  have get : ∀ (i : ℕ) o, ds[i]? = some o → ∃ x y z, objs[i]? = some x ∧ objs[i + 1]? = some y ∧
      o = newDiffObject ⟨y, none⟩ z ⟨x, none⟩ d ∧ (z = none ∨ ∃ j w, i = j + 1 ∧ objs[j]? = some w ∧ z = some ⟨w, none⟩) := by
    intro i o ho
    obtain ⟨ps, hps, rfl⟩ := createDifficultyObjects_ok hds
    rw [hdec] at hps
    cases hps
    cases objs with
    | nil => simp at ho
    | cons f rest =>
      obtain ⟨a, b, z, h1, h2, h3, h4⟩ := diffObjectLoop_get d none (⟨f, none⟩ : PObj _ _) (rest.map (⟨·, none⟩)) i ho
      have g : ∀ (j : ℕ) q, ((f :: rest).map (fun o => (⟨o, none⟩ : PObj (Option ℝ) (Option ℝ))))[j]? = some q →
          ∃ w, (f :: rest)[j]? = some w ∧ q = ⟨w, none⟩ := by
        intro j q hq
        rw [List.getElem?_map] at hq
        obtain ⟨w, hw, e⟩ := Option.map_eq_some_iff.mp hq
        exact ⟨w, hw, e.symm⟩
      obtain ⟨x, hx, rfl⟩ := g i a h1
      obtain ⟨y, hy, rfl⟩ := g (i + 1) b h2
      refine ⟨x, y, z, hx, hy, h3, ?_⟩
      cases i with
      | zero => left; simpa using h4
      | succ j =>
        rw [if_neg (by omega), Nat.add_sub_cancel] at h4
        cases z with
        | none => exact .inl rfl
        | some q =>
          obtain ⟨w, hw, rfl⟩ := g j q h4.symm
          exact .inr ⟨j, w, rfl, hw, rfl⟩
  have spin : ∀ (i : ℕ) o, objs[i]? = some o → o.isSpinner = false := by
    intro i o ho
    have := hs.circle o (List.mem_of_getElem? ho)
    unfold Obj.isCircle at this
    unfold Obj.isSpinner
    cases hk : o.kind <;> simp_all
  refine ⟨ds, hds, createDifficultyObjects_length hds, ?_, ?_, ?_⟩
  · intro o ho
    obtain ⟨i, hi, rfl⟩ := List.getElem_of_mem ho
    obtain ⟨x, y, z, hx, hy, e, -⟩ := get i _ (List.getElem?_eq_getElem hi)
    obtain ⟨e1, e2, e3, e4, e5⟩ := newDiffObject_times (⟨y, none⟩ : PObj _ _) z ⟨x, none⟩ d
    have hδ : (y.base.startTime -. x.base.startTime) /. d.speed = some (Δ / r) := by
      rw [hs.time _ _ hy, hs.time _ _ hx, hr, Exact.sub, Exact.div _ hr0.ne']
      congr 2; push_cast; ring
    have hlt : i + 1 < objs.length := (List.getElem?_eq_some_iff.mp hy).1
    have hj : (newDiffObject ⟨y, none⟩ z ⟨x, none⟩ d).jumpDistance = some (jumpLength c dist) ∧
        (newDiffObject ⟨y, none⟩ z ⟨x, none⟩ d).travelDistance = some 0 ∧
        (newDiffObject ⟨y, none⟩ z ⟨x, none⟩ d).travelTime = some 0 := by
      have hz : (lit 0 : Option ℝ) = some 0 := by rw [Exact.lit]; norm_num
      unfold newDiffObject setDistances
      simp only [spin _ _ hy, spin _ _ hx, Bool.or_self, Bool.false_eq_true, if_false]
      have hA : ∀ o : DiffObject (Option ℝ) (Option ℝ), (setAngle d z ⟨x, none⟩ o).jumpDistance = o.jumpDistance ∧
          (setAngle d z ⟨x, none⟩ o).travelDistance = o.travelDistance ∧ (setAngle d z ⟨x, none⟩ o).travelTime = o.travelTime := by
        intro o
        unfold setAngle
        split <;> try split
        all_goals exact ⟨rfl, rfl, rfl⟩
      rw [(hA _).1, (hA _).2.1, (hA _).2.2]
      have hju := jump_exact hc0 hdist (hs.apart i hlt)
      rw [← hc] at hju
      unfold setTravel getEndCursorPosition
      simp only [hs.place _ _ hy, hs.place _ _ hx]
      exact ⟨hju, hz, hz⟩
    rw [e]
    refine ⟨?_, ?_, ?_, ?_, hj.1, hj.2.1, hj.2.2⟩
    · rw [e1]; exact spin _ _ hy
    · rw [e1]
    · rw [e5, hδ, Exact.lit, Exact.fmax]; norm_num
    · rw [e4, hδ]
  · intro i o ho
    obtain ⟨x, y, z, hx, hy, e, -⟩ := get i _ ho
    obtain ⟨e1, e2, e3, e4, e5⟩ := newDiffObject_times (⟨y, none⟩ : PObj _ _) z ⟨x, none⟩ d
    rw [e, e2, hs.time _ _ hy, hr, Exact.div _ hr0.ne']
    congr 2; push_cast; ring
  · intro hper o ho
    obtain ⟨i, hi, rfl⟩ := List.getElem_of_mem ho
    obtain ⟨x, y, z, hx, hy, e, hz⟩ := get i _ (List.getElem?_eq_getElem hi)
    rw [e]
    unfold newDiffObject setDistances
    simp only [spin _ _ hy, spin _ _ hx, Bool.or_self, Bool.false_eq_true, if_false]
    rcases hz with rfl | ⟨j, w, rfl, hw, rfl⟩
    · left; rfl
    · right
      unfold setAngle
      simp only [spin _ _ hw, Bool.false_eq_true, if_false]
      have hlt : j + 1 + 1 < objs.length := (List.getElem?_eq_some_iff.mp hy).1
      have hb : (setTravel d ⟨x, none⟩
          { baseObject := ⟨y, none⟩, deltaTime := (y.base.startTime -. x.base.startTime) /. d.speed
            startTime := y.base.startTime /. d.speed, endTime := y.base.endTime /. d.speed, angle := GoFloat.nan
            strainTime := fmax ((y.base.startTime -. x.base.startTime) /. d.speed) (lit 25)
            jumpDistance := lit 0, movementDistance := lit 0, travelDistance := lit 0
            movementTime := lit 0, travelTime := lit 0 }).baseObject = ⟨y, none⟩ := rfl
      simp only [hb, getEndCursorPosition, hs.place _ _ hy, hs.place _ _ hx, hs.place _ _ hw, Vec.sub, Vec.dot, Exact.sub, Exact.mul,
        Exact.add, hper j hlt, Math32.abs, Math32.atan2, Exact.up, Exact.down, Exact.atan2, Exact.abs]
      congr 1
      have : Complex.arg ⟨((pos j).1 - (pos (j + 1)).1) * ((pos j).1 - (pos (j + 1)).1) + ((pos j).2 - (pos (j + 1)).2) * ((pos j).2 - (pos (j + 1)).2),
          ((pos j).1 - (pos (j + 1)).1) * ((pos j).2 - (pos (j + 1)).2) - ((pos j).2 - (pos (j + 1)).2) * ((pos j).1 - (pos (j + 1)).1)⟩ = 0 := by
        rw [Complex.arg_eq_zero_iff]
        exact ⟨add_nonneg (mul_self_nonneg _) (mul_self_nonneg _), by ring⟩
      rw [this, abs_zero]

end GosuPP.Exactly
