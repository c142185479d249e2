import Verif.Lemmas.Strain
import Verif.Spec.StrainCurve

/-! The peaks of a skill are the greatest strains of the sections. -/

namespace GosuPP.Exactly
open Go Spec
attribute [local instance] exactLibm

variable {b : ℝ} {τ v β : ℕ → ℝ}

theorem strainAt_zero : strainAt b τ v 0 = 0 := by simp [strainAt]

theorem strainAt_succ (hb : 0 < b) (n : ℕ) :
    strainAt b τ v (n + 1) = strainAt b τ v n * b ^ ((τ (n + 1) - τ n) / 1000) + v (n + 1) := by
  unfold strainAt
  rw [Finset.sum_Icc_succ_top (by omega), sub_self, zero_div, Real.rpow_zero, mul_one, Finset.sum_mul]
  congr 1
  refine Finset.sum_congr rfl fun j _ => ?_
  rw [mul_assoc, ← Real.rpow_add hb]
  congr 2
  ring

theorem strainAt_nonneg (hb : 0 < b) (hv : ∀ n, 0 ≤ v n) (n : ℕ) : 0 ≤ strainAt b τ v n :=
  Finset.sum_nonneg fun j _ => mul_nonneg (hv j) (Real.rpow_nonneg hb.le _)

theorem section_mono {x y : ℝ} (h : x ≤ y) : section400 x ≤ section400 y :=
  Int.ceil_mono (div_le_div_of_nonneg_right h (by norm_num))

theorem lt_section {x : ℝ} {s : ℤ} : 400 * (s : ℝ) < x ↔ s < section400 x := by
  unfold section400
  rw [Int.lt_ceil, lt_div_iff₀ (by norm_num), mul_comm]

/-- A section after all hits: only what is left of the last one. -/
theorem strains_after (hτ : ∀ i j, 1 ≤ i → i ≤ j → τ i ≤ τ j) {k : ℕ} (hk : 1 ≤ k) {s : ℤ} (hs : section400 (τ k) < s) :
    SectionStrains b τ v β k s = {strainAt b τ v k * β k * b ^ ((400 * ((s : ℝ) - 1) - τ k) / 1000)} := by
  ext x
  constructor
  · rintro (⟨n, h1, h2, h3, -⟩ | ⟨n, h, rfl⟩)
    · have := section_mono (hτ n k h1 h2)
      omega
    · rcases h.le.lt_or_eq with h' | h'
      · have := h.last k h' le_rfl
        omega
      · rw [h']; rfl
  · rintro rfl
    exact .inr ⟨k, ⟨hk, le_rfl, hs, fun j h1 h2 => absurd h1 (by omega)⟩, rfl⟩

/-- Another hit does not change earlier sections. -/
theorem strains_earlier {k : ℕ} {s : ℤ} (hs : s < section400 (τ (k + 1))) :
    SectionStrains b τ v β (k + 1) s = SectionStrains b τ v β k s := by
  ext x
  constructor
  · rintro (⟨n, h1, h2, h3, h4⟩ | ⟨n, h, rfl⟩)
    · refine .inl ⟨n, h1, ?_, h3, h4⟩
      by_contra hn
      obtain rfl : n = k + 1 := by omega
      omega
    · refine .inr ⟨n, ⟨h.pos, ?_, h.before, fun j h1 h2 => h.last j h1 (by omega)⟩, rfl⟩
      by_contra hn
      obtain rfl : n = k + 1 := by have := h.le; omega
      have := h.before
      omega
  · rintro (⟨n, h1, h2, h3, h4⟩ | ⟨n, h, rfl⟩)
    · exact .inl ⟨n, h1, by omega, h3, h4⟩
    · refine .inr ⟨n, ⟨h.pos, by have := h.le; omega, h.before, fun j h1 h2 => ?_⟩, rfl⟩
      rcases Nat.lt_or_ge k j with h' | h'
      · obtain rfl : j = k + 1 := by omega
        exact hs.le
      · exact h.last j h1 h'

/-- Its own section gets its strain. -/
theorem strains_hit {k : ℕ} :
    SectionStrains b τ v β (k + 1) (section400 (τ (k + 1))) =
      insert (strainAt b τ v (k + 1) * β (k + 1)) (SectionStrains b τ v β k (section400 (τ (k + 1)))) := by
  ext x
  constructor
  · rintro (⟨n, h1, h2, h3, h4⟩ | ⟨n, h, rfl⟩)
    · by_cases hn : n = k + 1
      · subst hn; exact .inl h4
      · exact .inr (.inl ⟨n, h1, by omega, h3, h4⟩)
    · refine .inr (.inr ⟨n, ⟨h.pos, ?_, h.before, fun j h1 h2 => h.last j h1 (by omega)⟩, rfl⟩)
      by_contra hn
      obtain rfl : n = k + 1 := by have := h.le; omega
      exact absurd h.before (lt_irrefl _)
  · rintro (rfl | ⟨n, h1, h2, h3, h4⟩ | ⟨n, h, rfl⟩)
    · exact .inl ⟨k + 1, by omega, le_rfl, rfl, rfl⟩
    · exact .inl ⟨n, h1, by omega, h3, h4⟩
    · refine .inr ⟨n, ⟨h.pos, by have := h.le; omega, h.before, fun j h1 h2 => ?_⟩, rfl⟩
      rcases Nat.lt_or_ge k j with h' | h'
      · obtain rfl : j = k + 1 := by omega
        exact le_rfl
      · exact h.last j h1 h'

theorem strains_none (s : ℤ) : SectionStrains b τ v β 0 s = ∅ := by
  ext x
  simp only [Set.mem_empty_iff_false, iff_false]
  rintro (⟨n, h1, h2, -⟩ | ⟨n, h, -⟩)
  · omega
  · have := h.pos; have := h.le; omega

/-- A skill that has processed the first `k` hits; `s` is the section it is in. -/
structure Curve (b m : ℝ) (τ v β : ℕ → ℝ) (k : ℕ) (s : ℤ) (sk : Skill (Option ℝ) (Option ℝ)) : Prop where
  set : Set b m sk
  strain : sk.currentStrain = some (strainAt b τ v k)
  factor : sk.kind = .speed → sk.currentRhythm = some (β k)
  ends : sk.currentSectionEnd = some (400 * (s : ℝ))
  last : ∃ o, sk.previous.getLast? = some o ∧ o.startTime = some (τ k)
  length : (sk.strainPeaks.length : ℤ) = s - section400 (τ 1)
  peaks : ∀ (i : ℕ) x, sk.strainPeaks[i]? = some x →
    ∃ y, x = some y ∧ IsGreatest (SectionStrains b τ v β k (section400 (τ 1) + i)) y
  peak : ∃ y, sk.currentSectionPeak = some y ∧ IsGreatest (SectionStrains b τ v β k s) y

variable {m : ℝ}

theorem sectionLoop_curve (hτ : ∀ i j, 1 ≤ i → i ≤ j → τ i ≤ τ j) {k : ℕ} (hk : 1 ≤ k)
    {fuel : ℕ} {sk sk' : Skill (Option ℝ) (Option ℝ)} (hβ : sk.kind ≠ .speed → β k = 1) {s : ℤ} (hs : section400 (τ k) ≤ s) {t' : ℝ}
    (h : Curve b m τ v β k s sk) (hr : Skill.sectionLoop (some t') fuel sk = .ok sk') :
    Curve b m τ v β k (max s (section400 t')) sk' := by
  induction fuel generalizing sk s with
  | zero => cases hr
  | succ fuel ih =>
    rw [Skill.sectionLoop, h.ends, Exact.lt] at hr
    obtain ⟨o, ho, hot⟩ := h.last
    by_cases hlt : 400 * (s : ℝ) < t'
    · rw [if_pos (decide_eq_true hlt)] at hr
      obtain ⟨w, hw, hr⟩ := bind_ok hr
      have hw' : w = some (strainAt b τ v k * β k * b ^ ((400 * (((s + 1 : ℤ) : ℝ) - 1) - τ k) / 1000)) := by
        have e : 400 * (((s + 1 : ℤ) : ℝ) - 1) = 400 * (s : ℝ) := by push_cast; ring
        rw [e]
        unfold Skill.calculateInitialStrain at hw
        rw [getPrevious_zero ho] at hw
        simp only [ok_bind, hot, Exact.sub, decay h.set, h.strain] at hw
        split at hw
        · rename_i hk
          rw [h.factor hk, Exact.mul, Exact.mul] at hw
          cases hw; rfl
        · rename_i hk
          rw [hβ hk, mul_one]
          rw [Exact.mul] at hw
          cases hw; rfl
      have hlt' := lt_section.mp hlt
      have hmax : max s (section400 t') = max (s + 1) (section400 t') := by
        rw [max_eq_right hlt'.le, max_eq_right (by omega)]
      rw [hmax]
      refine ih (sk := { sk with
        strainPeaks := sk.strainPeaks ++ [sk.currentSectionPeak], currentSectionPeak := w
        currentSectionEnd := some (400 * (s : ℝ)) +. sk.sectionLength }) hβ (by omega)
        ⟨⟨h.set.base, h.set.mult, h.set.length, h.set.history⟩, h.strain, h.factor, ?_, ⟨o, ho, hot⟩, ?_, ?_, ⟨_, hw', ?_⟩⟩ hr
      · show some (400 * (s : ℝ)) +. sk.sectionLength = _
        rw [h.set.length, Exact.add]
        congr 1; push_cast; ring
      · show ((sk.strainPeaks ++ [sk.currentSectionPeak]).length : ℤ) = _
        rw [List.length_append, List.length_singleton]
        have := h.length
        push_cast
        omega
      · intro i x hx
        change (sk.strainPeaks ++ [sk.currentSectionPeak])[i]? = some x at hx
        rcases Nat.lt_or_ge i sk.strainPeaks.length with hi | hi
        · rw [List.getElem?_append_left hi] at hx
          exact h.peaks i x hx
        · rw [List.getElem?_append_right hi] at hx
          have hi0 : i - sk.strainPeaks.length = 0 := by
            by_contra hne
            rw [List.getElem?_eq_none (by simp; omega)] at hx
            cases hx
          rw [hi0] at hx
          cases hx
          obtain ⟨y, hy, hg⟩ := h.peak
          refine ⟨y, hy, ?_⟩
          have : section400 (τ 1) + (i : ℤ) = s := by
            have := h.length
            omega
          rw [this]
          exact hg
      · rw [strains_after hτ hk (by omega)]
        exact isGreatest_singleton
    · rw [if_neg (by simpa using hlt)] at hr
      cases hr
      rw [lt_section] at hlt
      rw [max_eq_left (by omega)]
      exact h

/-- The next object has the value `x` for a skill and the factor `y`. -/
structure Gives (sk : Skill (Option ℝ) (Option ℝ)) (c : DiffObject (Option ℝ) (Option ℝ)) (x y : ℝ) : Prop where
  value : ∀ s : Skill (Option ℝ) (Option ℝ), SameSettings sk s → s.previous = seen sk → s.strainValueOf c = .ok (some x)
  rhythm : sk.kind = .speed → ∀ s : Skill (Option ℝ) (Option ℝ), SameSettings sk s → s.previous = seen sk →
    Speed.rhythm s c = .ok (some y)

theorem rhythm_congr (c : DiffObject (Option ℝ) (Option ℝ)) {s s' : Skill (Option ℝ) (Option ℝ)} (hp : s.previous = s'.previous)
    (hd : s.diff = s'.diff) : Speed.rhythm s c = Speed.rhythm s' c := by
  have loop : ∀ (g : Option ℝ) (n : ℕ) (r : Speed.Rhythm (Option ℝ)) (a a' : Skill (Option ℝ) (Option ℝ)),
      a.previous = a'.previous → Speed.rhythmLoop g a c n r = Speed.rhythmLoop g a' c n r := by
    intro g n
    induction n with
    | zero => intros; rfl
    | succ n ih =>
      intro r a a' haa
      have hdp : ∀ i, a.derefPrevious i = a'.derefPrevious i := by
        intro i; unfold Skill.derefPrevious Skill.getPrevious; rw [haa]
      unfold Speed.rhythmLoop
      simp only [hdp, haa]
      congr 1; funext x; congr 1; funext y; congr 1; funext z
      exact ih _ a a' haa
  unfold Speed.rhythm
  simp only [hp, hd]
  split
  · rfl
  · rw [loop _ _ _ s s' hp]

/-- The strain of one more hit. -/
theorem addStrain_value {s δ x y : ℝ} {c : DiffObject (Option ℝ) (Option ℝ)} {sk sk' : Skill (Option ℝ) (Option ℝ)} (hset : Set b m sk)
    (hst : sk.currentStrain = some s) (hd : c.deltaTime = some δ)
    (hval : ∀ s' : Skill (Option ℝ) (Option ℝ), SameSettings sk s' → s'.previous = sk.previous → s'.strainValueOf c = .ok (some x))
    (hrh : sk.kind = .speed → ∀ s' : Skill (Option ℝ) (Option ℝ), SameSettings sk s' → s'.previous = sk.previous →
      Speed.rhythm s' c = .ok (some y)) (hy : sk.kind ≠ .speed → y = 1)
    (hr : Skill.addStrain c sk = .ok sk') :
    sk'.currentStrain = some (s * b ^ (δ / 1000) + x * m) ∧ (sk'.kind = .speed → sk'.currentRhythm = some y) ∧
      sk'.currentSectionPeak = fmax (some ((s * b ^ (δ / 1000) + x * m) * y)) sk.currentSectionPeak ∧
      SameSettings sk sk' ∧ sk'.previous = sk.previous ∧ sk'.strainPeaks = sk.strainPeaks ∧
      sk'.currentSectionEnd = sk.currentSectionEnd := by
  obtain ⟨h1, h2, h3, h4, w, hw, h5, h6⟩ := Skill.addStrain_spec hr
  have ew : w = some x := by
    have := hval _ (by exact ⟨rfl, rfl, rfl, rfl, rfl, rfl, rfl, rfl, rfl, rfl⟩) rfl |>.symm.trans hw
    cases this; rfl
  rw [ew, hst, hd, decay hset, hset.mult, Exact.mul, Exact.mul, Exact.add] at h5
  have hrefl : SameSettings sk sk := ⟨rfl, rfl, rfl, rfl, rfl, rfl, rfl, rfl, rfl, rfl⟩
  rcases h6 with ⟨hk, ⟨s', e1, e2, e3⟩, e4⟩ | ⟨hk, -, e4⟩
  · rw [rhythm_congr c e1 e2, hrh hk sk hrefl rfl] at e3
    have e3 := Except.ok.inj e3
    refine ⟨h5, fun _ => e3.symm, ?_, h1, h2, h3, h4⟩
    rw [e4, h5, ← e3, Exact.mul]
  · refine ⟨h5, fun hk' => absurd (h1.kind.trans hk') hk, ?_, h1, h2, h3, h4⟩
    rw [e4, h5, hy hk, mul_one]

/-- The first hit. -/
theorem process_start (hb : 0 < b) {fuel : ℕ} {c : DiffObject (Option ℝ) (Option ℝ)} {sk sk' : Skill (Option ℝ) (Option ℝ)} (hset : Set b m sk)
    {x : ℝ} (hx : v 1 = x * m) (hβ : sk.kind ≠ .speed → β 1 = 1) (hpos : 0 ≤ v 1 * β 1)
    (hp : sk.previous = []) (hq : sk.strainPeaks = [])
    (hs : sk.currentStrain = some 0) (hk : sk.currentSectionPeak = some 0) (hc : c.startTime = some (τ 1)) {δ : ℝ}
    (hd : c.deltaTime = some δ) (hv : Gives sk c x (β 1)) (hr : sk.process fuel c = .ok sk') :
    Curve b m τ v β 1 (section400 (τ 1)) sk' ∧ SameSettings sk sk' ∧ sk'.previous = [c] := by
  have hseen : seen sk = [] := by unfold seen; rw [hp, List.drop_nil]
  unfold Skill.process at hr
  simp only [hp, List.length_nil] at hr
  rw [if_neg (by simp)] at hr
  obtain ⟨s2, hs2, hr⟩ := bind_ok hr
  cases hr
  unfold Skill.processInternal at hs2
  simp only [hp, List.length_nil, if_true, hc, hset.length] at hs2
  obtain ⟨s1, hs1, hs2⟩ := bind_ok hs2
  have hce : GoFloat.ceil (some (τ 1) /. some 400) *. some 400 = some (400 * ((section400 (τ 1) : ℤ) : ℝ)) := by
    rw [Exact.div _ (by norm_num), Exact.ceil, Exact.mul, mul_comm]
    rfl
  cases fuel with
  | zero => cases hs1
  | succ fuel =>
    rw [Skill.sectionLoop, hce, Exact.lt, if_neg (by simp [lt_section])] at hs1
    cases hs1
    obtain ⟨a1, a2, a3, a4, a5, a6, a7⟩ := addStrain_value (s := 0) (b := b) (m := m) (x := x) (y := β 1)
      (sk := { sk with previous := [], sectionLength := some 400, currentSectionEnd := some (400 * ((section400 (τ 1) : ℤ) : ℝ)) })
      ⟨hset.base, hset.mult, rfl, hset.history⟩ hs hd
      (fun s' e1 e2 => hv.value s' ⟨e1.1, e1.2, e1.3, e1.4, hset.length.trans e1.5, e1.6, e1.7, e1.8, e1.9, e1.10⟩ (e2.trans hseen.symm))
      (fun hk s' e1 e2 => hv.rhythm hk s' ⟨e1.1, e1.2, e1.3, e1.4, hset.length.trans e1.5, e1.6, e1.7, e1.8, e1.9, e1.10⟩ (e2.trans hseen.symm))
      hβ (by simpa [hp, hset.length] using hs2)
    have hsame : SameSettings sk s2 := ⟨a4.1, a4.2, a4.3, a4.4, hset.length.trans a4.5, a4.6, a4.7, a4.8, a4.9, a4.10⟩
    have e1 : strainAt b τ v 1 = v 1 := by rw [← zero_add 1, strainAt_succ hb, strainAt_zero, zero_mul, zero_add]
    rw [zero_mul, zero_add, ← hx] at a1 a3
    refine ⟨⟨⟨(hset.of hsame).1, (hset.of hsame).2, (hset.of hsame).3, (hset.of hsame).4⟩, ?_, a2, ?_, ⟨c, by simp, hc⟩, ?_, ?_, ?_⟩,
      ⟨hsame.1, hsame.2, hsame.3, hsame.4, hsame.5, hsame.6, hsame.7, hsame.8, hsame.9, hsame.10⟩, ?_⟩
    · rw [e1]; exact a1
    · exact a7
    · show (s2.strainPeaks.length : ℤ) = _
      rw [a6]
      show (sk.strainPeaks.length : ℤ) = _
      rw [hq]; simp
    · intro i y hy
      change s2.strainPeaks[i]? = some y at hy
      rw [a6] at hy
      change sk.strainPeaks[i]? = some y at hy
      rw [hq] at hy
      cases hy
    · refine ⟨v 1 * β 1, ?_, ?_⟩
      · show s2.currentSectionPeak = _
        rw [a3]
        show fmax _ sk.currentSectionPeak = _
        rw [hk, Exact.fmax, max_eq_left hpos]
      · have := strains_hit (b := b) (τ := τ) (v := v) (β := β) (k := 0)
        rw [zero_add, strains_none, e1] at this
        rw [this]
        simp [isGreatest_singleton]
    · show s2.previous ++ [c] = _
      rw [a5]; rfl

/-- One more hit. -/
theorem process_next (hb : 0 < b) (hτ : ∀ i j, 1 ≤ i → i ≤ j → τ i ≤ τ j) {k : ℕ} (hk : 1 ≤ k) {fuel : ℕ}
    {c : DiffObject (Option ℝ) (Option ℝ)} {sk sk' : Skill (Option ℝ) (Option ℝ)}
    {x : ℝ} (hx : v (k + 1) = x * m) (hβ : sk.kind ≠ .speed → ∀ n, β n = 1)
    (h : Curve b m τ v β k (section400 (τ k)) sk) (hc : c.startTime = some (τ (k + 1)))
    (hd : c.deltaTime = some (τ (k + 1) - τ k)) (hv : Gives sk c x (β (k + 1))) (hr : sk.process fuel c = .ok sk') :
    Curve b m τ v β (k + 1) (section400 (τ (k + 1))) sk' ∧ SameSettings sk sk' ∧ sk'.previous = seen sk ++ [c] := by
  obtain ⟨o, ho, hot⟩ := h.last
  have hset := h.set
  have hne : sk.previous ≠ [] := by intro e; rw [e] at ho; cases ho
  have hlen : 0 < sk.previous.length := List.length_pos_iff.mpr hne
  have hpr : (if sk.previous.length > sk.historyLength then
      { sk with previous := sk.previous.drop (sk.previous.length - sk.historyLength) } else sk) =
      { sk with previous := seen sk } := by
    unfold seen
    split
    · rfl
    · rw [show sk.previous.length - sk.historyLength = 0 by omega, List.drop_zero]
  unfold Skill.process at hr
  rw [hpr] at hr
  simp only at hr
  obtain ⟨s2, hs2, hr⟩ := bind_ok hr
  cases hr
  have hsl : (seen sk).length ≠ 0 := by
    unfold seen
    have := hset.history
    rw [List.length_drop]; omega
  unfold Skill.processInternal at hs2
  simp only [if_neg hsl] at hs2
  obtain ⟨s1, hs1, hs2⟩ := bind_ok hs2
  rw [hc] at hs1
  have hH : Curve b m τ v β k (section400 (τ k)) { sk with previous := seen sk } := by
    refine ⟨⟨hset.base, hset.mult, hset.length, hset.history⟩, h.strain, h.factor, h.ends, ⟨o, ?_, hot⟩, h.length, h.peaks, h.peak⟩
    show (seen sk).getLast? = some o
    unfold seen at hsl ⊢
    rw [List.getLast?_drop, if_neg (by rw [List.length_drop] at hsl; omega), ho]
  have g := sectionLoop_curve (sk := { sk with previous := seen sk }) hτ hk (fun hh => hβ hh k) le_rfl hH hs1
  have hsec := section_mono (hτ k (k + 1) hk (by omega))
  rw [max_eq_right hsec] at g
  obtain ⟨k1, k4, -, -, -⟩ := Skill.sectionLoop_peaks (fun _ => True) _ _ _ _ hs1 (fun _ _ _ _ _ _ _ _ => trivial)
  have kp : s1.previous = seen sk := k4
  have ks : SameSettings sk s1 := ⟨k1.1, k1.2, k1.3, k1.4, k1.5, k1.6, k1.7, k1.8, k1.9, k1.10⟩
  obtain ⟨a1, a2, a3, a4, a5, a6, a7⟩ := addStrain_value (x := x) (y := β (k + 1)) g.set g.strain hd
    (fun s' e1 e2 => hv.value s' (ks.trans e1) (e2.trans kp))
    (fun hk s' e1 e2 => hv.rhythm (ks.kind.trans hk) s' (ks.trans e1) (e2.trans kp)) (fun hh => hβ (fun e => hh (ks.kind.symm.trans e)) _) hs2
  rw [← hx, ← strainAt_succ hb] at a1 a3
  have same := g.set.of a4
  refine ⟨⟨⟨same.base, same.mult, same.length, same.history⟩, a1, a2, a7.trans g.ends, ⟨c, by simp, hc⟩, ?_, ?_, ?_⟩,
    ks.trans ⟨a4.1, a4.2, a4.3, a4.4, a4.5, a4.6, a4.7, a4.8, a4.9, a4.10⟩, ?_⟩
  · show (s2.strainPeaks.length : ℤ) = _
    rw [a6]; exact g.length
  · intro i y hy
    change s2.strainPeaks[i]? = some y at hy
    rw [a6] at hy
    obtain ⟨z, e, hz⟩ := g.peaks i y hy
    refine ⟨z, e, ?_⟩
    rw [strains_earlier]
    · exact hz
    · have := (List.getElem?_eq_some_iff.mp hy).1
      have := g.length
      omega
  · obtain ⟨z, e, hz⟩ := g.peak
    refine ⟨max (strainAt b τ v (k + 1) * β (k + 1)) z, ?_, ?_⟩
    · show s2.currentSectionPeak = _
      rw [a3, e, Exact.fmax]
    · rw [strains_hit]
      exact hz.insert _
  · show s2.previous ++ [c] = _
    rw [a5, kp]

theorem Curve.list {k : ℕ} {sk : Skill (Option ℝ) (Option ℝ)} (h : Curve b m τ v β k (section400 (τ k)) sk) :
    PeakList b τ v β k sk.getCurrentStrainPeaks := by
  unfold Skill.getCurrentStrainPeaks
  have hl := h.length
  refine ⟨?_, fun i x hx => ?_⟩
  · rw [List.length_append, List.length_singleton]
    push_cast
    omega
  · rcases Nat.lt_or_ge i sk.strainPeaks.length with hi | hi
    · rw [List.getElem?_append_left hi] at hx
      exact h.peaks i x hx
    · rw [List.getElem?_append_right hi] at hx
      have hi0 : i - sk.strainPeaks.length = 0 := by
        by_contra hne
        rw [List.getElem?_eq_none (by simp; omega)] at hx
        cases hx
      rw [hi0] at hx
      cases hx
      obtain ⟨y, hy, hg⟩ := h.peak
      refine ⟨y, hy, ?_⟩
      rw [show section400 (τ 1) + (i : ℤ) = section400 (τ k) by omega]
      exact hg

/-- A skill that has processed `k` objects; the `i`-th of all satisfies `P i`. -/
structure AfterHits (P : ℕ → DiffObject (Option ℝ) (Option ℝ) → Prop) (b m : ℝ) (τ v β : ℕ → ℝ) (sk0 : Skill (Option ℝ) (Option ℝ))
    (k : ℕ) (sk : Skill (Option ℝ) (Option ℝ)) : Prop where
  same : SameSettings sk0 sk
  known : ∀ (i : ℕ) o, sk.previous.reverse[i]? = some o → P (k - i) o
  length : sk.previous.length = min k (sk0.historyLength + 1)
  start : k = 0 → sk.strainPeaks = [] ∧ sk.currentStrain = some 0 ∧ sk.currentSectionPeak = some 0
  curve : k ≠ 0 → Curve b m τ v β k (section400 (τ k)) sk

theorem seen_get (sk : Skill (Option ℝ) (Option ℝ)) {i : ℕ} {o : DiffObject (Option ℝ) (Option ℝ)}
    (h : (seen sk).reverse[i]? = some o) : sk.previous.reverse[i]? = some o := by
  unfold seen at h
  rw [List.reverse_drop] at h
  obtain ⟨hi, e⟩ := List.getElem?_eq_some_iff.mp h
  rw [List.getElem_take] at e
  rw [← e]
  exact List.getElem?_eq_getElem _

/-- The run of one skill. -/
theorem run_hits (hb : 0 < b) (hτ : ∀ i j, 1 ≤ i → i ≤ j → τ i ≤ τ j) {fuel : ℕ} {P : ℕ → DiffObject (Option ℝ) (Option ℝ) → Prop}
    {val : ℕ → ℝ} {sk0 : Skill (Option ℝ) (Option ℝ)} (hset : Set b m sk0) (hval : ∀ n, v n = val n * m)
    (hβ : sk0.kind ≠ .speed → ∀ n, β n = 1) (hpos : 0 ≤ v 1 * β 1)
    (hgive : ∀ k (sk : Skill (Option ℝ) (Option ℝ)) c, SameSettings sk0 sk →
      (∀ (i : ℕ) o, (seen sk).reverse[i]? = some o → P (k - i) o) →
      (seen sk).length = min k sk0.historyLength → P (k + 1) c → Gives sk c (val (k + 1)) (β (k + 1)))
    {ds : List (DiffObject (Option ℝ) (Option ℝ))} {k : ℕ} (hP : ∀ (i : ℕ) o, ds[i]? = some o → P (k + i + 1) o)
    (hδ : ∀ (i : ℕ) o, ds[i]? = some o → o.deltaTime = some (τ (k + i + 1) - τ (k + i)))
    (ht : ∀ (i : ℕ) o, ds[i]? = some o → o.startTime = some (τ (k + i + 1))) {sk sk' : Skill (Option ℝ) (Option ℝ)}
    (h : AfterHits P b m τ v β sk0 k sk) (hr : ds.foldlM (fun s o => s.process fuel o) sk = .ok sk') :
    AfterHits P b m τ v β sk0 (k + ds.length) sk' := by
  induction ds generalizing k sk with
  | nil => cases hr; exact h
  | cons c ds ih =>
    rw [List.foldlM_cons] at hr
    obtain ⟨s1, h1, hr⟩ := bind_ok hr
    have hc := ht 0 c rfl
    have hd := hδ 0 c rfl
    rw [Nat.add_zero] at hc hd
    have hPc : P (k + 1) c := hP 0 c rfl
    have hsub : ∀ (i : ℕ) o, (seen sk).reverse[i]? = some o → P (k - i) o := fun i o ho => h.known i o (seen_get sk ho)
    have hlen : (seen sk).length = min k sk0.historyLength := by
      unfold seen
      rw [List.length_drop, h.length, ← h.same.historyLength]
      omega
    have hg := hgive k sk c h.same hsub hlen hPc
    have hβ' : sk.kind ≠ .speed → ∀ n, β n = 1 := fun hh => hβ (fun e => hh (h.same.kind.symm.trans e))
    have step : AfterHits P b m τ v β sk0 (k + 1) s1 := by
      by_cases hk : k = 0
      · subst hk
        obtain ⟨q1, q2, q3⟩ := h.start rfl
        have hp : sk.previous = [] := by
          apply List.eq_nil_of_length_eq_zero; rw [h.length]; simp
        obtain ⟨r1, r3, r4⟩ := process_start hb (hset.of h.same) (hval 1) (fun hh => hβ' hh 1) hpos hp q1 q2 q3 hc hd hg h1
        refine ⟨h.same.trans r3, ?_, ?_, fun h => by simp at h, fun _ => r1⟩
        · rw [r4]; intro i o ho
          cases i with
          | zero => simp at ho; rw [← ho]; exact hPc
          | succ i => simp at ho
        · rw [r4]; simp
      · obtain ⟨r1, r3, r4⟩ := process_next hb hτ (by omega) (hval (k + 1)) hβ' (h.curve hk) hc hd hg h1
        refine ⟨h.same.trans r3, ?_, ?_, fun h => by simp at h, fun _ => r1⟩
        · rw [r4]; intro i o ho
          rw [List.reverse_append, List.reverse_singleton, List.singleton_append] at ho
          cases i with
          | zero => simp at ho; rw [← ho]; exact hPc
          | succ i =>
            rw [List.getElem?_cons_succ] at ho
            have := hsub i o ho
            rwa [show k + 1 - (i + 1) = k - i by omega]
        · rw [r4, List.length_append, hlen, List.length_singleton]; omega
    have := ih (k := k + 1) (fun i o ho => by rw [show k + 1 + i = k + (i + 1) by omega]; exact hP (i + 1) o ho)
      (fun i o ho => by rw [show k + 1 + i = k + (i + 1) by omega]; exact hδ (i + 1) o ho)
      (fun i o ho => by rw [show k + 1 + i = k + (i + 1) by omega]; exact ht (i + 1) o ho) step hr
    rw [List.length_cons, show k + (ds.length + 1) = k + 1 + ds.length by omega]
    exact this

end GosuPP.Exactly
