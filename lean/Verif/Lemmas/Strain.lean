import Verif.Go.ExactLibm
import Verif.Lemmas.PeakGrowth
import Mathlib.Tactic.Linarith

/-! How the strain of a skill grows in exact arithmetic. -/

namespace GosuPP.Exactly
open Go Spec
attribute [local instance] exactLibm

/-- After objects up to time `t` the strain of a skill is `s`, and no peak is higher. -/
structure Holds (s t : ℝ) (sk : Skill (Option ℝ) (Option ℝ)) : Prop where
  nonneg : 0 ≤ s
  strain : sk.currentStrain = some s
  rhythm : sk.kind = .speed → sk.currentRhythm = some 1
  peaks : ∀ x ∈ sk.getCurrentStrainPeaks, ∃ y, x = some y ∧ 0 ≤ y ∧ y ≤ s
  last : ∃ o, sk.previous.getLast? = some o ∧ o.startTime = some t
  ends : ∃ e, sk.currentSectionEnd = some e ∧ t ≤ e

/-- The settings of a skill that matter for its strain. -/
structure Set (b m : ℝ) (sk : Skill (Option ℝ) (Option ℝ)) : Prop where
  base : sk.strainDecayBase = some b
  mult : sk.skillMultiplier = some m
  length : sk.sectionLength = some 400
  history : 1 ≤ sk.historyLength

theorem Set.of {b m : ℝ} {sk sk' : Skill (Option ℝ) (Option ℝ)} (h : Set b m sk) (hs : SameSettings sk sk') : Set b m sk' :=
  ⟨hs.strainDecayBase.symm.trans h.base, hs.skillMultiplier.symm.trans h.mult, hs.sectionLength.symm.trans h.length,
    hs.historyLength ▸ h.history⟩

theorem decay {b m : ℝ} {sk : Skill (Option ℝ) (Option ℝ)} (h : Set b m sk) (x : ℝ) :
    sk.strainDecay (some x) = some (b ^ (x / 1000)) := by
  unfold Skill.strainDecay
  rw [h.base, Exact.lit, Exact.div _ (by norm_num), Exact.pow]
  norm_num

theorem getPrevious_zero {sk : Skill (Option ℝ) (Option ℝ)} {o : DiffObject (Option ℝ) (Option ℝ)}
    (h : sk.previous.getLast? = some o) : sk.derefPrevious 0 = .ok o := by
  unfold Skill.derefPrevious Skill.getPrevious
  rw [← List.head?_eq_getElem?, List.head?_reverse, h]

/-- The loop over the sections. -/
theorem sectionLoop_holds {b m s t t' : ℝ} (hb : 0 < b) (hb1 : b ≤ 1) {fuel : ℕ} {sk sk' : Skill (Option ℝ) (Option ℝ)}
    (hset : Set b m sk) (h : Holds s t sk) (hr : Skill.sectionLoop (some t') fuel sk = .ok sk') :
    Holds s t sk' ∧ (∃ e, sk'.currentSectionEnd = some e ∧ t' ≤ e) := by
  induction fuel generalizing sk with
  | zero => cases hr
  | succ fuel ih =>
    rw [Skill.sectionLoop] at hr
    obtain ⟨e, he, hte⟩ := h.ends
    obtain ⟨o, ho, hot⟩ := h.last
    rw [he, Exact.lt] at hr
    by_cases hlt : e < t'
    · rw [if_pos (decide_eq_true hlt)] at hr
      obtain ⟨v, hv, hr⟩ := bind_ok hr
      have hv' : v = some (s * b ^ ((e - t) / 1000)) := by
        unfold Skill.calculateInitialStrain at hv
        rw [getPrevious_zero ho] at hv
        simp only [ok_bind, hot, Exact.sub, decay hset, h.strain] at hv
        split at hv
        · rename_i hk
          rw [h.rhythm hk, Exact.mul, Exact.mul, mul_one] at hv
          cases hv; rfl
        · rw [Exact.mul] at hv
          cases hv; rfl
      refine ih (sk := { sk with
        strainPeaks := sk.strainPeaks ++ [sk.currentSectionPeak], currentSectionPeak := v
        currentSectionEnd := some e +. sk.sectionLength }) ⟨hset.base, hset.mult, hset.length, hset.history⟩
        ⟨h.nonneg, h.strain, h.rhythm, ?_, ⟨o, ho, hot⟩, ⟨e + 400, ?_, by linarith⟩⟩ hr
      · intro x hx
        rcases List.mem_append.mp hx with hx | hx
        · exact h.peaks x hx
        · have hd : b ^ ((e - t) / 1000) ≤ 1 :=
            Real.rpow_le_one hb.le hb1 (div_nonneg (by linarith) (by norm_num))
          rw [List.mem_singleton.mp hx]
          refine ⟨_, hv', mul_nonneg h.nonneg (Real.rpow_pos_of_pos hb _).le, ?_⟩
          exact mul_le_of_le_one_right h.nonneg hd
      · show some e +. sk.sectionLength = _
        rw [hset.length, Exact.add]
    · rw [if_neg (by simpa using hlt)] at hr
      cases hr
      exact ⟨h, ⟨e, he, not_lt.mp hlt⟩⟩

/-- The previous objects that a skill still sees. -/
def seen (sk : Skill (Option ℝ) (Option ℝ)) : List (DiffObject (Option ℝ) (Option ℝ)) :=
  sk.previous.drop (sk.previous.length - sk.historyLength)

/-- The next object has the value `v` for a skill, and the rhythm is even. -/
structure Values (sk : Skill (Option ℝ) (Option ℝ)) (c : DiffObject (Option ℝ) (Option ℝ)) (v : ℝ) : Prop where
  value : ∀ s : Skill (Option ℝ) (Option ℝ), SameSettings sk s → s.previous = seen sk → s.strainValueOf c = .ok (some v)
  rhythm : sk.kind = .speed → ∀ s : Skill (Option ℝ) (Option ℝ), SameSettings sk s → s.previous = seen sk →
    Speed.rhythm s c = .ok (some 1)

theorem addStrain_holds {b m s t' δ v : ℝ} {c : DiffObject (Option ℝ) (Option ℝ)} {sk sk' : Skill (Option ℝ) (Option ℝ)}
    (hset : Set b m sk) (h0 : 0 ≤ s) (hst : sk.currentStrain = some s)
    (hpk : ∀ x ∈ sk.getCurrentStrainPeaks, ∃ y, x = some y ∧ 0 ≤ y ∧ y ≤ s)
    (hc : c.startTime = some t') (hd : c.deltaTime = some δ)
    (hval : ∀ s' : Skill (Option ℝ) (Option ℝ), SameSettings sk s' → s'.previous = sk.previous → s'.strainValueOf c = .ok (some v))
    (hrh : sk.kind = .speed → ∀ s' : Skill (Option ℝ) (Option ℝ), SameSettings sk s' → s'.previous = sk.previous →
      Speed.rhythm s' c = .ok (some 1))
    (hmono : s ≤ s * b ^ (δ / 1000) + v * m) (hend : ∃ e, sk.currentSectionEnd = some e ∧ t' ≤ e)
    (hr : Skill.addStrain c sk = .ok sk') :
    Holds (s * b ^ (δ / 1000) + v * m) t' { sk' with previous := sk'.previous ++ [c] } ∧
      sk'.currentSectionPeak = some (s * b ^ (δ / 1000) + v * m) ∧ SameSettings sk sk' ∧ sk'.previous = sk.previous := by
  obtain ⟨h1, h2, h3, h4, w, hw, h5, h6⟩ := Skill.addStrain_spec hr
  have ew : w = some v := by
    have := hval _ (by exact ⟨rfl, rfl, rfl, rfl, rfl, rfl, rfl, rfl, rfl, rfl⟩) rfl |>.symm.trans hw
    cases this; rfl
  rw [ew, hst, hd, decay hset, hset.mult, Exact.mul, Exact.mul, Exact.add] at h5
  obtain ⟨p, hp, hp0, hps⟩ := hpk sk.currentSectionPeak (by simp [Skill.getCurrentStrainPeaks])
  have hpeak : sk'.currentSectionPeak = some (s * b ^ (δ / 1000) + v * m) ∧ (sk'.kind = .speed → sk'.currentRhythm = some 1) := by
    rcases h6 with ⟨hk, ⟨s', e1, e2, e3⟩, e4⟩ | ⟨hk, -, e4⟩
    · obtain ⟨bonus, hb⟩ : ∃ x, sk'.currentRhythm = x := ⟨_, rfl⟩
      have hb1 : sk'.currentRhythm = some 1 := by
        have := hrh hk { sk with diff := s'.diff, previous := s'.previous }
          (by exact ⟨rfl, rfl, rfl, rfl, rfl, rfl, rfl, rfl, rfl, e2.symm⟩) e1
        have hcong : Speed.rhythm { sk with diff := s'.diff, previous := s'.previous } c = Speed.rhythm s' c := by
          have loop : ∀ (g : Option ℝ) (n : ℕ) (r : Speed.Rhythm (Option ℝ)) (a a' : Skill (Option ℝ) (Option ℝ)),
              a.previous = a'.previous → Speed.rhythmLoop g a c n r = Speed.rhythmLoop g a' c n r := by
            intro g n
            induction n with
            | zero => intros; rfl
            | succ n ih =>
              intro r a a' haa
              have hdp : ∀ i, a.derefPrevious i = a'.derefPrevious i := by
                intro i; unfold Skill.derefPrevious Skill.getPrevious; rw [haa]
              unfold Speed.rhythmLoop
              simp only [hdp, haa]
              congr 1; funext x; congr 1; funext y; congr 1; funext z
              exact ih _ a a' haa
          unfold Speed.rhythm
          simp only
          split
          · rfl
          · rw [loop _ _ _ { sk with diff := s'.diff, previous := s'.previous } s' rfl]
        rw [hcong, e3] at this
        exact Except.ok.inj this
      refine ⟨?_, fun _ => hb1⟩
      rw [e4, h5, hb1, hp, Exact.mul, mul_one, Exact.fmax, max_eq_left (hps.trans hmono)]
    · refine ⟨?_, fun hk' => absurd (h1.kind.trans hk') hk⟩
      rw [e4, h5, hp, Exact.fmax, max_eq_left (hps.trans hmono)]
  refine ⟨⟨h0.trans hmono, h5, hpeak.2, ?_, ⟨c, by simp, hc⟩, by show ∃ e, sk'.currentSectionEnd = some e ∧ _; rw [h4]; exact hend⟩,
    hpeak.1, h1, h2⟩
  intro x hx
  rcases List.mem_append.mp hx with hx | hx
  · change x ∈ sk'.strainPeaks at hx
    rw [h3] at hx
    obtain ⟨y, e, y0, ys⟩ := hpk x (List.mem_append.mpr (.inl hx))
    exact ⟨y, e, y0, ys.trans hmono⟩
  · rw [List.mem_singleton.mp hx]
    exact ⟨_, hpeak.1, h0.trans hmono, le_rfl⟩

/-- One object. -/
theorem process_holds {b m s t t' δ v : ℝ} (hb : 0 < b) (hb1 : b ≤ 1) {fuel : ℕ} {c : DiffObject (Option ℝ) (Option ℝ)}
    {sk sk' : Skill (Option ℝ) (Option ℝ)} (hset : Set b m sk) (h : Holds s t sk) (hc : c.startTime = some t')
    (hd : c.deltaTime = some δ) (hv : Values sk c v) (hmono : s ≤ s * b ^ (δ / 1000) + v * m)
    (hr : sk.process fuel c = .ok sk') :
    Holds (s * b ^ (δ / 1000) + v * m) t' sk' ∧ sk'.currentSectionPeak = some (s * b ^ (δ / 1000) + v * m) ∧
      SameSettings sk sk' ∧ sk'.previous = seen sk ++ [c] := by
  obtain ⟨o, ho, hot⟩ := h.last
  have hne : sk.previous ≠ [] := by intro e; rw [e] at ho; cases ho
  have hlen : 0 < sk.previous.length := List.length_pos_iff.mpr hne
  have hpr : (if sk.previous.length > sk.historyLength then
      { sk with previous := sk.previous.drop (sk.previous.length - sk.historyLength) } else sk) =
      { sk with previous := seen sk } := by
    unfold seen
    split
    · rfl
    · rw [show sk.previous.length - sk.historyLength = 0 by omega, List.drop_zero]
  unfold Skill.process at hr
  rw [hpr] at hr
  simp only at hr
  obtain ⟨s2, hs2, hr⟩ := bind_ok hr
  cases hr
  have hsl : (seen sk).length ≠ 0 := by
    unfold seen
    have := hset.history
    rw [List.length_drop]; omega
  unfold Skill.processInternal at hs2
  simp only [if_neg hsl] at hs2
  obtain ⟨s1, hs1, hs2⟩ := bind_ok hs2
  rw [hc] at hs1
  have hH : Holds s t { sk with previous := seen sk } := by
    refine ⟨h.nonneg, h.strain, h.rhythm, h.peaks, ⟨o, ?_, hot⟩, h.ends⟩
    show (seen sk).getLast? = some o
    unfold seen at hsl ⊢
    rw [List.getLast?_drop, if_neg (by rw [List.length_drop] at hsl; omega), ho]
  obtain ⟨g1, g2⟩ := sectionLoop_holds hb hb1 (sk := { sk with previous := seen sk }) ⟨hset.base, hset.mult, hset.length, hset.history⟩ hH hs1
  obtain ⟨k1, k4, -, -, -⟩ := Skill.sectionLoop_peaks (fun _ => True) _ _ _ _ hs1 (fun _ _ _ _ _ _ _ _ => trivial)
  have kp : s1.previous = seen sk := k4
  have ks : SameSettings sk s1 := ⟨k1.1, k1.2, k1.3, k1.4, k1.5, k1.6, k1.7, k1.8, k1.9, k1.10⟩
  obtain ⟨a1, a2, a3, a4⟩ := addStrain_holds (hset.of ks) g1.nonneg g1.strain g1.peaks hc hd
    (fun s' e1 e2 => hv.value s' (ks.trans e1) (e2.trans kp))
    (fun hk s' e1 e2 => hv.rhythm (ks.kind.trans hk) s' (ks.trans e1) (e2.trans kp)) hmono g2 hs2
  refine ⟨a1, a2, ks.trans ⟨a3.1, a3.2, a3.3, a3.4, a3.5, a3.6, a3.7, a3.8, a3.9, a3.10⟩, ?_⟩
  show s2.previous ++ [c] = _
  rw [a4, kp]

/-- The first object. -/
theorem process_first {b m t' δ v : ℝ} {fuel : ℕ} {c : DiffObject (Option ℝ) (Option ℝ)}
    {sk sk' : Skill (Option ℝ) (Option ℝ)} (hset : Set b m sk) (hp : sk.previous = []) (hq : sk.strainPeaks = [])
    (hs : sk.currentStrain = some 0) (hk : sk.currentSectionPeak = some 0) (hc : c.startTime = some t')
    (hd : c.deltaTime = some δ) (hv : Values sk c v) (hmono : 0 ≤ v * m)
    (hr : sk.process fuel c = .ok sk') :
    Holds (v * m) t' sk' ∧ sk'.currentSectionPeak = some (v * m) ∧ SameSettings sk sk' ∧ sk'.previous = [c] := by
  have hseen : seen sk = [] := by unfold seen; rw [hp, List.drop_nil]
  unfold Skill.process at hr
  simp only [hp, List.length_nil] at hr
  rw [if_neg (by simp)] at hr
  obtain ⟨s2, hs2, hr⟩ := bind_ok hr
  cases hr
  unfold Skill.processInternal at hs2
  simp only [hp, List.length_nil, if_true, hc, hset.length] at hs2
  obtain ⟨s1, hs1, hs2⟩ := bind_ok hs2
  have hce : GoFloat.ceil (some t' /. some 400) *. some 400 = some ((⌈t' / 400⌉ : ℝ) * 400) := by
    rw [Exact.div _ (by norm_num), Exact.ceil, Exact.mul]
  have hle : t' ≤ (⌈t' / 400⌉ : ℝ) * 400 := by
    have := Int.le_ceil (t' / 400)
    rwa [div_le_iff₀ (by norm_num)] at this
  cases fuel with
  | zero => cases hs1
  | succ fuel =>
    rw [Skill.sectionLoop, hce, Exact.lt, if_neg (by simpa using hle)] at hs1
    cases hs1
    obtain ⟨a1, a2, a3, a4⟩ := addStrain_holds (s := 0) (b := b) (m := m)
      (sk := { sk with previous := [], sectionLength := some 400, currentSectionEnd := some ((⌈t' / 400⌉ : ℝ) * 400) })
      ⟨hset.base, hset.mult, rfl, hset.history⟩ le_rfl hs (by
        intro x hx
        change x ∈ sk.strainPeaks ++ [sk.currentSectionPeak] at hx
        rw [hq, hk] at hx
        exact ⟨0, by simpa using hx, le_rfl, le_rfl⟩) hc hd
      (fun s' e1 e2 => hv.value s' ⟨e1.1, e1.2, e1.3, e1.4, hset.length.trans e1.5, e1.6, e1.7, e1.8, e1.9, e1.10⟩ (e2.trans hseen.symm))
      (fun hk s' e1 e2 => hv.rhythm hk s' ⟨e1.1, e1.2, e1.3, e1.4, hset.length.trans e1.5, e1.6, e1.7, e1.8, e1.9, e1.10⟩ (e2.trans hseen.symm))
      (by rw [zero_mul, zero_add]; exact hmono) ⟨_, rfl, hle⟩ (by simpa [hp, hset.length] using hs2)
    rw [zero_mul, zero_add] at a1 a2
    refine ⟨a1, a2, ⟨a3.1, a3.2, a3.3, a3.4, hset.length.trans a3.5, a3.6, a3.7, a3.8, a3.9, a3.10⟩, ?_⟩
    show s2.previous ++ [c] = _
    rw [a4]; rfl

end GosuPP.Exactly
