import Verif.Lemmas.Skills
import Mathlib.Tactic.Linarith

/-! The 400 ms sections of a calculation, for any arithmetic in which multiples of 400 are computed
exactly. -/

namespace GosuPP
open Go
variable {S D : Type} [GoFloat S] [GoFloat D] [GoConv S D] [GoLibm D]

/-- Multiples of 400 are computed exactly: `At x k` says that `x` is the end of section `k`, `T` is
a set of times, and `σ t` is the section in which `t` lies. -/
structure Grid (D : Type) [GoFloat D] (T : D → Prop) (σ : D → ℤ) (At : D → ℤ → Prop) : Prop where
  start : ∀ {t}, T t → At (GoFloat.ceil (t /. lit 400) *. lit 400) (σ t)
  lt : ∀ {x k t}, At x k → T t → (x <. t) = decide (k < σ t)
  next : ∀ {x k t}, At x k → T t → k < σ t → At (x +. lit 400) (k + 1)

namespace Grid
variable {T : D → Prop} {σ : D → ℤ} {At : D → ℤ → Prop}

omit [GoFloat S] [GoConv S D] in
theorem sectionLoop (g : Grid D T σ At) {t : D} (ht : T t) (fuel : Nat) (sk : Skill S D) {k : ℤ}
    (hp : sk.previous ≠ []) (hl : sk.sectionLength = lit 400) (hk : At sk.currentSectionEnd k) :
    (fuel ≤ (σ t - k).toNat ∧ Skill.sectionLoop t fuel sk = .error .hang) ∨
    ∃ sk', Skill.sectionLoop t fuel sk = .ok sk' ∧ At sk'.currentSectionEnd (max k (σ t)) ∧
      sk'.strainPeaks.length = sk.strainPeaks.length + (σ t - k).toNat ∧
      sk'.previous = sk.previous ∧ sk'.sectionLength = sk.sectionLength ∧
      sk'.historyLength = sk.historyLength := by
  induction fuel generalizing sk k with
  | zero => exact .inl ⟨Nat.zero_le _, rfl⟩
  | succ fuel ih =>
    rw [Skill.sectionLoop, g.lt hk ht]
    by_cases h : k < σ t
    · rw [if_pos (decide_eq_true h)]
      have hc := sk.calculateInitialStrain_cases sk.currentSectionEnd
      rw [if_neg hp] at hc
      obtain ⟨v, hv⟩ := hc
      simp only [hv, ok_bind]
      rcases ih { sk with
          strainPeaks := sk.strainPeaks ++ [sk.currentSectionPeak]
          currentSectionPeak := v, currentSectionEnd := sk.currentSectionEnd +. sk.sectionLength }
          (k := k + 1) hp hl (by show At (_ +. sk.sectionLength) _; rw [hl]; exact g.next hk ht h) with
        ⟨h1, h2⟩ | ⟨sk', h1, h2, h3, h4, h5, h6⟩
      · exact .inl ⟨by omega, h2⟩
      · refine .inr ⟨sk', h1, ?_, ?_, h4, h5, h6⟩
        · have : max (k + 1) (σ t) = max k (σ t) := by omega
          rwa [this] at h2
        · rw [h3, List.length_append, List.length_singleton]
          omega
    · rw [if_neg (by simpa using h)]
      refine .inr ⟨sk, rfl, ?_, ?_, rfl, rfl, rfl⟩
      · rw [max_eq_left (not_lt.mp h)]; exact hk
      · have : (σ t - k).toNat = 0 := by omega
        rw [this, Nat.add_zero]

/-- The state of a skill that has processed an object: it is in section `k` and has finished `n`
sections. -/
structure Started (At : D → ℤ → Prop) (sk : Skill S D) (k : ℤ) (n : Nat) : Prop where
  len : sk.sectionLength = lit 400
  history : 1 ≤ sk.historyLength
  previous : sk.previous ≠ []
  at_end : At sk.currentSectionEnd k
  peaks : sk.strainPeaks.length = n

omit [GoFloat S] [GoFloat D] [GoConv S D] [GoLibm D] in
theorem trimmed_ne {sk : Skill S D} (hp : sk.previous ≠ []) (hh : 1 ≤ sk.historyLength) :
    sk.trimmed.previous ≠ [] := by
  unfold Skill.trimmed
  split
  · intro h
    rw [List.drop_eq_nil_iff] at h
    omega
  · exact hp

theorem process (g : Grid D T σ At) {c : DiffObject S D} (ht : T c.startTime) (fuel : Nat)
    {sk : Skill S D} {k : ℤ} {n : Nat} (h : Started At sk k n) :
    (fuel ≤ (σ c.startTime - k).toNat ∧ sk.process fuel c = .error .hang) ∨
    ∃ sk', sk.process fuel c = .ok sk' ∧
      Started At sk' (max k (σ c.startTime)) (n + (σ c.startTime - k).toNat) := by
  have hpa : Skill.process fuel c sk = (do
      let sk ← Skill.processInternal fuel c sk.trimmed
      return { sk with previous := sk.previous ++ [c] }) := rfl
  have hp := trimmed_ne h.previous h.history
  have h1 : sk.trimmed.sectionLength = lit 400 := by unfold Skill.trimmed; split <;> exact h.len
  have h2 : sk.trimmed.currentSectionEnd = sk.currentSectionEnd := by unfold Skill.trimmed; split <;> rfl
  have h3 : sk.trimmed.strainPeaks = sk.strainPeaks := by unfold Skill.trimmed; split <;> rfl
  have h4 : sk.trimmed.historyLength = sk.historyLength := by unfold Skill.trimmed; split <;> rfl
  have hne : ¬ sk.trimmed.previous.length = 0 := by simpa using hp
  rw [hpa]
  unfold Skill.processInternal
  simp only [hne, if_false]
  rcases sectionLoop g ht fuel sk.trimmed hp h1 (by rw [h2]; exact h.at_end) with
    ⟨e1, e2⟩ | ⟨sk', e1, e2, e3, e4, e5, e6⟩
  · left
    rw [e2]
    exact ⟨e1, rfl⟩
  · right
    obtain ⟨s, r, p, hs⟩ := Skill.addStrain_ok c sk'
    simp only [e1, ok_bind, hs]
    refine ⟨_, rfl, ?_, ?_, ?_, ?_, ?_⟩
    · show sk'.sectionLength = _; rw [e5, h1]
    · show 1 ≤ sk'.historyLength; rw [e6, h4]; exact h.history
    · simp
    · exact e2
    · show sk'.strainPeaks.length = _; rw [e3, h3, h.peaks]

theorem process_first (g : Grid D T σ At) {c : DiffObject S D} (ht : T c.startTime) (fuel : Nat)
    {sk : Skill S D} (hl : sk.sectionLength = lit 400) (hh : 1 ≤ sk.historyLength)
    (hp : sk.previous = []) :
    (fuel = 0 ∧ sk.process fuel c = .error .hang) ∨
    ∃ sk', sk.process fuel c = .ok sk' ∧ Started At sk' (σ c.startTime) sk.strainPeaks.length := by
  have hpa : Skill.process fuel c sk = (do
      let sk ← Skill.processInternal fuel c sk.trimmed
      return { sk with previous := sk.previous ++ [c] }) := rfl
  have htr : sk.trimmed = sk := by
    unfold Skill.trimmed
    rw [if_neg (by rw [hp]; simp)]
  rw [hpa, htr]
  unfold Skill.processInternal
  have h0 : sk.previous.length = 0 := by rw [hp]; rfl
  simp only [h0, if_true]
  cases fuel with
  | zero => exact .inl ⟨rfl, rfl⟩
  | succ fuel =>
    right
    have hs : Skill.sectionLoop c.startTime (fuel + 1) { sk with
        currentSectionEnd := GoFloat.ceil (c.startTime /. sk.sectionLength) *. sk.sectionLength } =
        .ok { sk with
          currentSectionEnd := GoFloat.ceil (c.startTime /. sk.sectionLength) *. sk.sectionLength } := by
      rw [Skill.sectionLoop, hl]
      have := g.lt (g.start ht) ht
      rw [decide_eq_false (lt_irrefl _)] at this
      simp only [this]
      rfl
    rw [hs]
    obtain ⟨s, r, p, hs⟩ := Skill.addStrain_ok c { sk with
        currentSectionEnd := GoFloat.ceil (c.startTime /. sk.sectionLength) *. sk.sectionLength }
    simp only [ok_bind, hs]
    refine ⟨_, rfl, hl, hh, by simp, ?_, rfl⟩
    show At (GoFloat.ceil (c.startTime /. sk.sectionLength) *. sk.sectionLength) _
    rw [hl]
    exact g.start ht

theorem process_error {fuel : Nat} {o : DiffObject S D} {sk : SkillSet S D} (h : Locked sk) {e : Fault}
    (he : sk.aim.process fuel o = .error e) : sk.process fuel o = .error e := by
  rcases process_locked fuel o sk h with ⟨e', e1, e2⟩ | ⟨a, n, s, f, e1, e2, -⟩
  · rw [e2] at he; cases he; exact e1
  · rw [e2] at he; cases he

theorem process_okay {fuel : Nat} {o : DiffObject S D} {sk : SkillSet S D} (h : Locked sk) {a : Skill S D}
    (he : sk.aim.process fuel o = .ok a) : ∃ sk', sk.process fuel o = .ok sk' ∧ sk'.aim = a ∧ Locked sk' := by
  rcases process_locked fuel o sk h with ⟨e', e1, e2⟩ | ⟨a', n, s, f, e1, e2, -, -, e5, -⟩
  · rw [e2] at he; cases he
  · rw [e2] at he; cases he; exact ⟨_, e1, rfl, e5⟩

/-- The last section reached. -/
def lastSection (σ : D → ℤ) (k : ℤ) (ds : List (DiffObject S D)) : ℤ :=
  ds.foldl (fun k d => max k (σ d.startTime)) k

omit [GoFloat S] [GoFloat D] [GoConv S D] [GoLibm D] in
theorem le_lastSection (σ : D → ℤ) (k : ℤ) (ds : List (DiffObject S D)) : k ≤ lastSection σ k ds := by
  induction ds generalizing k with
  | nil => exact le_refl _
  | cons d ds ih => exact le_trans (le_max_left _ _) (ih _)

theorem singleLoop [GoSort] (g : Grid D T σ At) (fuel : Nat) (ds : List (DiffObject S D))
    (objs : List (Obj S D)) (hlen : ds.length ≤ objs.length) (attr : Attributes D) (sk : SkillSet S D)
    (hk : Locked sk) {k : ℤ} {n : Nat} (h : Started At sk.aim k n) (ht : ∀ d ∈ ds, T d.startTime) :
    (fuel ≤ (lastSection σ k ds - k).toNat ∧ GosuPP.singleLoop fuel ds objs attr sk = .error .hang) ∨
    ∃ attr' sk', GosuPP.singleLoop fuel ds objs attr sk = .ok (attr', sk') ∧ Locked sk' ∧
      Started At sk'.aim (lastSection σ k ds) (n + (lastSection σ k ds - k).toNat) := by
  induction ds generalizing objs attr sk k n with
  | nil =>
    refine .inr ⟨attr, sk, rfl, hk, ?_⟩
    have : (lastSection σ k ([] : List (DiffObject S D)) - k).toNat = 0 := by
      show (k - k).toNat = 0; omega
    rw [this]
    exact h
  | cons d ds ih =>
    cases objs with
    | nil => simp at hlen
    | cons o objs =>
      have h0 : index (o :: objs) 0 = .ok o := rfl
      have hm : (lastSection σ k (d :: ds)) = lastSection σ (max k (σ d.startTime)) ds := rfl
      have hle := le_lastSection σ (max k (σ d.startTime)) ds
      rcases process g (ht d (List.mem_cons_self ..)) fuel h with ⟨e1, e2⟩ | ⟨a, e1, e2⟩
      · left
        refine ⟨by rw [hm]; omega, ?_⟩
        rw [GosuPP.singleLoop, h0, ok_bind, process_error hk e2]; rfl
      · obtain ⟨sk', f1, f2, f3⟩ := process_okay hk e1
        rw [singleLoop_cons_ok h0 f1]
        rcases ih objs (by simpa using hlen) (addObjectToAttribs o attr) sk' f3 (f2 ▸ e2)
            (fun d' hd' => ht d' (List.mem_cons_of_mem _ hd')) with ⟨g1, g2⟩ | ⟨at', sk2, g1, g2, g3⟩
        · exact .inl ⟨by rw [hm]; omega, g2⟩
        · refine .inr ⟨at', sk2, g1, g2, ?_⟩
          rw [hm]
          have : n + (σ d.startTime - k).toNat +
              (lastSection σ (max k (σ d.startTime)) ds - max k (σ d.startTime)).toNat =
              n + (lastSection σ (max k (σ d.startTime)) ds - k).toNat := by omega
          rw [← this]
          exact g3

/-- A whole calculation: it runs out of fuel or gives one peak per section from the first to the
last. -/
theorem single [GoSort] (g : Grid D T σ At) (fuel : Nat) (d : DiffObject S D) (ds : List (DiffObject S D))
    (objs : List (Obj S D)) (hlen : (d :: ds).length ≤ objs.length) (attr : Attributes D)
    (diff : Difficulty D) (ht : ∀ x ∈ d :: ds, T x.startTime) :
    (fuel ≤ (lastSection σ (σ d.startTime) ds - σ d.startTime).toNat ∧
      GosuPP.singleLoop fuel (d :: ds) objs attr (SkillSet.new diff) = .error .hang) ∨
    ∃ attr' sk', GosuPP.singleLoop fuel (d :: ds) objs attr (SkillSet.new diff) = .ok (attr', sk') ∧
      Locked sk' ∧ sk'.aim.getCurrentStrainPeaks.length =
        (lastSection σ (σ d.startTime) ds - σ d.startTime).toNat + 1 := by
  cases objs with
  | nil => simp at hlen
  | cons o objs =>
    have h0 : index (o :: objs) 0 = .ok o := rfl
    have hk := locked_new (S := S) diff
    rcases process_first g (ht d (List.mem_cons_self ..)) fuel (sk := (SkillSet.new (S := S) diff).aim)
        rfl hk.h1 rfl with ⟨e1, e2⟩ | ⟨a, e1, e2⟩
    · left
      refine ⟨by omega, ?_⟩
      rw [GosuPP.singleLoop, h0, ok_bind, process_error hk e2]; rfl
    · obtain ⟨sk', f1, f2, f3⟩ := process_okay hk e1
      rw [singleLoop_cons_ok h0 f1]
      rcases singleLoop g fuel ds objs (by simpa using hlen) (addObjectToAttribs o attr) sk' f3 (f2 ▸ e2)
            (fun d' hd' => ht d' (List.mem_cons_of_mem _ hd')) with ⟨g1, g2⟩ | ⟨at', sk2, g1, g2, g3⟩
      · exact .inl ⟨g1, g2⟩
      · refine .inr ⟨at', sk2, g1, g2, ?_⟩
        unfold Skill.getCurrentStrainPeaks
        rw [List.length_append, g3.peaks, List.length_singleton]
        show 0 + _ + 1 = _
        omega

end Grid
end GosuPP
