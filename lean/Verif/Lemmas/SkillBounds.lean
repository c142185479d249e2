import Verif.Lemmas.SpeedBounds
import Verif.Lemmas.SectionsIEEE


/-! Bounds of the state of a skill. -/

namespace GosuPP
open Go Fl Spec
open GosuPP.Fl (NN0)

/-- Exponents of the bounds of strains per object. -/
def capS : SkillKind → ℕ
  | .aim _ => 79
  | .speed => 14
  | .flashlight => 126

/-- Exponents of the bounds of peaks per object. -/
def capP : SkillKind → ℕ
  | .aim _ => 79
  | .speed => 36
  | .flashlight => 126

theorem capP_le (k : SkillKind) : capP k ≤ 126 := by cases k <;> simp [capP]
theorem capS_le (k : SkillKind) : capS k ≤ 126 := by cases k <;> simp [capS]

/-- Bounds of a skill after `n` objects. -/
structure SkOk (d : Difficulty F64) (n : ℕ) (sk : Skill F32 F64) : Prop where
  fresh : ∃ new ∈ freshSkills d, SameSettings sk new
  objs : ∀ o ∈ sk.previous, ObjOk d o
  chain : sk.previous.IsChain Next
  length : sk.previous.length ≤ 33
  strain : In 0 (n * 2 ^ capS sk.kind) sk.currentStrain
  rhythm : In 0 (2 ^ 22) sk.currentRhythm
  peaks : ∀ x ∈ sk.getCurrentStrainPeaks, In 0 (n * 2 ^ capP sk.kind) x
  sect : (sk.previous = [] ∧ sk.strainPeaks = []) ∨ sk.previous ≠ [] ∧ ∃ k : ℤ, AtEnd sk.currentSectionEnd k ∧ |k| ≤ 2 ^ 43 ∧
    (sk.strainPeaks.length : ℤ) ≤ k + 2 ^ 43 ∧ ∀ o ∈ sk.previous.getLast?, (o.startTime <=. sk.currentSectionEnd) = true

theorem In.nonpos_sub {a b : ℚ} {x y : F64} (hx : In (-a) a x) (hy : In (-b) b y) (h : (y <=. x) = true) {c : ℚ} (hc : Nice c)
    (hab : a + b ≤ c) : In 0 c (x -. y) := by
  obtain ⟨v, z, rfl, v1, v2⟩ := hx
  obtain ⟨w, t, rfl, w1, w2⟩ := hy
  have : w ≤ v := by simpa [fin_le_fin] using h
  exact in_ofRat _ nice_zero hc (by linarith) (by linarith)

theorem AtEnd.in {x : F64} {k : ℤ} (h : AtEnd x k) (hk : |k| ≤ 2 ^ 43) : In (-2 ^ 52) (2 ^ 52) x := by
  obtain ⟨⟨b, rfl⟩, -⟩ := h
  have h1 : |(k : ℚ)| ≤ 2 ^ 43 := by
    have : ((|k| : ℤ) : ℚ) ≤ ((2 ^ 43 : ℤ) : ℚ) := by exact_mod_cast hk
    rw [Int.cast_abs] at this
    exact_mod_cast this
  have := abs_le.mp h1
  exact ⟨_, _, rfl, by linarith, by linarith⟩

theorem fin_multiple {k : ℤ} (h : |k| ≤ 2 ^ 48) (z : Bool) : ∃ b, ofRat fmt64 (400 * k : ℚ) z = fin (400 * k) b := by
  rw [ofRat_of_rep (multiple_rep h) (small_lt (multiple_small h) (by norm_num))]
  exact ⟨_, rfl⟩

theorem AtEnd.next {x : F64} {k : ℤ} (h : AtEnd x k) (hk : |k| ≤ 2 ^ 43) : AtEnd (x +. lit 400) (k + 1) := by
  obtain ⟨⟨b, rfl⟩, -⟩ := h
  have hk' := abs_le.mp hk
  have h1 : |k + 1| ≤ 2 ^ 48 := abs_le.mpr ⟨by omega, by omega⟩
  refine ⟨?_, h1⟩
  rw [lit400, go_add]
  show ∃ c, ofRat fmt64 _ _ = _
  have e : (400 * k + 400 : ℚ) = 400 * ((k + 1 : ℤ) : ℚ) := by push_cast; ring
  rw [e]
  exact fin_multiple h1 _

theorem first_end {t : F64} (h : In (-2 ^ 50) (2 ^ 50) t) :
    ∃ k : ℤ, AtEnd (GoFloat.ceil (t /. lit 400) *. lit 400) k ∧ |k| ≤ 2 ^ 43 - 1 := by
  have n400 : Nice 400 := by exact nice_nat 400 (by norm_num)
  have h1 : In (-2 ^ 42) (2 ^ 42) (t /. lit 400) := In.divS (by simpa using h) (in_lit (q := 400) (a := 400) (b := 400) n400 n400 le_rfl le_rfl)
    (by norm_num) (nice_pow 42 (by norm_num)) (by norm_num)
  obtain ⟨v, z, e, v1, v2⟩ := h1
  rw [e]
  obtain ⟨c, hc⟩ := ceil_fin fmt64 v z
  rw [show GoFloat.ceil (fin v z : F64) = Fl.ceil (fin v z) from rfl, hc]
  have hk : |⌈v⌉| ≤ 2 ^ 42 := by
    rw [abs_le]
    constructor
    · have := Int.le_ceil v
      have : ((-2 ^ 42 : ℤ) : ℚ) ≤ ⌈v⌉ := by push_cast; linarith
      exact_mod_cast this
    · rw [Int.ceil_le]; push_cast; exact v2
  refine ⟨⌈v⌉, ⟨?_, hk.trans (by norm_num)⟩, hk.trans (by norm_num)⟩
  rw [lit400, go_mul]
  show ∃ b, ofRat fmt64 _ _ = _
  rw [show ((⌈v⌉ : ℤ) : ℚ) * 400 = 400 * ((⌈v⌉ : ℤ) : ℚ) by ring]
  exact fin_multiple (hk.trans (by norm_num)) _

theorem getPrevious_zero {sk : Skill F32 F64} {o : DiffObject F32 F64} (h : sk.getPrevious 0 = some o) : o ∈ sk.previous.getLast? := by
  unfold Skill.getPrevious at h
  rw [List.getLast?_eq_head?_reverse, List.head?_eq_getElem?]
  exact h

theorem derefPrevious_some {sk : Skill F32 F64} {i : ℕ} {o : DiffObject F32 F64} (h : sk.derefPrevious i = .ok o) : sk.getPrevious i = some o := by
  unfold Skill.derefPrevious at h
  split at h
  · rename_i e; cases h; exact e
  · cases h

variable [GoLibm F64] (hl : PowLaws) (ht : TrigLaws)

theorem fresh_base {d : Difficulty F64} {sk : Skill F32 F64} (h : ∃ new ∈ freshSkills d, SameSettings sk new) :
    In 0 1 sk.strainDecayBase ∧ sk.sectionLength = lit 400 ∧ (1 ≤ sk.historyLength ∧ sk.historyLength ≤ 32) ∧ sk.diff = d := by
  obtain ⟨new, hn, hs⟩ := h
  rw [hs.strainDecayBase, hs.sectionLength, hs.historyLength, hs.diff]
  unfold freshSkills at hn
  simp only [List.mem_cons, List.not_mem_nil, or_false] at hn
  rcases hn with rfl | rfl | rfl | rfl
  · exact ⟨lit_unit (q := 0.15) (by norm_num) (by norm_num), rfl, by simp [Skill.newAim, Skill.newSpeed, Skill.newFlashlight, Skill.new], rfl⟩
  · exact ⟨lit_unit (q := 0.15) (by norm_num) (by norm_num), rfl, by simp [Skill.newAim, Skill.newSpeed, Skill.newFlashlight, Skill.new], rfl⟩
  · exact ⟨lit_unit (q := 0.3) (by norm_num) (by norm_num), rfl, by simp [Skill.newAim, Skill.newSpeed, Skill.newFlashlight, Skill.new], rfl⟩
  · exact ⟨lit_unit (q := 0.15) (by norm_num) (by norm_num), rfl, by simp [Skill.newAim, Skill.newSpeed, Skill.newFlashlight, Skill.new], rfl⟩

theorem fresh_mult {d : Difficulty F64} {sk : Skill F32 F64} (h : ∃ new ∈ freshSkills d, SameSettings sk new) :
    match sk.kind with
    | .aim _ => In 0 32 sk.skillMultiplier
    | .speed => In 0 2048 sk.skillMultiplier
    | .flashlight => In 0 1 sk.skillMultiplier := by
  obtain ⟨new, hn, hs⟩ := h
  rw [hs.kind, hs.skillMultiplier]
  unfold freshSkills at hn
  simp only [List.mem_cons, List.not_mem_nil, or_false] at hn
  rcases hn with rfl | rfl | rfl | rfl
  · exact in_lit (q := 23.25) nice_zero (by exact nice_nat 32 (by norm_num)) (by norm_num) (by norm_num)
  · exact in_lit (q := 23.25) nice_zero (by exact nice_nat 32 (by norm_num)) (by norm_num) (by norm_num)
  · exact in_lit (q := 1375) nice_zero (by exact nice_nat 2048 (by norm_num)) (by norm_num) (by norm_num)
  · exact in_lit (q := 0.15) nice_zero nice_one (by norm_num) (by norm_num)

section
include hl

theorem decay_in {sk : Skill F32 F64} {t : F64} {b : ℚ} (h : In 0 1 sk.strainDecayBase) (ht : In 0 b t) (hb : b ≤ 2 ^ 60) :
    In 0 1 (sk.strainDecay t) := by
  have n1000 : Nice 1000 := by exact nice_nat 1000 (by norm_num)
  exact pow_unit hl h ((ht.mono le_rfl hb).div (in_lit (q := 1000) (a := 1000) (b := 1000) n1000 n1000 le_rfl le_rfl) le_rfl (by norm_num)
    (b' := 2 ^ 60) (nice_pow 60 (by norm_num)) (by norm_num))

/-- The strain at the beginning of a section. -/
theorem initial_in {d : Difficulty F64} {n : ℕ} (hn : n ≤ 2 ^ 53) {sk : Skill F32 F64} (hf : ∃ new ∈ freshSkills d, SameSettings sk new)
    (ho : ∀ o ∈ sk.previous, ObjOk d o) (hst : In 0 (n * 2 ^ capS sk.kind) sk.currentStrain) (hr : In 0 (2 ^ 22) sk.currentRhythm)
    {k : ℤ} (he : AtEnd sk.currentSectionEnd k) (hk : |k| ≤ 2 ^ 43)
    (hlast : ∀ o ∈ sk.previous.getLast?, (o.startTime <=. sk.currentSectionEnd) = true) {v : F64}
    (h : sk.calculateInitialStrain sk.currentSectionEnd = .ok v) : In 0 (n * 2 ^ capP sk.kind) v := by
  unfold Skill.calculateInitialStrain at h
  obtain ⟨p, hp, h⟩ := bind_ok h
  have hp' := derefPrevious_some hp
  have hps := (ho p (getPrevious_mem hp')).start
  have hsub : In 0 (2 ^ 53) (sk.currentSectionEnd -. p.startTime) :=
    In.nonpos_sub (a := 2 ^ 52) (b := 2 ^ 50) (by simpa using he.in hk) (by simpa using hps) (hlast p (getPrevious_zero hp'))
      (nice_pow 53 (by norm_num)) (by norm_num)
  have hdec := decay_in hl (fresh_base hf).1 hsub (by norm_num)
  cases hkd : sk.kind with
  | aim ws =>
    simp only [hkd] at h hst
    cases h
    exact hst.mul hdec le_rfl le_rfl nice_zero (nice_mul hn ((capP_le _).trans (by norm_num))) (by norm_num) (by rw [mul_one]; rfl)
  | speed =>
    simp only [hkd] at h hst
    cases h
    have b1 := hst.mul hr le_rfl le_rfl (a' := 0) (b' := n * 2 ^ 36) nice_zero (nice_mul hn (by decide)) (by norm_num)
      (le_of_eq (by simp only [capS]; ring))
    exact b1.mul hdec le_rfl le_rfl nice_zero (nice_mul hn ((capP_le _).trans (by norm_num))) (by norm_num) (by rw [mul_one]; rfl)
  | flashlight =>
    simp only [hkd] at h hst
    cases h
    exact hst.mul hdec le_rfl le_rfl nice_zero (nice_mul hn ((capP_le _).trans (by norm_num))) (by norm_num) (by rw [mul_one]; rfl)

theorem sectionLoop_ok {d : Difficulty F64} {n : ℕ} (hn : n ≤ 2 ^ 53) {t : F64} (htt : In (-2 ^ 50) (2 ^ 50) t) (fuel : ℕ)
    {sk sk' : Skill F32 F64} (hf : ∃ new ∈ freshSkills d, SameSettings sk new) (ho : ∀ o ∈ sk.previous, ObjOk d o)
    (hst : In 0 (n * 2 ^ capS sk.kind) sk.currentStrain) (hr : In 0 (2 ^ 22) sk.currentRhythm)
    (hpk : ∀ x ∈ sk.getCurrentStrainPeaks, In 0 (n * 2 ^ capP sk.kind) x) {k : ℤ} (he : AtEnd sk.currentSectionEnd k)
    (hk : |k| ≤ 2 ^ 43) (hlen : (sk.strainPeaks.length : ℤ) ≤ k + 2 ^ 43)
    (hlast : ∀ o ∈ sk.previous.getLast?, (o.startTime <=. sk.currentSectionEnd) = true)
    (h : Skill.sectionLoop t fuel sk = .ok sk') :
    SameSettings sk sk' ∧ sk'.previous = sk.previous ∧ sk'.currentStrain = sk.currentStrain ∧ sk'.currentRhythm = sk.currentRhythm ∧
    (∀ x ∈ sk'.getCurrentStrainPeaks, In 0 (n * 2 ^ capP sk.kind) x) ∧
    ∃ k' : ℤ, AtEnd sk'.currentSectionEnd k' ∧ |k'| ≤ 2 ^ 43 ∧ (sk'.strainPeaks.length : ℤ) ≤ k' + 2 ^ 43 ∧
      (t <=. sk'.currentSectionEnd) = true := by
  induction fuel generalizing sk k with
  | zero => cases h
  | succ fuel ih =>
    unfold Skill.sectionLoop at h
    split at h
    · rename_i hgt
      obtain ⟨peak, hp, h⟩ := bind_ok h
      have hpeak := initial_in hl hn hf ho hst hr he hk hlast hp
      have hlt : k < 2 ^ 42 := by
        obtain ⟨⟨b, e⟩, -⟩ := he
        obtain ⟨v, z, rfl, v1, v2⟩ := htt
        rw [e] at hgt
        have h1 : (400 * k : ℚ) < v := by simpa [go_lt, Fl.lt] using hgt
        have : (k : ℚ) < 2 ^ 42 := by linarith
        exact_mod_cast this
      have hk' := abs_le.mp hk
      have hsl := (fresh_base hf).2.1
      obtain ⟨g1, g2, g3, g4, g5, k', g6, g7, g8, g9⟩ := ih (k := k + 1) (sk := { sk with
          strainPeaks := sk.strainPeaks ++ [sk.currentSectionPeak]
          currentSectionPeak := peak
          currentSectionEnd := sk.currentSectionEnd +. sk.sectionLength })
        (by obtain ⟨new, h1, h2⟩ := hf; exact ⟨new, h1, ⟨h2.1, h2.2, h2.3, h2.4, h2.5, h2.6, h2.7, h2.8, h2.9, h2.10⟩⟩)
        ho hst hr
        (by
          intro x hx
          simp only [Skill.getCurrentStrainPeaks, List.mem_append, List.mem_singleton] at hx hpk
          rcases hx with hx | rfl
          · exact hpk x hx
          · exact hpeak)
        (by show AtEnd (sk.currentSectionEnd +. sk.sectionLength) (k + 1); rw [hsl]; exact he.next hk)
        (abs_le.mpr ⟨by omega, by omega⟩) (by simp only [List.length_append, List.length_singleton]; push_cast; omega)
        (by
          intro o hoo
          show (o.startTime <=. (sk.currentSectionEnd +. sk.sectionLength)) = true
          rw [hsl]
          have h1 := hlast o hoo
          obtain ⟨v, z, e, v1, v2⟩ := (ho o (List.mem_of_mem_getLast? hoo)).start
          rw [e] at h1 ⊢
          obtain ⟨⟨b2, e2⟩, -⟩ := he.next hk
          obtain ⟨⟨b, eb⟩, -⟩ := he
          rw [e2]
          rw [eb] at h1
          rw [fin_le_fin] at h1 ⊢
          push_cast
          linarith) h
      exact ⟨⟨g1.1, g1.2, g1.3, g1.4, g1.5, g1.6, g1.7, g1.8, g1.9, g1.10⟩, g2, g3, g4, g5, k', g6, g7, g8, g9⟩
    · rename_i hgt
      cases h
      refine ⟨SameSettings.refl _, rfl, rfl, rfl, hpk, k, he, hk, hlen, ?_⟩
      obtain ⟨⟨b, e⟩, -⟩ := he
      obtain ⟨v, z, rfl, v1, v2⟩ := htt
      rw [e] at hgt ⊢
      rw [fin_le_fin]
      simpa [go_lt, Fl.lt] using hgt

end

section
include hl ht

/-- Strain values times multiplier. -/
theorem value_in {d : Difficulty F64} (hrd : In 1 1024 d.circleRadius) (hg : GwOk (d.hit300 /. d.speed)) {sk : Skill F32 F64}
    {c : DiffObject F32 F64} (hf : ∃ new ∈ freshSkills d, SameSettings sk new) (ho : ∀ o ∈ sk.previous, ObjOk d o)
    (hch : sk.previous.IsChain Next) (hlen : sk.previous.length ≤ 33) (hc : ObjOk d c)
    (hnext : ∀ o ∈ sk.previous.getLast?, Next o c) {v : F64} (h : sk.strainValueOf c = .ok v) :
    In 0 (2 ^ capS sk.kind) (v *. sk.skillMultiplier) := by
  have hm := fresh_mult hf
  have hd := (fresh_base hf).2.2.2
  unfold Skill.strainValueOf at h
  cases hk : sk.kind with
  | aim ws =>
    simp only [hk] at h hm
    have hv : In 0 (2 ^ 74) v := by
      unfold Aim.strainValue at h
      split at h
      · rw [← Except.ok.inj h]; exact in_zero.mono le_rfl (by norm_num)
      · rename_i hcond
        simp only [Bool.or_eq_true, decide_eq_true_eq, not_or, Bool.not_eq_true] at hcond
        obtain ⟨last, h1, h⟩ := bind_ok h
        split at h
        · rw [← Except.ok.inj h]; exact in_zero.mono le_rfl (by norm_num)
        · rename_i hsp
          obtain ⟨ll, h2, h⟩ := bind_ok h
          rw [← Except.ok.inj h]
          have h1' := derefPrevious_some h1
          have h2' := derefPrevious_some h2
          refine aimStrain_in hl ht hc (ho _ (getPrevious_mem h1')) (hnext _ (getPrevious_zero h1')) ?_ hcond.1 (by simpa using hsp)
          unfold Skill.getPrevious at h1' h2'
          have hlt : 1 < sk.previous.reverse.length := by
            by_contra hge
            rw [List.getElem?_eq_none (by omega)] at h2'
            cases h2'
          have hrev := List.isChain_reverse.mpr (by simpa [flip] using hch : sk.previous.IsChain (flip (flip Next)))
          have := List.isChain_iff_getElem.mp hrev 0 (by omega)
          rw [(List.getElem?_eq_some_iff.mp h1').2, (List.getElem?_eq_some_iff.mp h2').2] at this
          exact this
    exact hv.mul hm le_rfl le_rfl nice_zero (nice_pow 79 (by norm_num)) (by norm_num) (by norm_num [capS])
  | speed =>
    simp only [hk] at h hm
    cases h
    exact (speedValue_in hl ho hc (by rw [hd]; exact hg)).mul hm le_rfl le_rfl nice_zero (nice_pow 14 (by norm_num)) (by norm_num) (by norm_num [capS])
  | flashlight =>
    simp only [hk] at h hm
    cases h
    exact (flValue_in hl hrd hd ho hc (by omega)).mul hm le_rfl le_rfl nice_zero (nice_pow 126 (by norm_num)) (by norm_num) (by norm_num [capS])

theorem addStrain_by {d : Difficulty F64} (hrd : In 1 1024 d.circleRadius) (hg : GwOk (d.hit300 /. d.speed)) {n j : ℕ} (hn : n + j ≤ 2 ^ 53)
    {sk sk' : Skill F32 F64} {c : DiffObject F32 F64} (hf : ∃ new ∈ freshSkills d, SameSettings sk new) (ho : ∀ o ∈ sk.previous, ObjOk d o)
    (hlen : sk.previous.length ≤ 33) (hc : ObjOk d c)
    (hst : In 0 (n * 2 ^ capS sk.kind) sk.currentStrain)
    (hr : In 0 (2 ^ 22) sk.currentRhythm) (hpk : ∀ x ∈ sk.getCurrentStrainPeaks, In 0 (n * 2 ^ capP sk.kind) x)
    (hval : ∀ s : Skill F32 F64, SameSettings s sk → s.previous = sk.previous → ∀ v, s.strainValueOf c = .ok v →
      In 0 (j * 2 ^ capS sk.kind) (v *. sk.skillMultiplier))
    (h : sk.addStrain c = .ok sk') :
    In 0 ((n + j : ℕ) * 2 ^ capS sk.kind) sk'.currentStrain ∧ In 0 (2 ^ 22) sk'.currentRhythm ∧
    ∀ x ∈ sk'.getCurrentStrainPeaks, In 0 ((n + j : ℕ) * 2 ^ capP sk.kind) x := by
  obtain ⟨h1, h2, h3, h4, v, hv, e, h5⟩ := Skill.addStrain_spec h
  have hdec := decay_in hl (fresh_base hf).1 hc.delta (by norm_num)
  have hd := (fresh_base hf).2.2.2
  have hval := hval _ ⟨rfl, rfl, rfl, rfl, rfl, rfl, rfl, rfl, rfl, rfl⟩ rfl v hv
  have hs' : In 0 ((n + j : ℕ) * 2 ^ capS sk.kind) sk'.currentStrain := by
    rw [e]
    have := capS_le sk.kind
    have b1 := hst.mul hdec le_rfl le_rfl (a' := 0) (b' := n * 2 ^ capS sk.kind) nice_zero (nice_mul (by omega) (by omega)) (by norm_num) (by rw [mul_one])
    exact b1.add hval nice_zero (nice_mul (by omega) (by omega)) (by norm_num) (by push_cast; linarith)
  have hold : ∀ x ∈ sk.getCurrentStrainPeaks, In 0 ((n + j : ℕ) * 2 ^ capP sk.kind) x := by
    intro x hx
    refine (hpk x hx).mono le_rfl ?_
    exact mul_le_mul_of_nonneg_right (by push_cast; linarith [Nat.cast_nonneg (α := ℚ) j]) (by positivity)
  have hpks : ∀ y : F64, In 0 ((n + j : ℕ) * 2 ^ capP sk.kind) y → sk'.currentSectionPeak = fmax y sk.currentSectionPeak →
      ∀ x ∈ sk'.getCurrentStrainPeaks, In 0 ((n + j : ℕ) * 2 ^ capP sk.kind) x := by
    intro y hy ey x hx
    simp only [Skill.getCurrentStrainPeaks, List.mem_append, List.mem_singleton] at hx hold
    rw [h3, ey] at hx
    rcases hx with hx | rfl
    · exact hold x (.inl hx)
    · exact (hy.fmax (hold _ (.inr rfl))).mono (by simp) (by simp)
  rcases h5 with ⟨hk, ⟨s, q1, q2, q3⟩, e2⟩ | ⟨hk, e1, e2⟩
  · have hrh := rhythm_in hl ht (by rw [q2, hd]; exact hg) (by rw [q1]; exact ho) hc (by rw [q1]; omega) q3
    refine ⟨hs', hrh, hpks _ ?_ e2⟩
    refine hs'.mul hrh le_rfl le_rfl nice_zero (nice_mul (by omega) (by have := capP_le sk.kind; omega)) (by norm_num) (le_of_eq ?_)
    rw [hk]
    simp only [capS, capP]
    ring
  · refine ⟨hs', by rw [e1]; exact hr, hpks _ ?_ e2⟩
    have : capP sk.kind = capS sk.kind := by
      cases hkd : sk.kind <;> first | rfl | exact absurd hkd hk
    rw [this]
    exact hs'

theorem process_by {d : Difficulty F64} (hrd : In 1 1024 d.circleRadius) (hg : GwOk (d.hit300 /. d.speed)) {n j fuel : ℕ} (hn : n + j ≤ 2 ^ 53)
    {sk sk' : Skill F32 F64} {c : DiffObject F32 F64} (hs : SkOk d n sk) (hc : ObjOk d c) (hnext : ∀ o ∈ sk.previous.getLast?, Next o c)
    (hval : ∀ s : Skill F32 F64, (∃ new ∈ freshSkills d, SameSettings s new) → s.kind = sk.kind → s.previous <:+ sk.previous →
      s.previous.length ≤ 33 → ∀ v, s.strainValueOf c = .ok v → In 0 (j * 2 ^ capS s.kind) (v *. s.skillMultiplier))
    (h : sk.process fuel c = .ok sk') : SkOk d (n + j) sk' ∧ sk'.previous.getLast? = some c ∧ sk'.kind = sk.kind ∧
      ∀ o ∈ sk'.previous, o ∈ sk.previous ∨ o = c := by
  have hset := Skill.process_settings h
  have hfb := fresh_base hs.fresh
  unfold Skill.process Skill.processInternal at h
  simp only at h
  obtain ⟨s2, h, hd⟩ := bind_ok h
  obtain ⟨s1, h1, h2⟩ := bind_ok h
  cases hd
  -- the truncated history
  obtain ⟨s, hsdef, t1, t2, t3, t4, t5, t6, t7, t8⟩ : ∃ s : Skill F32 F64, s = (if sk.previous.length > sk.historyLength then
      { sk with previous := sk.previous.drop (sk.previous.length - sk.historyLength) } else sk) ∧ SameSettings s sk ∧
      s.previous <:+ sk.previous ∧ s.previous.length ≤ 32 ∧ s.currentStrain = sk.currentStrain ∧ s.currentRhythm = sk.currentRhythm ∧
      s.getCurrentStrainPeaks = sk.getCurrentStrainPeaks ∧ s.strainPeaks = sk.strainPeaks ∧ s.currentSectionEnd = sk.currentSectionEnd := by
    refine ⟨_, rfl, ?_⟩
    split
    · rename_i hgt
      exact ⟨⟨rfl, rfl, rfl, rfl, rfl, rfl, rfl, rfl, rfl, rfl⟩, List.drop_suffix _ _, by simp only [List.length_drop]; omega,
        rfl, rfl, rfl, rfl, rfl⟩
    · exact ⟨SameSettings.refl _, List.suffix_refl _, by omega, rfl, rfl, rfl, rfl, rfl⟩
  rw [← hsdef] at h1
  have hlastS : ∀ o ∈ s.previous.getLast?, o ∈ sk.previous.getLast? := by
    intro o ho
    obtain ⟨pre, hpre⟩ := t2
    rw [← hpre]
    cases hp : s.previous with
    | nil => rw [hp] at ho; cases ho
    | cons a b => rw [List.getLast?_append_of_ne_nil _ (by simp), ← hp]; exact ho
  have hfS : ∃ new ∈ freshSkills d, SameSettings s new := by
    obtain ⟨new, q1, q2⟩ := hs.fresh
    exact ⟨new, q1, t1.trans q2⟩
  have hoS : ∀ o ∈ s.previous, ObjOk d o := fun o ho => hs.objs o (t2.subset ho)
  have hchS : s.previous.IsChain Next := hs.chain.suffix t2
  -- after the sections
  have key : SameSettings s s1 ∧ s1.previous = s.previous ∧ s1.currentStrain = s.currentStrain ∧ s1.currentRhythm = s.currentRhythm ∧
      (∀ x ∈ s1.getCurrentStrainPeaks, In 0 (n * 2 ^ capP s.kind) x) ∧
      ∃ k' : ℤ, AtEnd s1.currentSectionEnd k' ∧ |k'| ≤ 2 ^ 43 ∧ (s1.strainPeaks.length : ℤ) ≤ k' + 2 ^ 43 ∧
        (c.startTime <=. s1.currentSectionEnd) = true := by
    have hstS : In 0 (n * 2 ^ capS s.kind) s.currentStrain := by rw [t4, t1.kind]; exact hs.strain
    have hrS : In 0 (2 ^ 22) s.currentRhythm := by rw [t5]; exact hs.rhythm
    have hpkS : ∀ x ∈ s.getCurrentStrainPeaks, In 0 (n * 2 ^ capP s.kind) x := by rw [t6, t1.kind]; exact hs.peaks
    have first : ∀ {e : F64} {k : ℤ}, AtEnd e k → |k| ≤ 2 ^ 43 → s.strainPeaks.length ≤ k + 2 ^ 43 →
        (∀ o ∈ s.previous.getLast?, (o.startTime <=. e) = true) →
        Skill.sectionLoop c.startTime fuel { s with currentSectionEnd := e } = .ok s1 →
        SameSettings { s with currentSectionEnd := e } s1 ∧ s1.previous = s.previous ∧ s1.currentStrain = s.currentStrain ∧
        s1.currentRhythm = s.currentRhythm ∧ (∀ x ∈ s1.getCurrentStrainPeaks, In 0 (n * 2 ^ capP s.kind) x) ∧
        ∃ k' : ℤ, AtEnd s1.currentSectionEnd k' ∧ |k'| ≤ 2 ^ 43 ∧ (s1.strainPeaks.length : ℤ) ≤ k' + 2 ^ 43 ∧
          (c.startTime <=. s1.currentSectionEnd) = true := by
      intro e k he hk hlen hlast hloop
      exact sectionLoop_ok (sk := { s with currentSectionEnd := e }) hl (by omega : n ≤ 2 ^ 53) hc.start fuel
        (by obtain ⟨new, q1, q2⟩ := hfS; exact ⟨new, q1, ⟨q2.1, q2.2, q2.3, q2.4, q2.5, q2.6, q2.7, q2.8, q2.9, q2.10⟩⟩)
        hoS hstS hrS hpkS he hk hlen hlast hloop
    have wrap : ∀ {e : F64}, SameSettings { s with currentSectionEnd := e } s1 → SameSettings s s1 := by
      intro e g1
      exact ⟨g1.1, g1.2, g1.3, g1.4, g1.5, g1.6, g1.7, g1.8, g1.9, g1.10⟩
    split at h1
    · rename_i hlen0
      have hnil : s.previous = [] := List.length_eq_zero_iff.mp hlen0
      obtain ⟨k, hk1, hk2⟩ := first_end hc.start
      have hsl : s.sectionLength = lit 400 := by rw [t1.sectionLength]; exact hfb.2.1
      rw [← hsl] at hk1
      have hk3 := abs_le.mp hk2
      have hpe : s.strainPeaks.length ≤ k + 2 ^ 43 := by
        rcases hs.sect with ⟨-, e⟩ | ⟨hne, -⟩
        · rw [t7, e]; simp only [List.length_nil]; push_cast; omega
        · exfalso
          rw [hsdef] at hnil
          split at hnil
          · have := congrArg List.length hnil
            simp only [List.length_drop, List.length_nil] at this
            have := hfb.2.2.1.1
            omega
          · exact hne hnil
      obtain ⟨g1, g2⟩ := first hk1 (hk2.trans (by norm_num)) hpe (by rw [hnil]; intro o ho; cases ho) h1
      exact ⟨wrap g1, g2⟩
    · rename_i hlen0
      rcases hs.sect with ⟨e, -⟩ | ⟨-, k, g1, g2, g3, g4⟩
      · exfalso
        apply hlen0
        rw [e] at t2
        rw [List.suffix_nil.mp t2]
        rfl
      · obtain ⟨f1, f2⟩ := first (e := s.currentSectionEnd) (k := k) (by rw [t8]; exact g1) g2 (by rw [t7]; exact g3)
          (by intro o ho; rw [t8]; exact g4 o (hlastS o ho)) h1
        exact ⟨wrap f1, f2⟩
  obtain ⟨k1, k2, k3, k4, k5, k', k6, k7, k8, k9⟩ := key
  have hf1 : ∃ new ∈ freshSkills d, SameSettings s1 new := by
    obtain ⟨new, q1, q2⟩ := hfS
    refine ⟨new, q1, SameSettings.trans ?_ q2⟩
    exact ⟨k1.1.symm, k1.2.symm, k1.3.symm, k1.4.symm, k1.5.symm, k1.6.symm, k1.7.symm, k1.8.symm, k1.9.symm, k1.10.symm⟩
  obtain ⟨a1, a2, a3⟩ := addStrain_by hl ht hrd hg hn hf1 (by rw [k2]; exact hoS) (by rw [k2]; omega) hc
    (by rw [k3, t4, ← k1.kind, t1.kind]; exact hs.strain) (by rw [k4, t5]; exact hs.rhythm) (by rw [← k1.kind]; exact k5)
    (by
      intro q q1 q2 v hv
      have := hval q (by obtain ⟨new, w1, w2⟩ := hf1; exact ⟨new, w1, q1.trans w2⟩) (by rw [q1.kind, ← k1.kind, t1.kind])
        (by rw [q2, k2]; exact t2) (by rw [q2, k2]; omega) v hv
      rw [q1.kind, q1.skillMultiplier] at this
      exact this) h2
  obtain ⟨b1, b2, b3, b4, -⟩ := Skill.addStrain_spec h2
  have ek : s2.kind = s1.kind := b1.kind.symm
  have ek2 : s2.kind = sk.kind := ek.trans (k1.kind.symm.trans t1.kind)
  refine ⟨⟨?_, ?_, ?_, ?_, ?_, a2, ?_, ?_⟩, by simp, ek2, ?_⟩
  · obtain ⟨new, q1, q2⟩ := hf1
    exact ⟨new, q1, ⟨b1.1.symm.trans q2.1, b1.2.symm.trans q2.2, b1.3.symm.trans q2.3, b1.4.symm.trans q2.4, b1.5.symm.trans q2.5,
      b1.6.symm.trans q2.6, b1.7.symm.trans q2.7, b1.8.symm.trans q2.8, b1.9.symm.trans q2.9, b1.10.symm.trans q2.10⟩⟩
  · intro o ho
    simp only [List.mem_append, List.mem_singleton] at ho
    rcases ho with ho | rfl
    · rw [b2, k2] at ho; exact hoS o ho
    · exact hc
  · show (s2.previous ++ [c]).IsChain Next
    rw [List.isChain_append]
    refine ⟨by rw [b2, k2]; exact hchS, by simp, ?_⟩
    intro x hx y hy
    simp only [List.head?_cons, Option.mem_some_iff] at hy
    subst hy
    rw [b2, k2] at hx
    exact hnext x (hlastS x hx)
  · show (s2.previous ++ [c]).length ≤ 33
    rw [b2, k2, List.length_append, List.length_singleton]
    omega
  · show In 0 _ s2.currentStrain
    rw [show ({ s2 with previous := s2.previous ++ [c] } : Skill F32 F64).kind = s1.kind from ek]
    exact a1
  · rw [show ({ s2 with previous := s2.previous ++ [c] } : Skill F32 F64).kind = s1.kind from ek]
    exact a3
  · right
    refine ⟨by simp, k', by rw [← b4] at k6; exact k6, k7, by show (s2.strainPeaks.length : ℤ) ≤ _; rw [b3]; exact k8, ?_⟩
    intro o ho
    simp only [List.getLast?_append, List.getLast?_singleton, Option.some_or, Option.mem_some_iff] at ho
    subst ho
    show (c.startTime <=. s2.currentSectionEnd) = true
    rw [b4]
    exact k9
  · intro o ho
    simp only [List.mem_append, List.mem_singleton] at ho
    rw [b2, k2] at ho
    exact ho.imp (fun h => t2.subset h) id

/-- One object more. -/
theorem process_ok {d : Difficulty F64} (hrd : In 1 1024 d.circleRadius) (hg : GwOk (d.hit300 /. d.speed)) {n fuel : ℕ} (hn : n < 2 ^ 53)
    {sk sk' : Skill F32 F64} {c : DiffObject F32 F64} (hs : SkOk d n sk) (hc : ObjOk d c) (hnext : ∀ o ∈ sk.previous.getLast?, Next o c)
    (h : sk.process fuel c = .ok sk') : SkOk d (n + 1) sk' ∧ sk'.previous.getLast? = some c ∧ sk'.kind = sk.kind := by
  refine (fun q => ⟨q.1, q.2.1, q.2.2.1⟩) (process_by hl ht hrd hg (by omega) hs hc hnext ?_ h)
  intro s hf _ hsuf hlen v hv
  rw [Nat.cast_one, one_mul]
  refine value_in hl ht hrd hg hf (fun o ho => hs.objs o (hsuf.subset ho)) (hs.chain.suffix hsuf) hlen hc ?_ hv
  intro o ho
  refine hnext o ?_
  obtain ⟨pre, hpre⟩ := hsuf
  rw [← hpre]
  cases hp : s.previous with
  | nil => rw [hp] at ho; cases ho
  | cons a b => rw [List.getLast?_append_of_ne_nil _ (by simp), ← hp]; exact ho

end

end GosuPP
