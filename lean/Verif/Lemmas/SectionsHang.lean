import Verif.Lemmas.SectionsIEEE
import Verif.Lemmas.DiffObjects

/-! Calculations on times for which `float64` does not compute sections exactly. -/

namespace GosuPP
open Go Fl

/-- Below `2 ^ 62` the end of a section stays below: adding 400 to `2 ^ 62` gives `2 ^ 62`. -/
def Stuck (x : F64) : Prop := ∃ v b, x = fin v b ∧ v ≤ 2 ^ 62 ∧ -2 ^ 62 ≤ v

theorem rnd_stuck : rnd fmt64 (2 ^ 62 + 400) = 2 ^ 62 := by decide +kernel

theorem Stuck.add {x : F64} (h : Stuck x) : Stuck (x +. lit 400) := by
  obtain ⟨v, b, rfl, h1, h2⟩ := h
  have h3 : rnd fmt64 (v + 400) ≤ 2 ^ 62 := by
    have := rnd_mono (f := fmt64) (add_le_add_left h1 400)
    rwa [rnd_stuck] at this
  have h4 : -2 ^ 62 ≤ rnd fmt64 (v + 400) := by
    have hr : Rep fmt64 (-2 ^ 62 : ℚ) := by
      have := (rep_pow2 (f := fmt64) (e := 62) (by decide)).neg
      have e : -pow2 62 = (-2 ^ 62 : ℚ) := by rw [pow2_eq]; norm_num
      rwa [e] at this
    exact le_rnd hr (by linarith)
  have h5 : |rnd fmt64 (v + 400)| < pow2 fmt64.emax := by
    refine small_lt (e := 62) ?_ (by decide)
    have e : pow2 62 = (2 ^ 62 : ℚ) := by rw [pow2_eq]; norm_num
    rw [e]
    exact abs_le.mpr ⟨by linarith, h3⟩
  suffices hs : ∃ c, (fin v b : F64) +. lit 400 = fin (rnd fmt64 (v + 400)) c by
    obtain ⟨c, hc⟩ := hs
    exact ⟨_, c, hc, h3, h4⟩
  rw [lit400, go_add]
  unfold Fl.add ofRat
  simp only
  rw [if_neg (not_le.mpr h5)]
  exact ⟨_, rfl⟩

/-- The library of the sample and any other: a section loop towards a time beyond `2 ^ 62` does not
end. -/
theorem sectionLoop_stuck [GoLibm F64] {S : Type} {t : F64} (ht : Fl.lt (fin (2 ^ 62) false) t = true)
    (fuel : Nat) (sk : Skill S F64) (hp : sk.previous ≠ []) (hl : sk.sectionLength = lit 400)
    (hk : Stuck sk.currentSectionEnd) : Skill.sectionLoop t fuel sk = .error .hang := by
  induction fuel generalizing sk with
  | zero => rfl
  | succ fuel ih =>
    rw [Skill.sectionLoop]
    have hlt : (sk.currentSectionEnd <. t) = true := by
      obtain ⟨v, b, h0, h1, -⟩ := hk
      rw [h0, go_lt]
      refine Fl.lt_of_le_of_lt ?_ ht
      exact decide_eq_true h1
    rw [if_pos hlt]
    have hc := sk.calculateInitialStrain_cases sk.currentSectionEnd
    rw [if_neg hp] at hc
    obtain ⟨v, hv⟩ := hc
    simp only [hv, ok_bind]
    refine ih _ hp hl ?_
    show Stuck (_ +. sk.sectionLength)
    rw [hl]
    exact hk.add

theorem AtEnd.stuck {x : F64} {k : ℤ} (h : AtEnd x k) : Stuck x := by
  obtain ⟨⟨b, rfl⟩, hk⟩ := h
  have h1 := multiple_small hk
  have e : pow2 57 = (2 ^ 57 : ℚ) := by rw [pow2_eq]; norm_num
  rw [e] at h1
  have := abs_le.mp h1
  refine ⟨_, b, rfl, ?_, ?_⟩
  · refine this.2.trans ?_; norm_num
  · refine le_trans ?_ this.1; norm_num

section
variable [GoLibm F64]

theorem process_stuck {c : DiffObject F32 F64} (ht : Fl.lt (fin (2 ^ 62) false) c.startTime = true)
    (fuel : Nat) {sk : Skill F32 F64} {k : ℤ} {n : Nat} (h : Grid.Started AtEnd sk k n) :
    sk.process fuel c = .error .hang := by
  have hpa : Skill.process fuel c sk = (do
      let sk ← Skill.processInternal fuel c sk.trimmed
      return { sk with previous := sk.previous ++ [c] }) := rfl
  have hp := Grid.trimmed_ne h.previous h.history
  have h1 : sk.trimmed.sectionLength = lit 400 := by unfold Skill.trimmed; split <;> exact h.len
  have h2 : sk.trimmed.currentSectionEnd = sk.currentSectionEnd := by unfold Skill.trimmed; split <;> rfl
  have hne : ¬ sk.trimmed.previous.length = 0 := by simpa using hp
  rw [hpa]
  unfold Skill.processInternal
  simp only [hne, if_false]
  rw [sectionLoop_stuck ht fuel sk.trimmed hp h1 (by rw [h2]; exact h.at_end.stuck)]
  rfl

/-- The remaining objects begin with ordinary ones, then comes one beyond `2 ^ 62`. -/
theorem singleLoop_stuck [GoSort] (fuel : Nat) (ds : List (DiffObject F32 F64)) (c : DiffObject F32 F64)
    (es : List (DiffObject F32 F64)) (objs : List (Obj F32 F64))
    (hlen : (ds ++ c :: es).length ≤ objs.length) (attr : Attributes F64) (sk : SkillSet F32 F64)
    (hk : Locked sk) {k : ℤ} {n : Nat} (h : Grid.Started AtEnd sk.aim k n)
    (ht : ∀ d ∈ ds, Moderate d.startTime) (hc : Fl.lt (fin (2 ^ 62) false) c.startTime = true) :
    singleLoop fuel (ds ++ c :: es) objs attr sk = .error .hang := by
  induction ds generalizing objs attr sk k n with
  | nil =>
    cases objs with
    | nil => simp at hlen
    | cons o objs =>
      have h0 : index (o :: objs) 0 = .ok o := rfl
      rw [List.nil_append, singleLoop, h0, ok_bind, Grid.process_error hk (process_stuck hc fuel h)]
      rfl
  | cons d ds ih =>
    cases objs with
    | nil => simp at hlen
    | cons o objs =>
      have h0 : index (o :: objs) 0 = .ok o := rfl
      rw [List.cons_append]
      rcases Grid.process ieeeGrid (ht d (List.mem_cons_self ..)) fuel h with ⟨-, e2⟩ | ⟨a, e1, e2⟩
      · rw [singleLoop, h0, ok_bind, Grid.process_error hk e2]; rfl
      · obtain ⟨sk', f1, f2, f3⟩ := Grid.process_okay hk e1
        rw [singleLoop_cons_ok h0 f1]
        exact ih objs (by simpa using hlen) _ sk' f3 (f2 ▸ e2) (fun d' hd' => ht d' (List.mem_cons_of_mem _ hd'))

theorem singleLoop_stuck_first [GoSort] (fuel : Nat) (d : DiffObject F32 F64) (ds : List (DiffObject F32 F64))
    (c : DiffObject F32 F64) (es : List (DiffObject F32 F64)) (objs : List (Obj F32 F64))
    (hlen : (d :: ds ++ c :: es).length ≤ objs.length) (attr : Attributes F64) (diff : Difficulty F64)
    (ht : ∀ x ∈ d :: ds, Moderate x.startTime) (hc : Fl.lt (fin (2 ^ 62) false) c.startTime = true) :
    singleLoop fuel (d :: ds ++ c :: es) objs attr (SkillSet.new diff) = .error .hang := by
  cases objs with
  | nil => simp at hlen
  | cons o objs =>
    have h0 : index (o :: objs) 0 = .ok o := rfl
    have hk := locked_new (S := F32) diff
    rw [List.cons_append]
    rcases Grid.process_first ieeeGrid (ht d (List.mem_cons_self ..)) fuel
        (sk := (SkillSet.new (S := F32) diff).aim) rfl hk.h1 rfl with ⟨-, e2⟩ | ⟨a, e1, e2⟩
    · rw [singleLoop, h0, ok_bind, Grid.process_error hk e2]; rfl
    · obtain ⟨sk', f1, f2, f3⟩ := Grid.process_okay hk e1
      rw [singleLoop_cons_ok h0 f1]
      exact singleLoop_stuck fuel ds c es objs (by simpa using hlen) _ sk' f3 (f2 ▸ e2)
        (fun d' hd' => ht d' (List.mem_cons_of_mem _ hd')) hc

/-- A positive number so small that a 400th of it is rounded to zero. -/
theorem rnd_tiny {v : ℚ} (h0 : 0 < v) (h1 : v ≤ pow2 (-1067)) : rnd fmt64 (v / 400) = 0 := by
  have h2 : v / 400 ≤ pow2 (-1075) := by
    have : pow2 (-1067) = 256 * pow2 (-1075) := by
      rw [show (-1067 : ℤ) = -1075 + (8 : ℕ) from rfl, pow2_succ']; norm_num
    have hp := pow2_pos (-1075)
    rw [div_le_iff₀ (by norm_num)]
    linarith
  have h3 := rnd_mono (f := fmt64) h2
  have h4 : rnd fmt64 (pow2 (-1075)) = 0 := by decide +kernel
  rw [h4] at h3
  exact le_antisymm h3 (rnd_nonneg (by positivity))

theorem process_tiny {c : DiffObject F32 F64} {v : ℚ} {b : Bool} (ht : c.startTime = fin v b) (h0 : 0 < v)
    (h1 : v ≤ pow2 (-1067)) (fuel : Nat) {sk : Skill F32 F64} (hl : sk.sectionLength = lit 400)
    (hp : sk.previous = []) : sk.process (fuel + 1) c = .error .panic := by
  have hpa : Skill.process (fuel + 1) c sk = (do
      let sk ← Skill.processInternal (fuel + 1) c sk.trimmed
      return { sk with previous := sk.previous ++ [c] }) := rfl
  have htr : sk.trimmed = sk := by
    unfold Skill.trimmed
    rw [if_neg (by rw [hp]; simp)]
  rw [hpa, htr]
  unfold Skill.processInternal
  have hz : sk.previous.length = 0 := by rw [hp]; rfl
  simp only [hz, if_true]
  obtain ⟨e, he⟩ : ∃ e, GoFloat.ceil (c.startTime /. sk.sectionLength) *. sk.sectionLength = fin 0 e := by
    rw [ht, hl, lit400, go_div]
    unfold Fl.div
    simp only
    rw [if_neg (by norm_num)]
    unfold ofRat
    simp only
    rw [rnd_tiny h0 h1, if_neg (by rw [abs_zero]; exact not_le.mpr (pow2_pos _))]
    obtain ⟨c', hc'⟩ := ceil_fin fmt64 0 (decide ((0 : ℚ) = 0) && if v / 400 = 0 then
      signbit (fin v b : F64) ^^ signbit (fin 400 false : F64) else decide (v / 400 < 0))
    rw [show ∀ x : F64, GoFloat.ceil x = Fl.ceil x from fun _ => rfl, hc', Int.ceil_zero, go_mul]
    unfold Fl.mul
    simp only
    rw [Int.cast_zero, zero_mul, ofRat_zero]
    exact ⟨_, rfl⟩
  rw [he, Skill.sectionLoop]
  have hlt : ((fin 0 e : F64) <. c.startTime) = true := by
    rw [ht, go_lt]; exact lt_fin_iff.mpr h0
  rw [if_pos hlt]
  have hc := ({ sk with currentSectionEnd := fin 0 e } : Skill F32 F64).calculateInitialStrain_cases (fin 0 e)
  rw [if_pos hp] at hc
  simp only [hc]
  rfl

end
end GosuPP
