import Verif.Lemmas.StarBounds

/-! The skills during a calculation. -/

namespace GosuPP.Runs
open Go Fl Spec

variable [GoLibm F64]

/-- A skill of a calculation after `n` objects, the last of which is `last`. -/
structure Run (d : Difficulty F64) (kind : SkillKind) (n : ℕ) (last : Option (DiffObject F32 F64)) (sk : Skill F32 F64) : Prop where
  ok : SkOk d n sk
  kind : sk.kind = kind
  last : ∀ o ∈ sk.previous.getLast?, last = some o

/-- What a map provides. -/
structure Given (d : Difficulty F64) (ds : List (DiffObject F32 F64)) : Prop where
  radius : In 1 1024 d.circleRadius
  window : GwOk (d.hit300 /. d.speed)
  objs : ∀ o ∈ ds, ObjOk d o
  chain : ds.IsChain Next

theorem given (hl : PowLaws) {d : Difficulty F64} {objs : List (Obj F32 F64)} {ds : List (DiffObject F32 F64)}
    (hm : OrdinaryMap d objs) (h : createDifficultyObjects objs d = .ok ds) : Given d ds := by
  obtain ⟨h1, h2⟩ := createDifficultyObjects_bounds hl hm h
  have n10 : Nice (1024 : ℚ) := by exact nice_nat 1024 (by norm_num)
  have m10 : Nice (1 / 1024 : ℚ) := by have := nice_neg_pow 10 (by norm_num); norm_num at this ⊢; exact this
  exact ⟨in_of_within hm.radius nice_one n10, gw_ok (in_of_within hm.speed m10 n10)
    (in_of_within hm.hit300 nice_one (by exact nice_nat 4096 (by norm_num))), h1, h2⟩

/-- The next object follows the last one. -/
def Follows (last : Option (DiffObject F32 F64)) (ds : List (DiffObject F32 F64)) : Prop :=
  ∀ p ∈ last, ∀ o ∈ ds.head?, Next p o

omit [GoLibm F64] in
theorem run_new {d : Difficulty F64} {new : Skill F32 F64} (h : new ∈ freshSkills d) : Run d new.kind 0 none new := by
  have e : new.previous = [] ∧ new.strainPeaks = [] ∧ new.currentStrain = lit 0 ∧ new.currentRhythm = lit 0 ∧
      new.getCurrentStrainPeaks = [lit 0] := by
    unfold freshSkills at h
    simp only [List.mem_cons, List.not_mem_nil, or_false] at h
    rcases h with rfl | rfl | rfl | rfl <;> exact ⟨rfl, rfl, rfl, rfl, rfl⟩
  obtain ⟨e1, e2, e3, e4, e5⟩ := e
  refine ⟨⟨⟨new, h, SameSettings.refl _⟩, by rw [e1]; simp, by rw [e1]; exact .nil, by rw [e1]; simp, ?_, ?_, ?_, .inl ⟨e1, e2⟩⟩, rfl, by rw [e1]; simp⟩
  · rw [e3]; exact in_zero.mono le_rfl (by simp)
  · rw [e4]; exact in_zero.mono le_rfl (by norm_num)
  · rw [e5]
    intro x hx
    rw [List.mem_singleton.mp hx]
    exact in_zero.mono le_rfl (by simp)

theorem run_process (hl : PowLaws) (ht : TrigLaws) {d : Difficulty F64} {c : DiffObject F32 F64} {ds : List (DiffObject F32 F64)}
    (hg : Given d (c :: ds)) {kind : SkillKind} {n fuel : ℕ} (hn : n < 2 ^ 53) {last : Option (DiffObject F32 F64)} {sk sk' : Skill F32 F64}
    (hr : Run d kind n last sk) (hf : Follows last (c :: ds)) (h : sk.process fuel c = .ok sk') :
    Run d kind (n + 1) (some c) sk' := by
  obtain ⟨h1, h2, h3⟩ := process_ok hl ht hg.radius hg.window hn hr.ok (hg.objs c (by simp))
    (fun o ho => hf o (hr.last o ho) c rfl) h
  exact ⟨h1, h3.trans hr.kind, by intro o ho; rw [h2] at ho; exact ho⟩

omit [GoLibm F64] in
theorem given_tail {d : Difficulty F64} {c : DiffObject F32 F64} {ds : List (DiffObject F32 F64)}
    (hg : Given d (c :: ds)) : Given d ds ∧ Follows (some c) ds := by
  refine ⟨⟨hg.radius, hg.window, fun o ho => hg.objs o (by simp [ho]), hg.chain.tail⟩, ?_⟩
  intro p hp o ho
  cases hp
  cases ds with
  | nil => cases ho
  | cons a as =>
    cases ho
    exact (List.isChain_cons_cons.mp hg.chain).1

/-- The skills of a calculation. -/
structure Runs (d : Difficulty F64) (n : ℕ) (last : Option (DiffObject F32 F64)) (s : SkillSet F32 F64) : Prop where
  aim : Run d (.aim true) n last s.aim
  aimNoSliders : Run d (.aim false) n last s.aimNoSliders
  speed : Run d .speed n last s.speed
  flashlight : ∀ f ∈ s.flashlight, Run d .flashlight n last f

omit [GoLibm F64] in
theorem runs_new (d : Difficulty F64) : Runs d 0 none (SkillSet.new d) := by
  refine ⟨run_new (new := Skill.newAim d true) (by simp [freshSkills]), run_new (new := Skill.newAim d false) (by simp [freshSkills]),
    run_new (new := Skill.newSpeed d) (by simp [freshSkills]), ?_⟩
  intro f hf
  unfold SkillSet.new at hf
  simp only at hf
  split at hf
  · cases hf; exact run_new (new := Skill.newFlashlight d) (by simp [freshSkills])
  · cases hf

/-- An object that adds nothing to a skill leaves its strains as they are. -/
theorem run_idle (hl : PowLaws) (ht : TrigLaws) {d : Difficulty F64} {c : DiffObject F32 F64} {ds : List (DiffObject F32 F64)}
    (hg : Given d (c :: ds)) {kind : SkillKind} {n fuel : ℕ} (hn : n ≤ 2 ^ 53) {last : Option (DiffObject F32 F64)} {sk sk' : Skill F32 F64}
    (hr : Run d kind n last sk) (hf : Follows last (c :: ds))
    (hval : ∀ s : Skill F32 F64, s.kind = kind → s.previous <:+ sk.previous → ∀ v, s.strainValueOf c = .ok v → In 0 0 v)
    (h : sk.process fuel c = .ok sk') :
    Run d kind n (some c) sk' ∧ ∀ o ∈ sk'.previous, o ∈ sk.previous ∨ o = c := by
  obtain ⟨h1, h2, h3, h4⟩ := process_by (j := 0) hl ht hg.radius hg.window (by omega) hr.ok (hg.objs c (by simp))
    (fun o ho => hf o (hr.last o ho) c rfl) (by
      intro s hs1 hs2 hs3 _ v hv
      have hm := fresh_mult hs1
      have h0 := hval s (hs2.trans hr.kind) hs3 v hv
      have : ∃ b, In 0 b s.skillMultiplier := by
        cases hk : s.kind <;> rw [hk] at hm <;> exact ⟨_, hm⟩
      obtain ⟨b, hb⟩ := this
      rw [Nat.cast_zero, zero_mul]
      exact h0.mul hb le_rfl le_rfl nice_zero nice_zero (by norm_num) (by norm_num)) h
  exact ⟨⟨h1, h3.trans hr.kind, by intro o ho; rw [h2] at ho; exact ho⟩, h4⟩

end GosuPP.Runs
