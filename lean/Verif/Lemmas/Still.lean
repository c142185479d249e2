import Verif.Lemmas.Runs

/-! Skills that nothing is added to. -/

namespace GosuPP.Runs
open Go Fl Spec

theorem sub_self_zero {k : ℤ} {x : F32} (h : Bd k x) : ∃ z, x -. x = (fin 0 z : F32) := by
  obtain ⟨v, z, rfl, -⟩ := h
  rw [go_sub]
  show ∃ t, ofRat fmt32 (v + -v) _ = _
  rw [add_neg_cancel]
  exact ⟨_, ofRat_zero _⟩

theorem dst_self {k : ℤ} {v : Vec F32} (h : VBd k v) : In 0 0 (up (v.dst v) : F64) := by
  obtain ⟨a, ha⟩ := sub_self_zero h.1
  obtain ⟨b, hb⟩ := sub_self_zero h.2
  unfold Vec.dst
  simp only
  rw [ha, hb]
  refine ⟨0, false, ?_, le_rfl, le_rfl⟩
  clear ha hb
  cases a <;> cases b <;> decide +kernel

variable [GoLibm F64]

/-- What the objects do that a skill does not measure: spinners, and for aim also objects that the cursor is already at. -/
def Rests : SkillKind → DiffObject F32 F64 → Prop
  | .aim _, o => o.baseObject.obj.isSpinner = true ∨ Still o
  | _, o => o.baseObject.obj.isSpinner = true

theorem value_rests (hl : PowLaws) (ht : TrigLaws) {d : Difficulty F64} {s : Skill F32 F64} {c : DiffObject F32 F64}
    (ho : ∀ o ∈ s.previous, ObjOk d o) (hch : s.previous.IsChain Next) (hc : ObjOk d c)
    (hnext : ∀ o ∈ s.previous.getLast?, Next o c) (hr : ∀ o ∈ s.previous, Rests s.kind o) (hrc : Rests s.kind c) {v : F64}
    (h : s.strainValueOf c = .ok v) : In 0 0 v := by
  unfold Skill.strainValueOf at h
  cases hk : s.kind with
  | aim ws =>
    simp only [hk] at h hr hrc
    unfold Aim.strainValue at h
    split at h
    · rw [← Except.ok.inj h]; exact in_zero
    · rename_i hcond
      simp only [Bool.or_eq_true, decide_eq_true_eq, not_or, Bool.not_eq_true] at hcond
      obtain ⟨last, h1, h⟩ := bind_ok h
      split at h
      · rw [← Except.ok.inj h]; exact in_zero
      · rename_i hsp
        obtain ⟨ll, h2, h⟩ := bind_ok h
        rw [← Except.ok.inj h]
        have h1' := derefPrevious_some h1
        have h2' := derefPrevious_some h2
        have z1 : Still c := hrc.resolve_left (by rw [hcond.1]; simp)
        have z2 : Still last := (hr last (getPrevious_mem h1')).resolve_left hsp
        refine aimStrain_zero hl ht hc (ho _ (getPrevious_mem h1')) (hnext _ (getPrevious_zero h1')) ?_ hcond.1 (by simpa using hsp) z1 z2
        unfold Skill.getPrevious at h1' h2'
        have hlt : 1 < s.previous.reverse.length := by
          by_contra hge
          rw [List.getElem?_eq_none (by omega)] at h2'
          cases h2'
        have hrev := List.isChain_reverse.mpr (by simpa [flip] using hch : s.previous.IsChain (flip (flip Next)))
        have := List.isChain_iff_getElem.mp hrev 0 (by omega)
        rw [(List.getElem?_eq_some_iff.mp h1').2, (List.getElem?_eq_some_iff.mp h2').2] at this
        exact this
  | speed =>
    simp only [hk] at h hrc
    cases h
    unfold Speed.strainValue
    rw [if_pos (show c.baseObject.obj.isSpinner = true from hrc)]
    exact in_zero
  | flashlight =>
    simp only [hk] at h hrc
    cases h
    unfold Flashlight.strainValue
    rw [if_pos (show c.baseObject.obj.isSpinner = true from hrc)]
    exact in_zero

/-- A skill that was given nothing to measure. -/
structure Quiet (d : Difficulty F64) (kind : SkillKind) (last : Option (DiffObject F32 F64)) (sk : Skill F32 F64) : Prop where
  run : Run d kind 0 last sk
  rests : ∀ o ∈ sk.previous, Rests kind o

omit [GoLibm F64] in
theorem quiet_new {d : Difficulty F64} {new : Skill F32 F64} (h : new ∈ freshSkills d) : Quiet d new.kind none new := by
  refine ⟨run_new h, ?_⟩
  have e : new.previous = [] := by
    unfold freshSkills at h
    simp only [List.mem_cons, List.not_mem_nil, or_false] at h
    rcases h with rfl | rfl | rfl | rfl <;> rfl
  rw [e]
  simp

theorem quiet_process (hl : PowLaws) (ht : TrigLaws) {d : Difficulty F64} {c : DiffObject F32 F64} {ds : List (DiffObject F32 F64)}
    (hg : Given d (c :: ds)) {kind : SkillKind} {fuel : ℕ} {last : Option (DiffObject F32 F64)} {sk sk' : Skill F32 F64}
    (hr : Quiet d kind last sk) (hc : Rests kind c) (hf : Follows last (c :: ds)) (h : sk.process fuel c = .ok sk') :
    Quiet d kind (some c) sk' := by
  obtain ⟨h1, h2⟩ := run_idle hl ht hg (by norm_num) hr.run hf (by
    intro s hs1 hs2 v hv
    refine value_rests hl ht (fun o ho => hr.run.ok.objs o (hs2.subset ho)) (hr.run.ok.chain.suffix hs2) (hg.objs c (by simp)) ?_
      (fun o ho => by rw [hs1]; exact hr.rests o (hs2.subset ho)) (by rw [hs1]; exact hc) hv
    intro o ho
    refine hf o (hr.run.last o ?_) c rfl
    obtain ⟨pre, hpre⟩ := hs2
    rw [← hpre]
    cases hp : s.previous with
    | nil => rw [hp] at ho; cases ho
    | cons a b => rw [List.getLast?_append_of_ne_nil _ (by simp), ← hp]; exact ho) h
  refine ⟨h1, ?_⟩
  intro o ho
  rcases h2 o ho with h | rfl
  · exact hr.rests o h
  · exact hc

omit [GoLibm F64] in
theorem quiet_peaks {d : Difficulty F64} {kind : SkillKind} {last : Option (DiffObject F32 F64)} {sk : Skill F32 F64}
    (h : Quiet d kind last sk) : ∀ x ∈ sk.getCurrentStrainPeaks, In 0 0 x := by
  intro x hx
  have := h.run.ok.peaks x hx
  simpa using this

theorem mul_rests {x y : F64} {b : ℚ} (hx : In 0 0 x) (hy : In 0 b y) : In 0 0 (x *. y) :=
  hx.mul hy le_rfl le_rfl nice_zero nice_zero (by norm_num) (by norm_num)

theorem weightedSum_zero {dw : F64} (hd : In 0 1 dw) {l : List F64} (hl : ∀ x ∈ l, In 0 0 x) {a w : F64} (ha : In 0 0 a) (hw : In 0 1 w) :
    In 0 0 (Skill.weightedSum dw l a w) := by
  induction l generalizing a w with
  | nil => exact ha
  | cons s l ih =>
    rw [Skill.weightedSum]
    exact ih (fun x hx => hl x (by simp [hx]))
      (ha.add (mul_rests (hl s (by simp)) hw) nice_zero nice_zero (by norm_num) (by norm_num)) (hw.unit_mul hd)

theorem reduceLoop_zero (ht : TrigLaws) {count : ℕ} (hc : count = 5 ∨ count = 10) (i : ℕ) {l : List F64} (h : ∀ x ∈ l, In 0 0 x) :
    ∀ x ∈ Skill.reduceLoop count (lit 0.75) i l, In 0 0 x := by
  induction l generalizing i with
  | nil => rw [Skill.reduceLoop]; simp
  | cons s l ih =>
    rw [Skill.reduceLoop]
    split
    · intro x hx
      rcases List.mem_cons.mp hx with rfl | hx
      · obtain ⟨b1, b2⟩ := factor_bounds (logBounds ht) hc i
        exact mul_rests (h s (by simp)) (in_of_nonneg b1 b2)
      · exact ih (i + 1) (fun y hy => h y (by simp [hy])) x hx
    · exact h

theorem quiet_value (ht : TrigLaws) [GoSort] {d : Difficulty F64} {kind : SkillKind} {last : Option (DiffObject F32 F64)} {sk : Skill F32 F64}
    (h : Quiet d kind last sk) : In 0 0 sk.difficultyValue := by
  have htn := fresh_tuned h.run.ok.fresh
  unfold Skill.difficultyValue Skill.valueOfPeaks
  simp only
  rw [htn.baseline]
  have h1 : ∀ x ∈ Skill.reverseSort sk.getCurrentStrainPeaks, In 0 0 x := fun x hx =>
    quiet_peaks h x ((reverseSort_perm _).mem_iff.mp hx)
  have h2 := reduceLoop_zero ht htn.count 0 h1
  have hw : In 0 1 sk.decayWeight := in_of_nonneg htn.weight.1 htn.weight.2
  have h4 := weightedSum_zero hw (fun x hx => h2 x ((reverseSort_perm _).mem_iff.mp hx)) (a := lit 0) (w := lit 1) in_zero
    (in_one.mono (by norm_num) le_rfl)
  have hm : In 0 (2 ^ 1) sk.difficultyMultiplier := by
    rcases htn.multiplier with e | e <;> rw [e]
    · exact lit_up 1 (by norm_num) (by norm_num) (by norm_num)
    · exact lit_up 1 (by norm_num) (by norm_num) (by norm_num)
  exact mul_rests h4 hm

theorem rating_zero {x : F64} (h : In 0 0 x) : In 0 0 (GoFloat.sqrt x *. lit 0.0675) := by
  have e : Go.Fl.sqrt (fin 0 false : F64) = fin 0 false := by decide +kernel
  exact mul_rests (h.sqrt e) (lit_unit (q := 0.0675) (by norm_num) (by norm_num))

/-- The skills of some kinds were given nothing to measure. -/
structure Quiets (K : SkillKind → Prop) (d : Difficulty F64) (last : Option (DiffObject F32 F64)) (s : SkillSet F32 F64) : Prop where
  aim : K (.aim true) → Quiet d (.aim true) last s.aim
  aimNoSliders : K (.aim false) → Quiet d (.aim false) last s.aimNoSliders
  speed : K .speed → Quiet d .speed last s.speed
  flashlight : K .flashlight → ∀ f ∈ s.flashlight, Quiet d .flashlight last f

omit [GoLibm F64] in
theorem quiets_new (K : SkillKind → Prop) (d : Difficulty F64) : Quiets K d none (SkillSet.new d) := by
  refine ⟨fun _ => quiet_new (new := Skill.newAim d true) (by simp [freshSkills]), fun _ => quiet_new (new := Skill.newAim d false) (by simp [freshSkills]),
    fun _ => quiet_new (new := Skill.newSpeed d) (by simp [freshSkills]), ?_⟩
  intro _ f hf
  unfold SkillSet.new at hf
  simp only at hf
  split at hf
  · cases hf; exact quiet_new (new := Skill.newFlashlight d) (by simp [freshSkills])
  · cases hf

theorem quiet_opt (hl : PowLaws) (ht : TrigLaws) {d : Difficulty F64} {c : DiffObject F32 F64} {ds : List (DiffObject F32 F64)}
    (hg : Given d (c :: ds)) {fuel : ℕ} {last : Option (DiffObject F32 F64)} {f f' : Option (Skill F32 F64)}
    (hr : ∀ x ∈ f, Quiet d .flashlight last x) (hc : Rests .flashlight c) (hf : Follows last (c :: ds))
    (h : SkillSet.processOpt fuel c f = .ok f') : ∀ x ∈ f', Quiet d .flashlight (some c) x := by
  cases f with
  | none => cases h; intro x hx; cases hx
  | some sk =>
    obtain ⟨sk', h1, h⟩ := bind_ok h
    cases h
    intro x hx
    cases hx
    exact quiet_process hl ht hg (hr sk rfl) hc hf h1

theorem quiets_process (hl : PowLaws) (ht : TrigLaws) {K : SkillKind → Prop} {d : Difficulty F64} {c : DiffObject F32 F64}
    {ds : List (DiffObject F32 F64)} (hg : Given d (c :: ds)) {fuel : ℕ} {last : Option (DiffObject F32 F64)} {s s' : SkillSet F32 F64}
    (hc : ∀ k, K k → Rests k c) (hr : Quiets K d last s) (hf : Follows last (c :: ds)) (h : s.process fuel c = .ok s') :
    Quiets K d (some c) s' := by
  unfold SkillSet.process at h
  obtain ⟨a, h1, h⟩ := bind_ok h
  obtain ⟨b, h2, h⟩ := bind_ok h
  obtain ⟨e, h3, h⟩ := bind_ok h
  obtain ⟨f, h4, h⟩ := bind_ok h
  cases h
  exact ⟨fun k => quiet_process hl ht hg (hr.aim k) (hc _ k) hf h1, fun k => quiet_process hl ht hg (hr.aimNoSliders k) (hc _ k) hf h2,
    fun k => quiet_process hl ht hg (hr.speed k) (hc _ k) hf h3, fun k => quiet_opt hl ht hg (hr.flashlight k) (hc _ k) hf h4⟩

/-- Ratings of the skills of some kinds. -/
structure NoRating (K : SkillKind → Prop) (a : Attributes F64) : Prop where
  aim : K (.aim true) → (a.aim ==. lit 0) = true ∧ a.sliderFactor = lit 1
  speed : K .speed → (a.speed ==. lit 0) = true
  flashlight : K .flashlight → (a.flashlight ==. lit 0) = true

theorem quiets_stars (ht : TrigLaws) [GoSort] {K : SkillKind → Prop} {d : Difficulty F64} {last : Option (DiffObject F32 F64)}
    {s : SkillSet F32 F64} (hr : Quiets K d last s) (a : Attributes F64) : NoRating K (s.getStars d a) := by
  unfold SkillSet.getStars getStarsFromRawValues
  simp only
  refine ⟨fun k => ?_, fun k => ?_, fun k => ?_⟩
  · have h0 := rating_zero (quiet_value ht (hr.aim k))
    refine ⟨h0.eq_zero, ?_⟩
    simp only
    rw [if_neg]
    obtain ⟨v, z, e, v1, v2⟩ := h0
    obtain ⟨w, t, e', w1, w2⟩ := in_lit (q := 0.00001) (a := 1 / 2 ^ 17) (b := 1) (nice_neg_pow 17 (by norm_num)) nice_one (by norm_num) (by norm_num)
    rw [e, e']
    simp only [go_lt, Fl.lt, decide_eq_true_eq, not_lt]
    have : (0 : ℚ) < 1 / 2 ^ 17 := by positivity
    linarith
  · simp only
    split
    · exact in_zero.eq_zero
    · exact (rating_zero (quiet_value ht (hr.speed k))).eq_zero
  · cases hf : s.flashlight with
    | none => exact (rating_zero in_zero).eq_zero
    | some f => exact (rating_zero (quiet_value ht (hr.flashlight k f hf))).eq_zero

theorem single_quiet (hl : PowLaws) (ht : TrigLaws) [GoSort] {K : SkillKind → Prop} {d : Difficulty F64} {ds : List (DiffObject F32 F64)}
    (hg : Given d ds) (hK : ∀ k, K k → ∀ o ∈ ds, Rests k o) {objs : List (Obj F32 F64)} {attr attr' : Attributes F64} {fuel : ℕ}
    {last : Option (DiffObject F32 F64)} {s s' : SkillSet F32 F64} (hr : Quiets K d last s) (hf : Follows last ds)
    (h : singleLoop fuel ds objs attr s = .ok (attr', s')) : ∃ last', Quiets K d last' s' := by
  induction ds generalizing last s objs attr with
  | nil => cases h; exact ⟨last, hr⟩
  | cons c ds ih =>
    rw [singleLoop] at h
    obtain ⟨o, -, h⟩ := bind_ok h
    obtain ⟨s1, h1, h⟩ := bind_ok h
    obtain ⟨g1, g2⟩ := given_tail hg
    exact ih g1 (fun k hk o ho => hK k hk o (by simp [ho])) (quiets_process hl ht hg (fun k hk => hK k hk c (by simp)) hr hf h1) g2 h

theorem step_quiet (hl : PowLaws) (ht : TrigLaws) [GoSort] {K : SkillKind → Prop} {d : Difficulty F64} {ds : List (DiffObject F32 F64)}
    (hg : Given d ds) (hK : ∀ k, K k → ∀ o ∈ ds, Rests k o) {objs : List (Obj F32 F64)} {attr : Attributes F64} {fuel : ℕ}
    {last : Option (DiffObject F32 F64)} {s s' : SkillSet F32 F64} {stars : List (Attributes F64)} (hr : Quiets K d last s)
    (hf : Follows last ds) (h : stepLoop fuel d ds objs attr s = .ok (stars, s')) : ∀ a ∈ stars, NoRating K a := by
  induction ds generalizing last s objs attr stars with
  | nil => cases h; simp
  | cons c ds ih =>
    rw [stepLoop] at h
    obtain ⟨o, -, h⟩ := bind_ok h
    simp only at h
    obtain ⟨s1, h1, h⟩ := bind_ok h
    obtain ⟨⟨rest, s2⟩, h2, h⟩ := bind_ok h
    cases h
    obtain ⟨g1, g2⟩ := given_tail hg
    have hr' := quiets_process hl ht hg (fun k hk => hK k hk c (by simp)) hr hf h1
    intro a ha
    rcases List.mem_cons.mp ha with rfl | ha
    · exact quiets_stars ht hr' _
    · exact ih g1 (fun k hk o ho => hK k hk o (by simp [ho])) hr' g2 h2 a ha

theorem peak_quiet (hl : PowLaws) (ht : TrigLaws) {K : SkillKind → Prop} {d : Difficulty F64} {ds : List (DiffObject F32 F64)} (hg : Given d ds)
    (hK : ∀ k, K k → ∀ o ∈ ds, Rests k o) {fuel : ℕ} {last : Option (DiffObject F32 F64)} {s s' : PeakSkills F32 F64}
    (h1 : K (.aim true) → Quiet d (.aim true) last s.aim) (h2 : K .speed → Quiet d .speed last s.speed)
    (h3 : K .flashlight → ∀ f ∈ s.flashlight, Quiet d .flashlight last f) (hf : Follows last ds) (h : peakLoop fuel ds s = .ok s') :
    (K (.aim true) → ∀ x ∈ s'.aim.getCurrentStrainPeaks, In 0 0 x) ∧ (K .speed → ∀ x ∈ s'.speed.getCurrentStrainPeaks, In 0 0 x) ∧
    (K .flashlight → ∀ f ∈ s'.flashlight, ∀ x ∈ f.getCurrentStrainPeaks, In 0 0 x) := by
  induction ds generalizing last s with
  | nil => cases h; exact ⟨fun k => quiet_peaks (h1 k), fun k => quiet_peaks (h2 k), fun k f hf => quiet_peaks (h3 k f hf)⟩
  | cons c ds ih =>
    rw [peakLoop] at h
    obtain ⟨a, e1, h⟩ := bind_ok h
    obtain ⟨b, e2, h⟩ := bind_ok h
    obtain ⟨f, e3, h⟩ := bind_ok h
    obtain ⟨g1, g2⟩ := given_tail hg
    have hc := fun k hk => hK k hk c (by simp)
    exact ih g1 (fun k hk o ho => hK k hk o (by simp [ho])) (fun k => quiet_process hl ht hg (h1 k) (hc _ k) hf e1)
      (fun k => quiet_process hl ht hg (h2 k) (hc _ k) hf e2) (fun k => quiet_opt hl ht hg (h3 k) (hc _ k) hf e3) g2 h

/-- Objects without sliders that are all in one place. -/
theorem rests_aim (hl : PowLaws) {d : Difficulty F64} {objs : List (Obj F32 F64)} {ds : List (DiffObject F32 F64)} (hm : OrdinaryMap d objs)
    {p : Vec F32} (hp : ∀ o ∈ objs, o.isSpinner = true ∨ (o.isCircle = true ∧ o.base.getStackedStartPositionMod d.mods = p))
    (h : createDifficultyObjects objs d = .ok ds) (ws : Bool) : ∀ o ∈ ds, Rests (.aim ws) o := by
  have hr : In 1 1024 d.circleRadius := in_of_within hm.radius nice_one (by exact nice_nat 1024 (by norm_num))
  intro o ho
  obtain ⟨i, hi⟩ := List.getElem?_of_mem ho
  obtain ⟨a, b, c, x, y, hx, hy, ha, hb, rfl⟩ := createDifficultyObjects_get h hi
  obtain ⟨ea, -⟩ := decorate_obj ha
  obtain ⟨eb, -⟩ := decorate_obj hb
  have hoy := hm.objects y (List.mem_of_getElem? hy)
  right
  by_cases hsp : (b.obj.isSpinner || a.obj.isSpinner) = true
  · unfold newDiffObject setDistances Still
    simp only
    rw [if_pos hsp]
    exact ⟨in_zero, in_zero⟩
  · have e1 : x.isSpinner = false ∧ y.isSpinner = false := by
      simp only [Bool.or_eq_true, not_or, Bool.not_eq_true] at hsp
      rw [← ea, ← eb]
      exact ⟨hsp.2, hsp.1⟩
    obtain ⟨cx, px⟩ := (hp x (List.mem_of_getElem? hx)).resolve_left (by rw [e1.1]; simp)
    obtain ⟨cy, py⟩ := (hp y (List.mem_of_getElem? hy)).resolve_left (by rw [e1.2]; simp)
    have hlz : a.lazy = none := by
      unfold decorate at ha
      unfold Obj.isCircle at cx
      cases hk : x.kind with
      | circle => rw [hk] at ha; cases ha; rfl
      | slider s => rw [hk] at cx; cases cx
      | spinner => rw [hk] at cx; cases cx
    have hvb : VBd 20 p := by rw [← py]; exact (decorate_ok hl hb hr hoy).startPos |> fun q => by rw [eb] at q; exact q
    have hsc := distanceScaling_bd hr
    unfold newDiffObject setDistances
    simp only
    rw [if_neg hsp]
    obtain ⟨ang, e'⟩ := setAngle_frame d c a (setTravel d a { baseObject := b
                                                              deltaTime := (b.obj.base.startTime -. a.obj.base.startTime) /. d.speed
                                                              startTime := b.obj.base.startTime /. d.speed
                                                              endTime := b.obj.base.endTime /. d.speed
                                                              angle := GoFloat.nan
                                                              strainTime := fmax ((b.obj.base.startTime -. a.obj.base.startTime) /. d.speed) (lit 25)
                                                              jumpDistance := lit 0, movementDistance := lit 0, travelDistance := lit 0
                                                              movementTime := lit 0, travelTime := lit 0 })
    rw [e']
    unfold setTravel getEndCursorPosition Still
    simp only [hlz]
    rw [ea, eb, px, py]
    exact ⟨dst_self (VBd.scl hvb hsc (by norm_num) (by norm_num)), in_zero⟩

/-- Spinners are not measured. -/
theorem rests_spinners {d : Difficulty F64} {objs : List (Obj F32 F64)} {ds : List (DiffObject F32 F64)}
    (hp : ∀ o ∈ objs, o.isSpinner = true) (h : createDifficultyObjects objs d = .ok ds) (k : SkillKind) : ∀ o ∈ ds, Rests k o := by
  intro o ho
  obtain ⟨i, hi⟩ := List.getElem?_of_mem ho
  obtain ⟨a, b, c, x, y, hx, hy, ha, hb, rfl⟩ := createDifficultyObjects_get h hi
  obtain ⟨eb, -⟩ := decorate_obj hb
  have : (newDiffObject b c a d).baseObject.obj.isSpinner = true := by
    rw [(newDiffObject_times b c a d).1, eb]
    exact hp y (List.mem_of_getElem? hy)
  cases k with
  | aim ws => exact .inl this
  | speed => exact this
  | flashlight => exact this

end GosuPP.Runs
