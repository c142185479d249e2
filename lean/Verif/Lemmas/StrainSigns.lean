import Verif.Lemmas.Signs

/-! No strain value and no strain peak is negative (IEEE). -/

namespace GosuPP
open Go Go.Fl Spec
open GosuPP.Fl (NN0 Dn Le1 nn0_zero nn0_nan nn0_lit dn_lit nn0_abs nn0_sqrt NN0.fmax NN0.fmin NN0.div nn0_fmax_zero
  le1_fmin_left le1_fmin_right one_sub_nn0 one_sub_le1 dn_ofInt lerp_dn atLeast_dn atLeast_zero le1_iff)

/-- The quantities of a difficulty object that the strains use have the right sign. -/
structure Signed {S : Type} (o : DiffObject S F64) : Prop where
  strainTime : AtLeast (lit 25) o.strainTime
  wf : WF o.strainTime
  jump : NN0 o.jumpDistance
  travel : NN0 o.travelDistance
  movement : NN0 o.movementDistance
  travelTime : Dn o.travelTime
  movementTime : Dn o.movementTime

section
variable {S : Type}

theorem Signed.dn {o : DiffObject S F64} (h : Signed o) : Dn o.strainTime := atLeast_dn h.strainTime
theorem Signed.nn {o : DiffObject S F64} (h : Signed o) : NN0 o.strainTime := h.dn.1

theorem NN0.goAdd {x y : F64} (hx : NN0 x) (hy : NN0 y) : NN0 (x +. y) := NN0.add hx hy
theorem NN0.goMul {x y : F64} (hx : NN0 x) (hy : NN0 y) : NN0 (x *. y) := NN0.mul hx hy
theorem NN0.goDiv {x y : F64} (hx : NN0 x) (hy : Dn y) : NN0 (x /. y) := NN0.div hx hy
theorem nn0_goAbs (x : F64) : NN0 (GoFloat.abs x) := nn0_abs x
theorem nn0_goSqrt (x : F64) : NN0 (GoFloat.sqrt x) := nn0_sqrt x
theorem Dn.goDiv {x y : F64} (hx : Dn x) (hy : Dn y) : Dn (x /. y) := Dn.div hx hy
theorem nn0_l (q : ℚ) (h : 0 ≤ q) : NN0 (lit q : F64) := nn0_lit h
theorem dn_l (q : ℚ) (h : 0 ≤ q) : Dn (lit q : F64) := dn_lit h

variable [GoLibm F64]

theorem _root_.GosuPP.Spec.LibmSigns.sq (hl : LibmSigns) (x : F64) : NN0 (GoLibm.pow x (lit 2) : F64) := atLeast_zero.mp (hl.square x)

theorem wide_nn0 (hl : LibmSigns) (a : F64) : NN0 (calcWideAngleBonus a) := hl.sq _
theorem wide_le1 (hl : LibmSigns) (a : F64) : Le1 (calcWideAngleBonus a) := le1_iff.mp (hl.sine _)
theorem acute_nn0 (hl : LibmSigns) (a : F64) : NN0 (calcAcuteAngleBonus a) := one_sub_nn0 (wide_le1 hl a)
theorem acute_le1 (hl : LibmSigns) (a : F64) : Le1 (calcAcuteAngleBonus a) := one_sub_le1 (wide_nn0 hl a)

theorem cube_nn0 (hl : LibmSigns) {x : F64} (h : NN0 x) : NN0 (GoLibm.pow x (lit 3) : F64) :=
  atLeast_zero.mp (hl.power x 3 (by norm_num) (atLeast_zero.mpr h))
theorem cube_le1 (hl : LibmSigns) {x : F64} (h : NN0 x) (h1 : Le1 x) : Le1 (GoLibm.pow x (lit 3) : F64) :=
  le1_iff.mp (hl.cube x (atLeast_zero.mpr h) (le1_iff.mpr h1))

omit [GoLibm F64] in
theorem velocity_nn0 {ws : Bool} {cur prev : DiffObject S F64} (hc : Signed cur) : NN0 (Aim.velocity ws cur prev) := by
  have h1 := NN0.goDiv hc.jump hc.dn
  unfold Aim.velocity
  simp only
  split
  · exact NN0.fmax h1 (NN0.goAdd (NN0.goDiv hc.movement hc.movementTime) (NN0.goDiv hc.travel hc.travelTime))
  · exact h1

theorem angleBonuses_nn0 (hl : LibmSigns) {cur last ll : DiffObject S F64} (hc : Signed cur)
    {v w : F64} (hv : NN0 v) (hw : NN0 w) :
    NN0 (Aim.angleBonuses cur last ll v w).1 ∧ NN0 (Aim.angleBonuses cur last ll v w).2 := by
  have z : NN0 (lit 0 : F64) := nn0_zero
  have hm := NN0.fmin hv hw
  unfold Aim.angleBonuses
  split
  · split
    · simp only
      have hw' : NN0 (calcWideAngleBonus cur.angle *. (fmin v w *. (lit 1 -. fmin (calcWideAngleBonus cur.angle)
          (GoLibm.pow (calcWideAngleBonus last.angle) (lit 3))))) :=
        NN0.goMul (wide_nn0 hl _) (NN0.goMul hm (one_sub_nn0 (le1_fmin_left (wide_le1 hl _))))
      have hf : ∀ a : F64, NN0 (lit 0.5 +. lit 0.5 *. (lit 1 -. fmin a (GoLibm.pow (calcAcuteAngleBonus ll.angle) (lit 3)))) :=
        fun a => NN0.goAdd (nn0_l _ (by norm_num)) (NN0.goMul (nn0_l _ (by norm_num))
          (one_sub_nn0 (le1_fmin_right (cube_le1 hl (acute_nn0 hl _) (acute_le1 hl _)))))
      split
      · exact ⟨hw', NN0.goMul z (hf _)⟩
      · refine ⟨hw', NN0.goMul (NN0.goMul (acute_nn0 hl _) ?_) (hf _)⟩
        exact NN0.goMul (NN0.goMul (NN0.goMul (acute_nn0 hl _)
          (NN0.fmin hm (NN0.goDiv (nn0_l _ (by norm_num)) hc.dn))) (hl.sq _)) (hl.sq _)
    · exact ⟨z, z⟩
  · exact ⟨z, z⟩

theorem velocityChange_nn0 (hl : LibmSigns) {cur last : DiffObject S F64} (hc : Signed cur) (hl' : Signed last)
    (v w : F64) : NN0 (Aim.velocityChangeBonus cur last v w) := by
  unfold Aim.velocityChangeBonus
  split
  · simp only
    refine NN0.goMul (NN0.goMul (NN0.fmax (NN0.fmin ?_ (nn0_goAbs _)) (NN0.goMul (nn0_goAbs _) (hl.sq _))) (hl.sq _)) (hl.sq _)
    exact NN0.goDiv (nn0_l _ (by norm_num)) (Fl.Dn.fmin hc.dn hl'.dn)
  · exact nn0_zero

theorem aimStrain_nn0 (hl : LibmSigns) {ws : Bool} {cur last ll : DiffObject S F64} (hc : Signed cur)
    (h1 : Signed last) : NN0 (Aim.strain ws cur last ll) := by
  have hv : NN0 (Aim.velocity ws cur last) := velocity_nn0 hc
  have hw : NN0 (Aim.velocity ws last ll) := velocity_nn0 h1
  obtain ⟨a1, a2⟩ := angleBonuses_nn0 (last := last) (ll := ll) hl hc hv hw
  have hch := velocityChange_nn0 hl hc h1 (Aim.velocity ws cur last) (Aim.velocity ws last ll)
  have hs : NN0 (if !(cur.travelTime ==. lit 0) then cur.travelDistance /. cur.travelTime else (lit 0 : F64)) := by
    split
    · exact NN0.goDiv hc.travel hc.travelTime
    · exact nn0_zero
  unfold Aim.strain
  simp only
  have hb : NN0 (Aim.velocity ws cur last +. fmax
      ((Aim.angleBonuses cur last ll (Aim.velocity ws cur last) (Aim.velocity ws last ll)).2 *. lit 2)
      ((Aim.angleBonuses cur last ll (Aim.velocity ws cur last) (Aim.velocity ws last ll)).1 *. lit 1.5 +.
        Aim.velocityChangeBonus cur last (Aim.velocity ws cur last) (Aim.velocity ws last ll) *. lit 0.75)) :=
    NN0.goAdd hv (NN0.fmax (NN0.goMul a2 (nn0_l _ (by norm_num)))
      (NN0.goAdd (NN0.goMul a1 (nn0_l _ (by norm_num))) (NN0.goMul hch (nn0_l _ (by norm_num)))))
  split
  · exact NN0.goAdd hb (NN0.goMul hs (nn0_l _ (by norm_num)))
  · exact hb

omit [GoLibm F64] in
theorem getPrevious_mem {sk : Skill S F64} {i : Nat} {o : DiffObject S F64} (h : sk.getPrevious i = some o) :
    o ∈ sk.previous := by
  unfold Skill.getPrevious at h
  exact List.mem_reverse.mp (List.mem_of_getElem? h)

omit [GoLibm F64] in
theorem derefPrevious_mem {sk : Skill S F64} {i : Nat} {o : DiffObject S F64} (h : sk.derefPrevious i = .ok o) :
    o ∈ sk.previous := by
  unfold Skill.derefPrevious at h
  split at h
  · rename_i h'; cases h; exact getPrevious_mem h'
  · cases h

theorem aimValue_nn0 (hl : LibmSigns) {ws : Bool} {sk : Skill S F64} {cur : DiffObject S F64} {v : F64}
    (hp : ∀ o ∈ sk.previous, Signed o) (hc : Signed cur) (h : Aim.strainValue ws sk cur = .ok v) : NN0 v := by
  unfold Aim.strainValue at h
  split at h
  · rw [← Except.ok.inj h]; exact nn0_zero
  · obtain ⟨last, h1, h⟩ := bind_ok h
    split at h
    · rw [← Except.ok.inj h]; exact nn0_zero
    · obtain ⟨ll, -, h⟩ := bind_ok h
      rw [← Except.ok.inj h]
      exact aimStrain_nn0 hl hc (hp _ (derefPrevious_mem h1))

theorem clamp_dn (x : F64) {a b : ℚ} (ha : 0 ≤ a) (hb : 0 ≤ b) (hx : Dn (fmax (lit a) x)) :
    Dn (clampF64 x (lit a) (lit b)) := Fl.Dn.fmin (dn_l _ hb) hx

theorem fmax_dn (x : F64) : Dn (fmax (lit 0.92) x) := by
  refine ⟨Fl.atLeast_nn0 (q := 0.92) (by norm_num) (Fl.atLeast_fmax_left _ _), ?_⟩
  intro e
  have := Fl.atLeast_iff.mp (Fl.atLeast_fmax_left x 0.92)
  rw [e] at this
  exact absurd (this (by simp)) (by decide +kernel)

theorem speedValue_nn0 (hl : LibmSigns) {sk : Skill S F64} {cur : DiffObject S F64}
    (hp : ∀ o ∈ sk.previous, Signed o) (hc : Signed cur) : NN0 (Speed.strainValue sk cur) := by
  unfold Speed.strainValue
  split
  · exact nn0_zero
  · simp only
    generalize sk.diff.hit300 /. sk.diff.speed *. lit 2 = w
    have key : ∀ t : F64, Dn t → NN0 (((if t /. clampF64 ((t /. w) /. lit 0.93) (lit 0.92) (lit 1) <. lit 75 then
          lit 1 +. lit 0.75 *. GoLibm.pow ((lit 75 -. t /. clampF64 ((t /. w) /. lit 0.93) (lit 0.92) (lit 1)) /. lit 40) (lit 2)
        else (lit 1 : F64)) +.
        (if t /. clampF64 ((t /. w) /. lit 0.93) (lit 0.92) (lit 1) <. lit 75 then
          lit 1 +. lit 0.75 *. GoLibm.pow ((lit 75 -. t /. clampF64 ((t /. w) /. lit 0.93) (lit 0.92) (lit 1)) /. lit 40) (lit 2)
        else (lit 1 : F64)) *.
        GoLibm.pow (fmin (lit 125) (cur.travelDistance +. cur.jumpDistance) /. lit 125) (lit 3.5)) /.
        (t /. clampF64 ((t /. w) /. lit 0.93) (lit 0.92) (lit 1))) := by
      intro t ht
      have ht' := Dn.goDiv ht (clamp_dn ((t /. w) /. lit 0.93) (a := 0.92) (b := 1) (by norm_num) (by norm_num) (fmax_dn _))
      generalize t /. clampF64 ((t /. w) /. lit 0.93) (lit 0.92) (lit 1) = u at ht' ⊢
      have hb : NN0 (if u <. lit 75 then lit 1 +. lit 0.75 *. GoLibm.pow ((lit 75 -. u) /. lit 40) (lit 2) else (lit 1 : F64)) := by
        split
        · exact NN0.goAdd (nn0_l _ (by norm_num)) (NN0.goMul (nn0_l _ (by norm_num)) (hl.sq _))
        · exact nn0_l _ (by norm_num)
      refine NN0.goDiv (NN0.goAdd hb (NN0.goMul hb ?_)) ht'
      refine atLeast_zero.mp (hl.power _ 3.5 (by norm_num) (atLeast_zero.mpr ?_))
      exact NN0.goDiv (NN0.fmin (nn0_l _ (by norm_num)) (NN0.goAdd hc.travel hc.jump)) (dn_l _ (by norm_num))
    refine key _ ?_
    split
    · rename_i previous hpr
      split
      · rename_i hcond
        rw [Bool.and_eq_true] at hcond
        exact lerp_dn (hp _ (getPrevious_mem hpr)).wf hc.strainTime hcond.1 hcond.2
      · exact hc.dn
    · exact hc.dn

theorem rhythmStep_nn0 {gw : F64} {len i : Nat} (hi : i ≤ len) {current cur prev last : DiffObject S F64}
    {r : Speed.Rhythm F64} (h : NN0 r.complexitySum) :
    NN0 (Speed.rhythmStep gw len i current cur prev last r).complexitySum := by
  unfold Speed.rhythmStep
  simp only
  split
  · split
    · split
      · split <;> exact h
      · simp only
        have hd : NN0 (fmin (ofInt ((len : Int) - i) /. ofInt len)
            (fmax (lit 0) (lit 5000 -. (current.startTime -. cur.startTime)) /. lit 5000) : F64) := by
          refine NN0.fmin (NN0.goDiv (dn_ofInt (by omega)).1 (dn_ofInt (by omega))) ?_
          exact NN0.goDiv (nn0_fmax_zero _) (dn_l _ (by norm_num))
        refine NN0.goAdd h ?_
        refine NN0.goDiv (NN0.goMul (NN0.goDiv (NN0.goMul (NN0.goMul (nn0_goSqrt _) hd) (nn0_goSqrt _)) ?_) (nn0_goSqrt _)) ?_
        · exact dn_l _ (by norm_num)
        · exact dn_l _ (by norm_num)
    · split <;> exact h
  · exact h

theorem rhythmLoop_nn0 {gw : F64} {sk : Skill S F64} {current : DiffObject S F64} {i : Nat} (hi : i ≤ sk.previous.length)
    {r r' : Speed.Rhythm F64} (h : NN0 r.complexitySum) (hr : Speed.rhythmLoop gw sk current i r = .ok r') :
    NN0 r'.complexitySum := by
  induction i generalizing r with
  | zero => cases hr; exact h
  | succ i ih =>
    rw [Speed.rhythmLoop] at hr
    obtain ⟨a, -, hr⟩ := bind_ok hr
    obtain ⟨b, -, hr⟩ := bind_ok hr
    obtain ⟨c, -, hr⟩ := bind_ok hr
    exact ih (by omega) (rhythmStep_nn0 hi h) hr

/-- The rhythm multiplier is at least one, except that it is zero for spinners. -/
theorem rhythm_nn0 {sk : Skill S F64} {current : DiffObject S F64} {v : F64} (h : Speed.rhythm sk current = .ok v) :
    NN0 v := by
  unfold Speed.rhythm at h
  split at h
  · rw [← Except.ok.inj h]; exact nn0_zero
  · simp only at h
    obtain ⟨r, -, h⟩ := bind_ok h
    rw [← Except.ok.inj h]
    exact NN0.goDiv (nn0_goSqrt _) (dn_l _ (by norm_num))

/-- What a skill satisfies at all times. -/
structure SkillSigned (sk : Skill S F64) : Prop where
  base : sk.strainDecayBase = lit 0.15 ∨ sk.strainDecayBase = lit 0.3
  mult : NN0 sk.skillMultiplier
  strain : NN0 sk.currentStrain
  rhythm : NN0 sk.currentRhythm
  previous : ∀ o ∈ sk.previous, Signed o
  peaks : ∀ x ∈ sk.getCurrentStrainPeaks, NN0 x

theorem decay_nn0 (hl : LibmSigns) {sk : Skill S F64} (h : sk.strainDecayBase = lit 0.15 ∨ sk.strainDecayBase = lit 0.3)
    (t : F64) : NN0 (sk.strainDecay t) := by
  unfold Skill.strainDecay
  rcases h with e | e <;> rw [e] <;> exact atLeast_zero.mp (hl.decay _ _ (by norm_num))

theorem initialStrain_nn0 (hl : LibmSigns) {sk : Skill S F64} {t v : F64}
    (hb : sk.strainDecayBase = lit 0.15 ∨ sk.strainDecayBase = lit 0.3) (hs : NN0 sk.currentStrain)
    (hr : NN0 sk.currentRhythm) (h : sk.calculateInitialStrain t = .ok v) : NN0 v := by
  unfold Skill.calculateInitialStrain at h
  obtain ⟨prev, -, h⟩ := bind_ok h
  cases hk : sk.kind <;> simp only [hk] at h <;> cases h
  · exact NN0.goMul hs (decay_nn0 hl hb _)
  · exact NN0.goMul (NN0.goMul hs hr) (decay_nn0 hl hb _)
  · exact NN0.goMul hs (decay_nn0 hl hb _)

variable [GoFloat S] [GoConv S F64]

theorem strainValueOf_nn0 (hl : LibmSigns) {sk : Skill S F64} {cur : DiffObject S F64} {v : F64}
    (hp : ∀ o ∈ sk.previous, Signed o) (hc : Signed cur) (h : sk.strainValueOf cur = .ok v) : NN0 v := by
  unfold Skill.strainValueOf at h
  split at h
  · exact aimValue_nn0 hl hp hc h
  · cases h; exact speedValue_nn0 hl hp hc
  · cases h
    unfold Flashlight.strainValue
    split
    · exact nn0_zero
    · exact hl.sq _

theorem skillSigned_process (hl : LibmSigns) {fuel : Nat} {c : DiffObject S F64} {sk sk' : Skill S F64}
    (hc : Signed c) (hs : SkillSigned sk) (h : sk.process fuel c = .ok sk') : SkillSigned sk' := by
  obtain ⟨s0, s1, s2, e0, e1, e2, e3, e4, h1, h2, rfl⟩ := Skill.process_spec h
  have hb0 : s0.strainDecayBase = lit 0.15 ∨ s0.strainDecayBase = lit 0.3 := e0.strainDecayBase ▸ hs.base
  obtain ⟨k1, k2, k3, k4, extra, k5, k6⟩ := Skill.sectionLoop_peaks NN0 _ _ _ _ h1 (by
    intro s q1 q2 q3 q4 u v huv
    refine initialStrain_nn0 hl ?_ ?_ ?_ huv
    · rw [← q4.strainDecayBase]; exact hb0
    · rw [q1, e1]; exact hs.strain
    · rw [q2, e2]; exact hs.rhythm)
  have hp1 : ∀ o ∈ s1.previous, Signed o := by
    intro o ho
    rw [k2] at ho
    exact hs.previous o (e4.subset ho)
  have hb1 : s1.strainDecayBase = lit 0.15 ∨ s1.strainDecayBase = lit 0.3 := k1.strainDecayBase ▸ hb0
  have hpk1 : ∀ x ∈ s1.getCurrentStrainPeaks, NN0 x := by
    intro x hx
    rw [k5, e3] at hx
    rcases List.mem_append.mp hx with hx | hx
    · exact hs.peaks x hx
    · exact k6 x hx
  obtain ⟨l1, l2, l3, l4, value, l5, l6, l7⟩ := Skill.addStrain_spec h2
  have hm1 : NN0 s1.skillMultiplier := by rw [← k1.skillMultiplier, ← e0.skillMultiplier]; exact hs.mult
  have hv : NN0 value := strainValueOf_nn0 hl hp1 hc l5
  have hst : NN0 s2.currentStrain := by
    rw [l6, k3, e1]
    exact NN0.goAdd (NN0.goMul hs.strain (decay_nn0 hl hb1 _)) (NN0.goMul hv hm1)
  have hcp : NN0 s1.currentSectionPeak := hpk1 _ (by simp [Skill.getCurrentStrainPeaks])
  have hrp : NN0 s2.currentRhythm ∧ NN0 s2.currentSectionPeak := by
    rcases l7 with ⟨-, ⟨s, -, -, hr⟩, hpk⟩ | ⟨-, hr, hpk⟩
    · have := rhythm_nn0 hr
      exact ⟨this, hpk ▸ NN0.fmax (NN0.goMul hst this) hcp⟩
    · rw [hr, hpk, k4, e2]
      exact ⟨hs.rhythm, NN0.fmax hst hcp⟩
  refine ⟨?_, ?_, hst, hrp.1, ?_, ?_⟩
  · show s2.strainDecayBase = _ ∨ s2.strainDecayBase = _
    rw [← l1.strainDecayBase]; exact hb1
  · show NN0 s2.skillMultiplier
    rw [← l1.skillMultiplier]; exact hm1
  · intro o ho
    rcases List.mem_append.mp ho with ho | ho
    · rw [l2] at ho; exact hp1 o ho
    · rw [List.mem_singleton.mp ho]; exact hc
  · intro x hx
    have hx : x ∈ s2.strainPeaks ++ [s2.currentSectionPeak] := hx
    rcases List.mem_append.mp hx with hx | hx
    · rw [l3] at hx
      exact hpk1 x (by simp [Skill.getCurrentStrainPeaks, hx])
    · rw [List.mem_singleton.mp hx]; exact hrp.2

end
end GosuPP

namespace GosuPP
open Go Go.Fl Spec
open GosuPP.Fl (NN0 Dn nn0_zero dn_lit atLeast_zero atLeast_dn)

theorem go_sqrt (x : F64) : GoFloat.sqrt x = Go.Fl.sqrt x := rfl

theorem nan_div (x : F64) : Go.Fl.div (Go.Fl.sqrt (.nan : F64)) x = .nan := by cases x <;> rfl

theorem rhythm_ge_one {S : Type} [GoLibm F64] {sk : Skill S F64} {current : DiffObject S F64} {v : F64}
    (h : Speed.rhythm sk current = .ok v) (hs : current.baseObject.obj.isSpinner = false) : AtLeast (lit 1) v := by
  unfold Speed.rhythm at h
  rw [hs] at h
  simp only [Bool.false_eq_true, if_false] at h
  obtain ⟨r, hr, h⟩ := bind_ok h
  rw [← Except.ok.inj h]
  have hr' : NN0 r.complexitySum := by
    refine rhythmLoop_nn0 ?_ ?_ hr
    · omega
    · exact nn0_zero
  have hm := NN0.goMul hr' (nn0_l 0.75 (by norm_num))
  generalize r.complexitySum *. lit 0.75 = x at hm ⊢
  rw [Fl.atLeast_iff]
  intro hn
  have e4 : (lit 4 : F64) = fin 4 false := by decide +kernel
  have e2 : (lit 2 : F64) = fin 2 false := by decide +kernel
  have hadd : NN (Go.Fl.add (lit 4) x) := by
    intro hc
    apply hn
    rw [go_div, go_sqrt, go_add, hc]
    exact nan_div _
  have hx : NN x := by
    rintro rfl
    exact hadd (Fl.add_nan _)
  have h4 : Go.Fl.le (fin 4 false) (Go.Fl.add (lit 4) x) = true := by
    have hz : Go.Fl.add (lit 4) (fin 0 false) = (fin 4 false : F64) := by decide +kernel
    rw [← hz]
    exact add_mono (Fl.le_refl (lit_nn 4)) (hm hx) (by rw [hz]; simp) hadd
  have h2 := sqrt_mono (f := fmt64) (by decide) (by rw [nonNeg_fin]; norm_num) h4
  rw [go_div, go_sqrt, go_add, e2]
  have := div_le_div_right h2 (v := 2) (by norm_num) false
  refine Fl.le_trans ?_ this
  decide +kernel

variable [GoLibm F64]

theorem createDifficultyObjects_signed (hl : LibmSigns) {d : Difficulty F64} {objs : List (Obj F32 F64)}
    {ds : List (DiffObject F32 F64)} (h : createDifficultyObjects objs d = .ok ds) : ∀ o ∈ ds, Signed o := by
  intro o ho
  obtain ⟨i, hi, rfl⟩ := List.getElem_of_mem ho
  obtain ⟨a, b, c, x, y, hx, hy, ha, hb, e⟩ := createDifficultyObjects_get h (List.getElem?_eq_getElem hi)
  have hd := newDiffObject_describes hl.root ha hb c
  rw [← e] at hd
  obtain ⟨-, -, -, -, t5⟩ := newDiffObject_times b c a d
  rw [← e] at t5
  have hz : Dn (lit 0 : F64) := dn_lit (le_refl 0)
  have times : Dn ds[i].travelTime ∧ Dn ds[i].movementTime := by
    by_cases hsp : x.isSpinner = true ∨ y.isSpinner = true
    · obtain ⟨-, -, -, q1, q2, -⟩ := hd.spinner hsp
      rw [q1, q2]; exact ⟨hz, hz⟩
    · push Not at hsp
      have hs1 : x.isSpinner = false := by simpa using hsp.1
      have hs2 : y.isSpinner = false := by simpa using hsp.2
      by_cases hsl : x.isSlider = true
      · obtain ⟨q1, q2⟩ := hd.slider hsl hs2
        exact ⟨atLeast_dn q1, atLeast_dn q2⟩
      · obtain ⟨q1, -, -, q2⟩ := hd.circle (by simpa using hsl) hs1 hs2
        rw [q1, q2]; exact ⟨hz, atLeast_dn hd.strainTime⟩
  refine ⟨hd.strainTime, ?_, atLeast_zero.mp hd.jump, atLeast_zero.mp hd.travel, atLeast_zero.mp hd.movement,
    times.1, times.2⟩
  rw [t5]
  exact fmax_wf div_wf (ofRat_wf _ _)

omit [GoLibm F64] in
theorem fresh_signed {S : Type} {d : Difficulty F64} {new : Skill S F64} (hn : new ∈ freshSkills d) : SkillSigned new := by
  have l : ∀ q : ℚ, 0 ≤ q → NN0 (lit q : F64) := fun q h => (dn_lit h).1
  unfold freshSkills at hn
  simp only [List.mem_cons, List.not_mem_nil, or_false] at hn
  rcases hn with rfl | rfl | rfl | rfl
  · exact ⟨.inl rfl, l _ (by norm_num), l _ (by norm_num), l _ (by norm_num),
      fun o ho => absurd ho (List.not_mem_nil (a := o)), fun x hx => by rw [List.mem_singleton.mp hx]; exact l _ (by norm_num)⟩
  · exact ⟨.inl rfl, l _ (by norm_num), l _ (by norm_num), l _ (by norm_num),
      fun o ho => absurd ho (List.not_mem_nil (a := o)), fun x hx => by rw [List.mem_singleton.mp hx]; exact l _ (by norm_num)⟩
  · exact ⟨.inr rfl, l _ (by norm_num), l _ (by norm_num), l _ (by norm_num),
      fun o ho => absurd ho (List.not_mem_nil (a := o)), fun x hx => by rw [List.mem_singleton.mp hx]; exact l _ (by norm_num)⟩
  · exact ⟨.inl rfl, l _ (by norm_num), l _ (by norm_num), l _ (by norm_num),
      fun o ho => absurd ho (List.not_mem_nil (a := o)), fun x hx => by rw [List.mem_singleton.mp hx]; exact l _ (by norm_num)⟩

theorem peakLoop_signed (hl : LibmSigns) {fuel : Nat} {ds : List (DiffObject F32 F64)} {sk sk' : PeakSkills F32 F64}
    (hd : ∀ o ∈ ds, Signed o) (h : peakLoop fuel ds sk = .ok sk') (h1 : SkillSigned sk.aim) (h2 : SkillSigned sk.speed)
    (h3 : ∀ f, sk.flashlight = some f → SkillSigned f) :
    SkillSigned sk'.aim ∧ SkillSigned sk'.speed ∧ ∀ f, sk'.flashlight = some f → SkillSigned f := by
  induction ds generalizing sk with
  | nil => cases h; exact ⟨h1, h2, h3⟩
  | cons o os ih =>
    rw [peakLoop] at h
    obtain ⟨a, ha, h⟩ := bind_ok h
    obtain ⟨s, hs, h⟩ := bind_ok h
    obtain ⟨f, hf, h⟩ := bind_ok h
    have ho := hd o (by simp)
    refine ih (fun o' ho' => hd o' (by simp [ho'])) h (skillSigned_process hl ho h1 ha) (skillSigned_process hl ho h2 hs) ?_
    intro g hg
    cases hfl : sk.flashlight with
    | none => rw [hfl] at hf; cases hf; cases hg
    | some f0 =>
      rw [hfl] at hf
      unfold SkillSet.processOpt at hf
      obtain ⟨f1, h5, hf⟩ := bind_ok hf
      cases hf
      cases hg
      exact skillSigned_process hl ho (h3 _ hfl) h5

end GosuPP
