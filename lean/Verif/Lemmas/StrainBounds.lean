import Verif.Lemmas.ObjBounds
import Verif.Lemmas.PeakGrowth
import Verif.Lemmas.StrainSigns

/-! Bounds of strain values. -/

namespace GosuPP
open Go Fl Spec
open GosuPP.Fl (NN0)

theorem In.fin {a b : ℚ} {x : F64} (h : In a b x) : Fl.Fin x := by
  obtain ⟨v, z, rfl, -, -⟩ := h
  exact ⟨v, z, rfl⟩

variable [GoLibm F64]

/-- Clamping any number. -/
theorem clamp_in {x lo hi : F64} {a b c d : ℚ} (hx : NN x) (hlo : In a b lo) (hhi : In c d hi) :
    In (min a c) d (fmin hi (fmax lo x)) := by
  obtain ⟨v, z, rfl, v1, v2⟩ := hlo
  obtain ⟨w, t, rfl, w1, w2⟩ := hhi
  obtain ⟨h1, -, h3⟩ := fmax_spec (f := fmt64) (x := fin v z) (y := x) (by simp [NN]) hx
  have hr : NN (fmax (fin v z) x) := by
    rcases h3 with e | e <;> rw [e]
    · simp [NN]
    · exact hx
  generalize fmax (fin v z) x = r at h1 hr
  obtain ⟨g1, -, g3⟩ := fmin_spec (f := fmt64) (x := fin w t) (y := r) (by simp [NN]) hr
  rcases g3 with e | e <;> rw [e] at g1 ⊢
  · exact ⟨w, t, rfl, (min_le_right _ _).trans w1, w2⟩
  · cases r with
    | nan => cases h1
    | inf s => cases s <;> [cases g1; cases h1]
    | fin u s =>
      have k1 : v ≤ u := by simpa [Fl.le] using h1
      have k2 : u ≤ w := by simpa [Fl.le] using g1
      exact ⟨u, s, rfl, (min_le_left _ _).trans (v1.trans k1), k2.trans w2⟩

theorem nice2 : Nice 2 := by exact nice_nat 2 (by norm_num)
theorem nice4 : Nice 4 := by exact nice_nat 4 (by norm_num)

theorem in_one : In 1 1 (lit 1 : F64) := in_lit nice_one nice_one le_rfl le_rfl

theorem In.abs {x : F64} {b : ℚ} (h : In (-b) b x) : In 0 b (GoFloat.abs x) := by
  obtain ⟨v, z, rfl, v1, v2⟩ := h
  exact ⟨|v|, false, rfl, abs_nonneg v, abs_le.mpr ⟨v1, v2⟩⟩

theorem In.eq_zero {x : F64} (h : In 0 0 x) : (x ==. lit 0) = true := by
  obtain ⟨v, z, rfl, v1, v2⟩ := h
  have : v = 0 := _root_.le_antisymm v2 v1
  subst this
  have e : (lit 0 : F64) = Go.Fl.fin 0 false := by decide +kernel
  rw [e]
  cases z <;> decide +kernel

theorem fmin_one_in {x : F64} {a b : ℚ} (h : In a b x) (ha : 0 ≤ a) : In 0 1 (fmin (lit 1) x) :=
  (in_one.fmin h).mono (le_min zero_le_one ha) (min_le_left _ _)

/-- Velocities are not negative and bounded. -/
theorem velocity_in {d : Difficulty F64} {ws : Bool} {cur prev : DiffObject F32 F64} (hc : ObjOk d cur) (hn : Next prev cur)
    (hs : cur.baseObject.obj.isSpinner = false) : In 0 (2 ^ 70) (Aim.velocity ws cur prev) := by
  have h1 : In 0 (2 ^ 30) (cur.jumpDistance /. cur.strainTime) :=
    hc.jump.div hc.strain le_rfl (by norm_num) (nice_pow 30 (by norm_num)) (by norm_num)
  unfold Aim.velocity
  simp only
  split
  · rename_i hcond
    rw [Bool.and_eq_true] at hcond
    obtain ⟨m1, m2⟩ := hn hcond.1 hs
    have h2 : In 0 (2 ^ 68) (cur.movementDistance /. cur.movementTime) :=
      hc.movement.div m1 le_rfl (by norm_num) (nice_pow 68 (by norm_num)) (by norm_num)
    have h3 : In 0 (2 ^ 68) (cur.travelDistance /. cur.travelTime) :=
      hc.travel.div m2 le_rfl (by norm_num) (nice_pow 68 (by norm_num)) (by norm_num)
    exact (h1.fmax (h2.addU h3 (by norm_num))).mono (by norm_num) (by norm_num)
  · exact h1.mono le_rfl (by norm_num)

theorem velocity_zero {d : Difficulty F64} {ws : Bool} {cur prev : DiffObject F32 F64} (hc : ObjOk d cur) (hn : Next prev cur)
    (hs : cur.baseObject.obj.isSpinner = false) (hj : In 0 0 cur.jumpDistance) (htr : In 0 0 cur.travelDistance) :
    In 0 0 (Aim.velocity ws cur prev) := by
  have h1 : In 0 0 (cur.jumpDistance /. cur.strainTime) := hj.div hc.strain le_rfl (by norm_num) nice_zero (by norm_num)
  unfold Aim.velocity
  simp only
  split
  · rename_i hcond
    rw [Bool.and_eq_true] at hcond
    obtain ⟨m1, m2⟩ := hn hcond.1 hs
    have h2 := (hc.movementGap hj).div m1 le_rfl (by norm_num) nice_zero (by norm_num)
    have h3 := htr.div m2 le_rfl (by norm_num) nice_zero (by norm_num)
    exact (h1.fmax (h2.add h3 nice_zero nice_zero (by norm_num) (by norm_num))).mono (by norm_num) (by norm_num)
  · exact h1

/-- The average velocity of an object, which is not tiny unless nothing moves. -/
theorem average_in {d : Difficulty F64} {o : DiffObject F32 F64} (h : ObjOk d o) :
    In 0 (2 ^ 69) ((o.jumpDistance +. o.travelDistance) /. o.strainTime) := by
  have h1 : In 0 (2 ^ 69) (o.jumpDistance +. o.travelDistance) :=
    h.jump.add h.travel nice_zero (nice_pow 69 (by norm_num)) (by norm_num) (by norm_num)
  exact h1.div h.strain le_rfl (by norm_num) (nice_pow 69 (by norm_num)) (by norm_num)

theorem average_gap {d : Difficulty F64} {o : DiffObject F32 F64} (h : ObjOk d o) :
    (In 0 0 o.jumpDistance ∧ In 0 0 o.travelDistance) ∨
    In (1 / 2 ^ 200) (2 ^ 69) ((o.jumpDistance +. o.travelDistance) /. o.strainTime) := by
  have key : In (1 / 2 ^ 149) (2 ^ 69) (o.jumpDistance +. o.travelDistance) →
      In (1 / 2 ^ 200) (2 ^ 69) ((o.jumpDistance +. o.travelDistance) /. o.strainTime) := by
    intro h1
    exact h1.div' h.strain (by norm_num) (by norm_num) (nice_neg_pow 200 (by norm_num)) (nice_pow 69 (by norm_num)) (by norm_num) (by norm_num)
  have n149 : Nice (1 / 2 ^ 149) := nice_neg_pow 149 (by norm_num)
  have n69 : Nice (2 ^ 69) := nice_pow 69 (by norm_num)
  rcases h.jumpGap with hj | hj
  · rcases h.travelGap with htr | htr
    · exact .inl ⟨hj, htr⟩
    · exact .inr (key (hj.add htr n149 n69 (by norm_num) (by norm_num)))
  · exact .inr (key (hj.add h.travel n149 n69 (by norm_num) (by norm_num)))

variable (hl : PowLaws) (ht : TrigLaws)
include hl ht

theorem sinsq {x : F64} (hx : Fl.Fin x) : In 0 1 (GoLibm.pow (GoLibm.sin x) (lit 2) : F64) := by
  have h := in_of_within (ht.sin x hx) nice_one.neg nice_one
  exact (pow_sq hl 0 (by norm_num) (h.mono (by norm_num) (by norm_num))).mono le_rfl (by norm_num)

theorem wide_in {a : F64} (h : NN a) : In 0 1 (calcWideAngleBonus a) := by
  unfold calcWideAngleBonus
  refine sinsq hl ht (In.fin (a := -1) (b := 4) ?_)
  have h1 : In 0 1 (lit (piConst / 6) : F64) := lit_unit (by norm_num [piConst]) (by norm_num [piConst])
  have h2 : In 0 4 (lit (5 / 6 * piConst) : F64) := in_lit nice_zero nice4 (by norm_num [piConst]) (by norm_num [piConst])
  have h3 := (clamp_in h h1 h2).sub h1 (a' := -1) (b' := 4) nice_one.neg nice4 (by norm_num) (by norm_num)
  exact (lit_unit (q := 0.75) (by norm_num) (by norm_num)).scale h3 le_rfl (by norm_num) (by norm_num) nice_one.neg nice4 (by norm_num) (by norm_num)

theorem acute_in {a : F64} (h : NN a) : In 0 1 (calcAcuteAngleBonus a) := one_sub_in (wide_in hl ht h)

omit ht in
theorem cube_in {x : F64} (h : In 0 1 x) : In 0 1 (GoLibm.pow x (lit 3) : F64) :=
  pow_unit hl h (in_lit (q := 3) (a := 0) (b := 4) nice_zero nice4 (by norm_num) (by norm_num))

omit hl ht in
theorem halfPi_in : In 0 2 (halfPi : F64) := in_lit nice_zero nice2 (by norm_num [piConst]) (by norm_num [piConst])

theorem angleBonuses_by {d : Difficulty F64} {cur last ll : DiffObject F32 F64} (hc : ObjOk d cur) {v w : F64} {b : ℚ} (hb : Nice b) (h0 : 0 ≤ b)
    (hm : In 0 b (fmin v w)) :
    In 0 b (Aim.angleBonuses cur last ll v w).1 ∧ In 0 b (Aim.angleBonuses cur last ll v w).2 := by
  have z : In 0 b (lit 0 : F64) := in_zero.mono le_rfl h0
  have one : ∀ {x y : F64}, In 0 b x → In 0 1 y → In 0 b (x *. y) := fun hx hy =>
    hx.mul hy le_rfl le_rfl nice_zero hb (by norm_num) (by rw [mul_one])
  have nn : ∀ x : F64, (!GoFloat.isNaN x) = true → NN x := by
    intro x hx
    cases x <;> simp_all [NN, go_isNaN, Fl.isNaN]
  unfold Aim.angleBonuses
  split
  · split
    · rename_i hcond
      rw [Bool.and_eq_true, Bool.and_eq_true] at hcond
      have a1 := nn _ hcond.1.1
      have a2 := nn _ hcond.1.2
      have a3 := nn _ hcond.2
      simp only
      have hw' : In 0 b (calcWideAngleBonus cur.angle *. (fmin v w *. (lit 1 -. fmin (calcWideAngleBonus cur.angle)
          (GoLibm.pow (calcWideAngleBonus last.angle) (lit 3))))) := by
        have h1 := wide_in hl ht a1
        have h2 := (h1.fmin (cube_in hl (wide_in hl ht a2))).mono (a' := 0) (b' := 1) (by norm_num) (by norm_num)
        have h3 := one hm (one_sub_in h2)
        exact (h1.mul h3 le_rfl le_rfl nice_zero hb (by norm_num) (by rw [one_mul]))
      have hf : ∀ a : F64, In 0 b a → In 0 1 (lit 0.5 +. lit 0.5 *. (lit 1 -. fmin a (GoLibm.pow (calcAcuteAngleBonus ll.angle) (lit 3)))) := by
        intro a ha
        have h1 := (ha.fmin (cube_in hl (acute_in hl ht a3))).mono (a' := 0) (b' := 1) (by norm_num) (min_le_right _ _)
        have h5 : In (1 / 2) (1 / 2) (lit 0.5 : F64) := in_lit nice_half nice_half (by norm_num) (by norm_num)
        have h2 := h5.mul (one_sub_in h1) (by norm_num) le_rfl (a' := 0) (b' := 1 / 2) nice_zero nice_half (by norm_num) (by norm_num)
        exact h5.add h2 nice_zero nice_one (by norm_num) (by norm_num)
      split
      · exact ⟨hw', one z (hf _ z)⟩
      · rename_i h100
        have hq : In 0 b (calcAcuteAngleBonus cur.angle *. (calcAcuteAngleBonus last.angle *.
            fmin (fmin v w) (lit 125 /. cur.strainTime) *.
            GoLibm.pow (GoLibm.sin (halfPi *. fmin (lit 1) ((lit 100 -. cur.strainTime) /. lit 25))) (lit 2) *.
            GoLibm.pow (GoLibm.sin (halfPi *. (clampF64 cur.jumpDistance (lit 50) (lit 100) -. lit 50)
              /. lit 50)) (lit 2))) := by
          have n128 : Nice 128 := by exact nice_nat 128 (by norm_num)
          have h125 : In 0 128 (lit 125 /. cur.strainTime) :=
            (in_lit (q := 125) (a := 0) (b := 128) nice_zero n128 (by norm_num) (by norm_num)).div hc.strain le_rfl (by norm_num) n128 (by norm_num)
          have hmn := (hm.fmin h125).mono (a' := 0) (b' := b) (by norm_num) (min_le_left _ _)
          have s1 : In 0 1 (GoLibm.pow (GoLibm.sin (halfPi *. fmin (lit 1) ((lit 100 -. cur.strainTime) /. lit 25))) (lit 2) : F64) := by
            refine sinsq hl ht (In.fin (a := -(2 ^ 60)) (b := 2 ^ 60) ?_)
            have n52 : Nice (2 ^ 52) := nice_pow 52 (by norm_num)
            have b1 : In (-2 ^ 52) (2 ^ 52) (lit 100 -. cur.strainTime) :=
              (in_lit (q := 100) (a := 0) (b := 128) nice_zero n128 (by norm_num) (by norm_num)).sub hc.strain n52.neg n52 (by norm_num) (by norm_num)
            have b2 := b1.divS lit25 (by norm_num) n52 (by norm_num)
            have b3 := (in_one.fmin b2).mono (a' := -2 ^ 52) (b' := 2 ^ 52) (by norm_num) (by norm_num)
            have n60 : Nice (2 ^ 60) := nice_pow 60 (by norm_num)
            exact halfPi_in.scale b3 le_rfl (by norm_num) (by norm_num) n60.neg n60 (by norm_num) (by norm_num)
          have s2 : In 0 1 (GoLibm.pow (GoLibm.sin (halfPi *. (clampF64 cur.jumpDistance (lit 50) (lit 100) -. lit 50)
              /. lit 50)) (lit 2) : F64) := by
            refine sinsq hl ht (In.fin (a := -(2 ^ 10)) (b := 2 ^ 10) ?_)
            have n10 : Nice (2 ^ 10) := nice_pow 10 (by norm_num)
            have l50 : In 1 64 (lit 50 : F64) := in_lit nice_one (by exact nice_nat 64 (by norm_num)) (by norm_num) (by norm_num)
            have b1 : In 0 128 (clampF64 cur.jumpDistance (lit 50) (lit 100)) :=
              (clamp_in hc.jump.nn l50 (in_lit (q := 100) (a := 0) (b := 128) nice_zero n128 (by norm_num) (by norm_num))).mono (by norm_num) le_rfl
            have b2 : In (-2 ^ 7) (2 ^ 7) (clampF64 cur.jumpDistance (lit 50) (lit 100) -. lit 50) :=
              b1.sub l50 (by exact (nice_pow 7 (by norm_num)).neg) (nice_pow 7 (by norm_num)) (by norm_num) (by norm_num)
            have b3 := halfPi_in.scale b2 le_rfl (by norm_num) (by norm_num) n10.neg n10 (by norm_num) (by norm_num)
            exact b3.divS l50 (by norm_num) n10 (by norm_num)
          have k1 := (acute_in hl ht a2).mul hmn le_rfl le_rfl nice_zero hb (by norm_num) (by rw [one_mul])
          have k2 := one (one k1 s1) s2
          exact (acute_in hl ht a1).mul k2 le_rfl le_rfl nice_zero hb (by norm_num) (by rw [one_mul])
        exact ⟨hw', one hq (hf _ hq)⟩
    · exact ⟨z, z⟩
  · exact ⟨z, z⟩

theorem angleBonuses_in {d : Difficulty F64} {cur last ll : DiffObject F32 F64} (hc : ObjOk d cur) {v w : F64}
    (hv : In 0 (2 ^ 70) v) (hw : In 0 (2 ^ 70) w) :
    In 0 (2 ^ 70) (Aim.angleBonuses cur last ll v w).1 ∧ In 0 (2 ^ 70) (Aim.angleBonuses cur last ll v w).2 :=
  angleBonuses_by hl ht hc (nice_pow 70 (by norm_num)) (by norm_num) ((hv.fmin hw).mono (by norm_num) (by norm_num))

theorem velocityChange_in {d : Difficulty F64} {ws : Bool} {cur last ll : DiffObject F32 F64} (hc : ObjOk d cur)
    (hla : ObjOk d last) (n1 : Next last cur) (n2 : Next ll last) (s1 : cur.baseObject.obj.isSpinner = false)
    (s2 : last.baseObject.obj.isSpinner = false) :
    In 0 (2 ^ 70) (Aim.velocityChangeBonus cur last (Aim.velocity ws cur last) (Aim.velocity ws last ll)) := by
  unfold Aim.velocityChangeBonus
  split
  · rename_i hne
    simp only
    have n69 : Nice (2 ^ 69) := nice_pow 69 (by norm_num)
    have n70 : Nice (2 ^ 70) := nice_pow 70 (by norm_num)
    have hcv := average_in hc
    have hpv := average_in hla
    have hmax : In (1 / 2 ^ 200) (2 ^ 69) (fmax ((last.jumpDistance +. last.travelDistance) /. last.strainTime)
        ((cur.jumpDistance +. cur.travelDistance) /. cur.strainTime)) := by
      rcases average_gap hc with ⟨j1, j2⟩ | h1
      · rcases average_gap hla with ⟨k1, k2⟩ | h2
        · exfalso
          have e1 := velocity_zero (ws := ws) hc n1 s1 j1 j2
          have e2 := velocity_zero (ws := ws) hla n2 s2 k1 k2
          have e3 := ((e2.fmax e1).mono (a' := 0) (b' := 0) (by norm_num) (by norm_num)).eq_zero
          rw [e3] at hne
          cases hne
        · exact (h2.fmax hcv).mono (by norm_num) (by norm_num)
      · exact (hpv.fmax h1).mono (by norm_num) (by norm_num)
    generalize (last.jumpDistance +. last.travelDistance) /. last.strainTime = p at hpv hmax
    generalize (cur.jumpDistance +. cur.travelDistance) /. cur.strainTime = c at hcv hmax
    have habs : In 0 (2 ^ 69) (GoFloat.abs (p -. c)) :=
      In.abs (hpv.sub hcv n69.neg n69 (by norm_num) (by norm_num))
    have hratio : In 0 1 (GoLibm.pow (GoLibm.sin (halfPi *. GoFloat.abs (p -. c) /. fmax p c)) (lit 2) : F64) := by
      refine sinsq hl ht (In.fin (a := 0) (b := 2 ^ 270) ?_)
      have b1 := halfPi_in.mul habs le_rfl le_rfl nice_zero n70 (by norm_num) (by norm_num)
      exact b1.div hmax le_rfl (by norm_num) (nice_pow 270 (by norm_num)) (by rw [div_div_eq_mul_div, div_one, ← pow_add])
    have hst : In 25 (2 ^ 51) (fmin cur.strainTime last.strainTime) := (hc.strain.fmin hla.strain).mono (by norm_num) (by norm_num)
    have hst' : In 25 (2 ^ 51) (fmax cur.strainTime last.strainTime) := (hc.strain.fmax hla.strain).mono (by norm_num) (by norm_num)
    have n128 : Nice 128 := by exact nice_nat 128 (by norm_num)
    have h125 : In 0 128 (lit 125 /. fmin cur.strainTime last.strainTime) :=
      (in_lit (q := 125) (a := 0) (b := 128) nice_zero n128 (by norm_num) (by norm_num)).div hst le_rfl (by norm_num) n128 (by norm_num)
    have hover : In 0 (2 ^ 69) (fmin (lit 125 /. fmin cur.strainTime last.strainTime) (GoFloat.abs (p -. c))) :=
      (h125.fmin habs).mono (by norm_num) (by norm_num)
    have hs2 : In 0 1 (GoLibm.pow (GoLibm.sin (halfPi *. fmin (lit 1) (fmin cur.jumpDistance last.jumpDistance /. lit 100))) (lit 2) : F64) := by
      refine sinsq hl ht (In.fin (a := 0) (b := 2) ?_)
      have b1 : In 0 (2 ^ 30) (fmin cur.jumpDistance last.jumpDistance) := (hc.jump.fmin hla.jump).mono (by norm_num) (by norm_num)
      have b2 := b1.div (in_lit (q := 100) (a := 1) (b := 128) nice_one n128 (by norm_num) (by norm_num)) le_rfl (by norm_num)
        (nice_pow 30 (by norm_num)) (by norm_num)
      exact halfPi_in.mul (fmin_one_in b2 le_rfl) le_rfl le_rfl nice_zero nice2 (by norm_num) (by norm_num)
    have hle : (fmin cur.strainTime last.strainTime <=. fmax cur.strainTime last.strainTime) = true :=
      le_trans (fmin_spec (f := fmt64) hc.strain.nn hla.strain.nn).1 (fmax_spec (f := fmt64) hc.strain.nn hla.strain.nn).1
    have hr1 : In 0 1 (fmin cur.strainTime last.strainTime /. fmax cur.strainTime last.strainTime) :=
      (hst.mono (a' := 0) (b' := 2 ^ 51) (by norm_num) le_rfl).div_le hst' (by norm_num) hle
    have hr2 : In 0 1 (GoLibm.pow (fmin cur.strainTime last.strainTime /. fmax cur.strainTime last.strainTime) (lit 2) : F64) :=
      pow_unit hl hr1 (in_lit (q := 2) (a := 0) (b := 2) nice_zero nice2 (by norm_num) le_rfl)
    have hmx := (hover.fmax (habs.mul1 hs2 (by norm_num))).mono (a' := 0) (b' := 2 ^ 70) (by norm_num) (by norm_num)
    exact (hmx.mul1 hratio (by norm_num)).mul1 hr2 (by norm_num)
  · exact in_zero.mono le_rfl (by norm_num)

theorem aimStrain_in {d : Difficulty F64} {ws : Bool} {cur last ll : DiffObject F32 F64} (hc : ObjOk d cur)
    (hla : ObjOk d last) (n1 : Next last cur) (n2 : Next ll last) (s1 : cur.baseObject.obj.isSpinner = false)
    (s2 : last.baseObject.obj.isSpinner = false) : In 0 (2 ^ 74) (Aim.strain ws cur last ll) := by
  have hv := velocity_in (ws := ws) hc n1 s1
  have hw := velocity_in (ws := ws) hla n2 s2
  obtain ⟨a1, a2⟩ := angleBonuses_in (last := last) (ll := ll) hl ht hc hv hw
  have hch := velocityChange_in (ws := ws) hl ht hc hla n1 n2 s1 s2
  have hs : In 0 (2 ^ 68) (if !(cur.travelTime ==. lit 0) then cur.travelDistance /. cur.travelTime else (lit 0 : F64)) := by
    rcases hc.travelTime with h | h
    · rw [h.eq_zero]
      exact in_zero.mono le_rfl (by norm_num)
    · split
      · exact hc.travel.div h le_rfl (by norm_num) (nice_pow 68 (by norm_num)) (by norm_num)
      · exact in_zero.mono le_rfl (by norm_num)
  have l2 : In 0 2 (lit 2 : F64) := in_lit nice_zero nice2 (by norm_num) (by norm_num)
  have l15 : In 0 2 (lit 1.5 : F64) := in_lit nice_zero nice2 (by norm_num) (by norm_num)
  have l75 : In 0 1 (lit 0.75 : F64) := lit_unit (by norm_num) (by norm_num)
  have n71 : Nice (2 ^ 71) := nice_pow 71 (by norm_num)
  have n72 : Nice (2 ^ 72) := nice_pow 72 (by norm_num)
  have n73 : Nice (2 ^ 73) := nice_pow 73 (by norm_num)
  have n74 : Nice (2 ^ 74) := nice_pow 74 (by norm_num)
  unfold Aim.strain
  simp only
  have b1 := a2.mul l2 le_rfl le_rfl nice_zero n71 (by norm_num) (by norm_num)
  have b2 := (a1.mul l15 le_rfl le_rfl nice_zero n71 (by norm_num) (by norm_num)).add (hch.mul1 l75 (by norm_num)) nice_zero n72
    (by norm_num) (by norm_num)
  have b3 := hv.add (b1.fmax b2) nice_zero n73 (by norm_num) (by norm_num)
  split
  · exact b3.add (hs.mul l15 le_rfl le_rfl nice_zero n71 (by norm_num) (by norm_num)) nice_zero n74 (by norm_num) (by norm_num)
  · exact b3.mono le_rfl (by norm_num)

/-- An object that the cursor reaches without moving. -/
def Still (o : DiffObject F32 F64) : Prop := In 0 0 o.jumpDistance ∧ In 0 0 o.travelDistance

theorem aimStrain_zero {d : Difficulty F64} {ws : Bool} {cur last ll : DiffObject F32 F64} (hc : ObjOk d cur)
    (hla : ObjOk d last) (n1 : Next last cur) (n2 : Next ll last) (s1 : cur.baseObject.obj.isSpinner = false)
    (s2 : last.baseObject.obj.isSpinner = false) (z1 : Still cur) (z2 : Still last) : In 0 0 (Aim.strain ws cur last ll) := by
  have hv := velocity_zero (ws := ws) hc n1 s1 z1.1 z1.2
  have hw := velocity_zero (ws := ws) hla n2 s2 z2.1 z2.2
  obtain ⟨a1, a2⟩ := angleBonuses_by (last := last) (ll := ll) hl ht hc nice_zero le_rfl ((hv.fmin hw).mono (a' := 0) (b' := 0) (by norm_num) (by norm_num))
  have hch : In 0 0 (Aim.velocityChangeBonus cur last (Aim.velocity ws cur last) (Aim.velocity ws last ll)) := by
    unfold Aim.velocityChangeBonus
    rw [((hw.fmax hv).mono (a' := 0) (b' := 0) (by norm_num) (by norm_num)).eq_zero]
    exact in_zero
  have hs : In 0 0 (if !(cur.travelTime ==. lit 0) then cur.travelDistance /. cur.travelTime else (lit 0 : F64)) := by
    rcases hc.travelTime with h | h
    · rw [h.eq_zero]
      exact in_zero
    · split
      · exact z1.2.div h le_rfl (by norm_num) nice_zero (by norm_num)
      · exact in_zero
  have mz : ∀ {x y : F64} {b : ℚ}, In 0 0 x → In 0 b y → In 0 0 (x *. y) := fun hx hy =>
    hx.mul hy le_rfl le_rfl nice_zero nice_zero (by norm_num) (by norm_num)
  have az : ∀ {x y : F64}, In 0 0 x → In 0 0 y → In 0 0 (x +. y) := fun hx hy => hx.add hy nice_zero nice_zero (by norm_num) (by norm_num)
  have l2 : In 0 2 (lit 2 : F64) := in_lit nice_zero nice2 (by norm_num) (by norm_num)
  have l15 : In 0 2 (lit 1.5 : F64) := in_lit nice_zero nice2 (by norm_num) (by norm_num)
  have l75 : In 0 1 (lit 0.75 : F64) := lit_unit (by norm_num) (by norm_num)
  unfold Aim.strain
  simp only
  have b3 := az hv (((mz a2 l2).fmax (az (mz a1 l15) (mz hch l75))).mono (a' := 0) (b' := 0) (by norm_num) (by norm_num))
  split
  · exact az b3 (mz hs l15)
  · exact b3

end GosuPP
