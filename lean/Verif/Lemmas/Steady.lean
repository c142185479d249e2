import Verif.Lemmas.Strain
import Verif.Lemmas.DiffObjects
import Verif.Spec.Steady

/-! Steady maps: every object has the same values. -/

namespace GosuPP.Exactly
open Go Spec
attribute [local instance] exactLibm

/-- A difficulty object of a steady map. -/
structure Even (T J δ : ℝ) (o : DiffObject (Option ℝ) (Option ℝ)) : Prop where
  spinner : o.baseObject.obj.isSpinner = false
  lazy : o.baseObject.lazy = none
  strainTime : o.strainTime = some T
  deltaTime : o.deltaTime = some δ
  jump : o.jumpDistance = some J
  travel : o.travelDistance = some 0
  travelTime : o.travelTime = some 0

theorem derefPrevious_mem {sk : Skill (Option ℝ) (Option ℝ)} {i : ℕ} {o : DiffObject (Option ℝ) (Option ℝ)}
    (h : sk.derefPrevious i = .ok o) : o ∈ sk.previous := by
  unfold Skill.derefPrevious at h
  split at h
  · rename_i o' ho
    cases h
    unfold Skill.getPrevious at ho
    exact List.mem_reverse.mp (List.mem_of_getElem? ho)
  · cases h

section Speed
variable {T J δ w r : ℝ}

theorem speed_value (hT : 25 ≤ T) (hw : 0 < w) (hr : 0 < r) {sk : Skill (Option ℝ) (Option ℝ)}
    {c : DiffObject (Option ℝ) (Option ℝ)} (hc : Even T J δ c) (hp : ∀ o ∈ sk.previous, Even T J δ o)
    (h3 : sk.diff.hit300 = some w) (hs : sk.diff.speed = some r) :
    Speed.strainValue sk c = some (speedValue T J (2 * w / r)) := by
  have hW : 0 < 2 * w / r := by positivity
  have hm : 0 < min 1 (max 0.92 (T / (2 * w / r) / 0.93)) := by
    rw [lt_min_iff]
    exact ⟨by norm_num, lt_max_of_lt_left (by norm_num)⟩
  have hT' : 0 < doubletapTime T (2 * w / r) := div_pos (by linarith) hm
  have e1 : some w /. some r *. lit 2 = some (2 * w / r) := by
    rw [Exact.div _ hr.ne', Exact.lit, Exact.mul]
    congr 1; push_cast; ring
  have e2 : some T /. clampF64 ((some T /. some (2 * w / r)) /. lit 0.93) (lit 0.92) (lit 1) =
      some (doubletapTime T (2 * w / r)) := by
    rw [Exact.div _ hW.ne', Exact.lit, Exact.div _ (by norm_num), Exact.lit, Exact.lit, Exact.clamp]
    have : min ((1 : ℚ) : ℝ) (max ((0.92 : ℚ) : ℝ) (T / (2 * w / r) / ((0.93 : ℚ) : ℝ))) =
        min 1 (max 0.92 (T / (2 * w / r) / 0.93)) := by norm_num
    rw [this, Exact.div _ hm.ne']
    rfl
  have irr : ((some T : Option ℝ) <. some T) = false := by
    rw [Exact.lt, decide_eq_false (lt_irrefl T)]
  have e2' : some T /. clampF64 (some (T / (2 * w / r)) /. lit 0.93) (lit 0.92) (lit 1) =
      some (doubletapTime T (2 * w / r)) := by rw [← e2, Exact.div T hW.ne']
  have red : Speed.strainValue sk c =
      ((if some (doubletapTime T (2 * w / r)) <. lit 75 then
          lit 1 +. lit 0.75 *. GoLibm.pow ((lit 75 -. some (doubletapTime T (2 * w / r))) /. lit 40) (lit 2) else lit 1) +.
        (if some (doubletapTime T (2 * w / r)) <. lit 75 then
          lit 1 +. lit 0.75 *. GoLibm.pow ((lit 75 -. some (doubletapTime T (2 * w / r))) /. lit 40) (lit 2) else lit 1) *.
          GoLibm.pow (fmin (lit 125) (some J) /. lit 125) (lit 3.5)) /. some (doubletapTime T (2 * w / r)) := by
    unfold Speed.strainValue
    rw [if_neg (by rw [hc.spinner]; simp)]
    rcases hg : sk.getPrevious 0 with _ | o
    · simp only [hc.strainTime, hc.travel, hc.jump, h3, hs, e1, Exact.div T hW.ne', e2', Exact.add, zero_add]
    · have hm : o ∈ sk.previous := by
        unfold Skill.getPrevious at hg
        exact List.mem_reverse.mp (List.mem_of_getElem? hg)
      simp only [hc.strainTime, (hp o hm).strainTime, hc.travel, hc.jump, h3, hs, e1, irr, Bool.and_false,
        Bool.false_eq_true, if_false, Exact.div T hW.ne', e2', Exact.add, zero_add]
  rw [red]
  have e3 : fmin (lit 125) (some J) = some (min 125 J) := by
    rw [Exact.lit, Exact.fmin]; norm_num
  have e4 : GoLibm.pow (some (min 125 J) /. lit 125) (lit 3.5) = some ((min 125 J / 125) ^ (3.5 : ℝ)) := by
    rw [Exact.lit, Exact.lit, Exact.div _ (by norm_num), Exact.pow]; norm_num
  rw [e3, e4]
  generalize hg : doubletapTime T (2 * w / r) = T' at *
  unfold speedValue
  simp only [hg]
  by_cases h75 : T' < 75
  · rw [if_pos (by rw [Exact.lit, Exact.lt]; simpa using h75), if_pos h75]
    have e5 : lit 1 +. lit 0.75 *. GoLibm.pow ((lit 75 -. some T') /. lit 40) (lit 2) =
        some (1 + 0.75 * ((75 - T') / 40) ^ 2) := by
      rw [Exact.lit 75, Exact.sub, Exact.lit 40, Exact.div _ (by norm_num), Exact.lit 2, Exact.pow, Exact.lit 0.75, Exact.mul,
        Exact.lit, Exact.add]
      congr 1
      push_cast
      rw [Real.rpow_two]
    rw [e5, Exact.mul, Exact.add, Exact.div _ hT'.ne']
    congr 1; ring
  · rw [if_neg (by rw [Exact.lit, Exact.lt]; simpa using h75), if_neg h75]
    rw [Exact.lit, Exact.mul, Exact.add, Exact.div _ hT'.ne']
    congr 1; push_cast; ring

theorem rhythm_even (hT : 0 < T) {sk : Skill (Option ℝ) (Option ℝ)}
    {c : DiffObject (Option ℝ) (Option ℝ)} (hc : Even T J δ c) (hp : ∀ o ∈ sk.previous, Even T J δ o) :
    Speed.rhythm sk c = .ok (some 1) := by
  obtain ⟨v, hv⟩ := GosuPP.rhythm_ok sk c
  have loop : ∀ (g : Option ℝ) (n : ℕ) (x x' : Speed.Rhythm (Option ℝ)), x.firstDeltaSwitch = false →
      Speed.rhythmLoop g sk c n x = .ok x' → x' = x := by
    intro g n
    induction n with
    | zero => intro x x' _ h; cases h; rfl
    | succ n ih =>
      intro x x' hx h
      unfold Speed.rhythmLoop at h
      obtain ⟨a, ha, h⟩ := bind_ok h
      obtain ⟨b, hb, h⟩ := bind_ok h
      obtain ⟨d, hd, h⟩ := bind_ok h
      have hstep : Speed.rhythmStep g sk.previous.length (n + 1) c a b d x = x := by
        unfold Speed.rhythmStep
        simp only [hx, (hp a (derefPrevious_mem ha)).strainTime, (hp b (derefPrevious_mem hb)).strainTime, Exact.lit,
          Exact.mul, Exact.lt]
        have : ¬ ((1.25 : ℚ) : ℝ) * T < T := by
          push_cast; norm_num; linarith
        rw [decide_eq_false this]
        split <;> simp
      rw [hstep] at h
      exact ih x x' hx h
  rw [hv]
  unfold Speed.rhythm at hv
  rw [if_neg (by rw [hc.spinner]; simp)] at hv
  simp only at hv
  obtain ⟨x, hx, hv⟩ := bind_ok hv
  have := loop _ _ _ _ rfl hx
  subst this
  cases hv
  simp only [Exact.lit, Exact.mul, Exact.add]
  have h4 : Real.sqrt 4 = 2 := by
    rw [show (4 : ℝ) = 2 ^ 2 by norm_num, Real.sqrt_sq (by norm_num)]
  rw [show ((4 : ℚ) : ℝ) + ((0 : ℚ) : ℝ) * ((0.75 : ℚ) : ℝ) = 4 by norm_num, Exact.sqrt (by norm_num), h4,
    Exact.div _ (by norm_num)]
  norm_num

end Speed

section Aim
variable {T J δ : ℝ}

theorem wide_zero : calcWideAngleBonus (some 0 : Option ℝ) = some 0 := by
  unfold calcWideAngleBonus
  have hpi : (0 : ℝ) < ((piConst / 6 : ℚ) : ℝ) := by
    have : (0 : ℚ) < piConst / 6 := by unfold piConst; norm_num
    exact_mod_cast this
  have hle : ((piConst / 6 : ℚ) : ℝ) ≤ ((5 / 6 * piConst : ℚ) : ℝ) := by
    have : (piConst / 6 : ℚ) ≤ 5 / 6 * piConst := by unfold piConst; norm_num
    exact_mod_cast this
  rw [Exact.lit, Exact.lit, Exact.lit, Exact.lit, Exact.fmax, max_eq_left hpi.le, Exact.fmin, min_eq_right hle, Exact.sub,
    sub_self, Exact.mul, mul_zero, Exact.sin, Real.sin_zero, Exact.pow]
  norm_num

theorem acute_zero : calcAcuteAngleBonus (some 0 : Option ℝ) = some 1 := by
  unfold calcAcuteAngleBonus
  rw [wide_zero, Exact.lit, Exact.sub]
  norm_num

theorem halfPi_some : (halfPi : Option ℝ) = some ((piConst / 2 : ℚ) : ℝ) := rfl

theorem aim_velocity (hT : 25 ≤ T) (b : Bool) {c p : DiffObject (Option ℝ) (Option ℝ)} (hc : Even T J δ c) (hp : Even T J δ p) :
    Aim.velocity b c p = some (J / T) := by
  unfold Aim.velocity
  simp only [hp.lazy, hc.jump, hc.strainTime, Option.isSome_none, Bool.false_and, Bool.false_eq_true, if_false]
  rw [Exact.div _ (by linarith : (0:ℝ) < T).ne']

theorem aim_angles (hT : 100 ≤ T) {c l ll : DiffObject (Option ℝ) (Option ℝ)} (hc : Even T J δ c) (hl : Even T J δ l)
    (ac : c.angle = none ∨ c.angle = some 0) (al : l.angle = none ∨ l.angle = some 0)
    (all : ll.angle = none ∨ ll.angle = some 0) (v : ℝ) :
    Aim.angleBonuses c l ll (some v) (some v) = (some 0, some 0) := by
  unfold Aim.angleBonuses
  split
  · split
    · rename_i hn
      have hn' : c.angle = some 0 ∧ l.angle = some 0 ∧ ll.angle = some 0 := by
        refine ⟨ac.resolve_left ?_, al.resolve_left ?_, all.resolve_left ?_⟩ <;> intro e <;> rw [e] at hn <;>
          simp [GoFloat.isNaN] at hn
      simp only [hn'.1, hn'.2.1, hn'.2.2, wide_zero, acute_zero, hc.strainTime, hc.jump]
      have e2 : (if (some T : Option ℝ) >. lit 100 then (lit 0 : Option ℝ)
          else some 1 *. (some 1 *. fmin (fmin (some v) (some v)) (lit 125 /. some T) *.
          GoLibm.pow (GoLibm.sin (halfPi *. fmin (lit 1) ((lit 100 -. some T) /. lit 25))) (lit 2) *.
          GoLibm.pow (GoLibm.sin (halfPi *. (clampF64 (some J) (lit 50) (lit 100) -. lit 50)
            /. lit 50)) (lit 2))) = some 0 := by
        split
        · rw [Exact.lit]; norm_num
        · rename_i hgt
          rw [Exact.lit, Exact.lt] at hgt
          have hT' : T = 100 := by
            have : ¬ (100 : ℝ) < T := by simpa using hgt
            linarith
          subst hT'
          simp only [Exact.lit, halfPi_some, Exact.fmin, Exact.clamp, Exact.sub, Exact.mul]
          rw [Exact.div _ (by norm_num), Exact.div _ (by norm_num), Exact.div _ (by norm_num)]
          simp only [Exact.fmin, Exact.mul, Exact.sin, Exact.pow]
          norm_num
      rw [e2]
      simp only [Exact.lit, Exact.pow, Exact.fmin, Exact.sub, Exact.mul, Exact.add, zero_mul]
    · rw [Exact.lit]; norm_num
  · rw [Exact.lit]; norm_num

theorem aim_change (hT : 25 ≤ T) (hJ : 0 ≤ J) {c l : DiffObject (Option ℝ) (Option ℝ)} (hc : Even T J δ c) (hl : Even T J δ l) :
    Aim.velocityChangeBonus c l (some (J / T)) (some (J / T)) = some 0 := by
  have hT0 : (0 : ℝ) < T := by linarith
  unfold Aim.velocityChangeBonus
  split
  · rename_i h0
    rw [Exact.fmax, max_self, Exact.lit, Exact.eq] at h0
    have hJ0 : J / T ≠ 0 := by simpa using h0
    simp only [hc.jump, hl.jump, hc.travel, hl.travel, hc.strainTime, hl.strainTime, Exact.add, add_zero, Exact.div _ hT0.ne',
      Exact.sub, sub_self, Exact.abs, abs_zero, halfPi_some, Exact.lit, Exact.fmin, Exact.fmax, Exact.mul, max_self, min_self]
    rw [Exact.div _ hJ0, Exact.div _ (by norm_num)]
    simp only [Exact.fmin, Exact.mul, Exact.sin, Exact.pow, Exact.fmax]
    norm_num
  · rw [Exact.lit]; norm_num

/-- Jumps back and forth. -/
theorem aim_strain (hT : 100 ≤ T) (hJ : 0 ≤ J) (b : Bool) {c l ll : DiffObject (Option ℝ) (Option ℝ)} (hc : Even T J δ c) (hl : Even T J δ l)
    (hll : Even T J δ ll) (ac : c.angle = none ∨ c.angle = some 0) (al : l.angle = none ∨ l.angle = some 0)
    (all : ll.angle = none ∨ ll.angle = some 0) :
    Aim.strain b c l ll = some (J / T) := by
  unfold Aim.strain
  simp only [aim_velocity (by linarith : 25 ≤ T) b hc hl, aim_velocity (by linarith : 25 ≤ T) b hl hll,
    aim_angles hT hc hl ac al all, aim_change (by linarith : 25 ≤ T) hJ hc hl, hc.travelTime, hc.travel, Exact.lit, Exact.eq, Exact.mul,
    Exact.fmax, Exact.add, zero_mul, add_zero, max_self]
  cases b <;> norm_num [Exact.mul, Exact.add]

theorem aim_value (hT : 100 ≤ T) (hJ : 0 ≤ J) (b : Bool) {sk : Skill (Option ℝ) (Option ℝ)} {c : DiffObject (Option ℝ) (Option ℝ)}
    (hc : Even T J δ c) (hp : ∀ o ∈ sk.previous, Even T J δ o) (ac : c.angle = none ∨ c.angle = some 0)
    (ap : ∀ o ∈ sk.previous, o.angle = none ∨ o.angle = some 0) :
    Aim.strainValue b sk c = .ok (some (if sk.previous.length ≤ 1 then 0 else J / T)) := by
  unfold Aim.strainValue
  simp only [hc.spinner, Bool.false_or, decide_eq_true_eq]
  split
  · show Except.ok (lit 0) = _
    rw [Exact.lit]; norm_num
  · rename_i hlen
    obtain ⟨l, hl⟩ := Skill.derefPrevious_ok sk (i := 0) (by omega)
    obtain ⟨ll, hll⟩ := Skill.derefPrevious_ok sk (i := 1) (by omega)
    have ml := derefPrevious_mem hl
    have mll := derefPrevious_mem hll
    simp only [hl, hll, ok_bind, (hp l ml).spinner, Bool.false_eq_true, if_false]
    rw [aim_strain hT hJ b hc (hp l ml) (hp ll mll) ac (ap l ml) (ap ll mll)]
    rfl

end Aim

end GosuPP.Exactly
