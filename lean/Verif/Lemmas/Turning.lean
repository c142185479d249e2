import Verif.Lemmas.SteadyMap
import Verif.Spec.Turning

/-! Steady maps that turn by the same angle at each circle. -/

namespace GosuPP.Exactly
open Go Spec
attribute [local instance] exactLibm

/-! ### The run of one skill, with the index of each object -/

/-- A skill that has processed `k` objects; the `i`-th of all satisfies `P i`. -/
structure AfterAt (P : ℕ → DiffObject (Option ℝ) (Option ℝ) → Prop) (str t : ℕ → ℝ) (sk0 : Skill (Option ℝ) (Option ℝ)) (k : ℕ)
    (sk : Skill (Option ℝ) (Option ℝ)) : Prop where
  same : SameSettings sk0 sk
  known : ∀ (i : ℕ) o, sk.previous.reverse[i]? = some o → P (k - 1 - i) o
  length : sk.previous.length = min k (sk0.historyLength + 1)
  start : k = 0 → sk.strainPeaks = [] ∧ sk.currentStrain = some 0
  holds : k ≠ 0 → Holds (str k) (t k) sk
  peak : sk.currentSectionPeak = some (str k)

private theorem seen_reverse (sk : Skill (Option ℝ) (Option ℝ)) {i : ℕ} {o : DiffObject (Option ℝ) (Option ℝ)}
    (h : (seen sk).reverse[i]? = some o) : sk.previous.reverse[i]? = some o := by
  unfold seen at h
  rw [List.reverse_drop] at h
  obtain ⟨hi, e⟩ := List.getElem?_eq_some_iff.mp h
  rw [List.getElem_take] at e
  rw [← e]
  exact List.getElem?_eq_getElem _

theorem run_after_at {b m δ : ℝ} (hb : 0 < b) (hb1 : b ≤ 1) {fuel : ℕ} {P : ℕ → DiffObject (Option ℝ) (Option ℝ) → Prop}
    {str t val : ℕ → ℝ} {sk0 : Skill (Option ℝ) (Option ℝ)} (hset : Set b m sk0) (h0 : str 0 = 0)
    (hstr : ∀ k, str (k + 1) = str k * b ^ (δ / 1000) + val k * m) (hmono : ∀ k, str k ≤ str (k + 1))
    (hval : ∀ k (sk : Skill (Option ℝ) (Option ℝ)) c, SameSettings sk0 sk →
      (∀ (i : ℕ) o, (seen sk).reverse[i]? = some o → P (k - 1 - i) o) →
      (seen sk).length = min k sk0.historyLength → P k c → Values sk c (val k))
    {ds : List (DiffObject (Option ℝ) (Option ℝ))} {k : ℕ} (hP : ∀ (i : ℕ) o, ds[i]? = some o → P (k + i) o)
    (hδ : ∀ o ∈ ds, o.deltaTime = some δ)
    (ht : ∀ i o, ds[i]? = some o → o.startTime = some (t (k + i + 1))) {sk sk' : Skill (Option ℝ) (Option ℝ)}
    (h : AfterAt P str t sk0 k sk) (hr : ds.foldlM (fun s o => s.process fuel o) sk = .ok sk') :
    AfterAt P str t sk0 (k + ds.length) sk' := by
  induction ds generalizing k sk with
  | nil => cases hr; exact h
  | cons c ds ih =>
    rw [List.foldlM_cons] at hr
    obtain ⟨s1, h1, hr⟩ := bind_ok hr
    have hc := ht 0 c rfl
    rw [Nat.add_zero] at hc
    have hPc : P k c := hP 0 c rfl
    have hd := hδ c List.mem_cons_self
    have hsub : ∀ (i : ℕ) o, (seen sk).reverse[i]? = some o → P (k - 1 - i) o := fun i o ho => h.known i o (seen_reverse sk ho)
    have hlen : (seen sk).length = min k sk0.historyLength := by
      unfold seen
      rw [List.length_drop, h.length, ← h.same.historyLength]
      omega
    have hv := hval k sk c h.same hsub hlen hPc
    have step : AfterAt P str t sk0 (k + 1) s1 := by
      by_cases hk : k = 0
      · subst hk
        obtain ⟨q1, q2⟩ := h.start rfl
        have hp : sk.previous = [] := by
          apply List.eq_nil_of_length_eq_zero; rw [h.length]; simp
        have hm := hmono 0
        rw [hstr, h0, zero_mul, zero_add] at hm
        obtain ⟨r1, r2, r3, r4⟩ := process_first (hset.of h.same) hp q1 q2 (by rw [h.peak, h0]) hc hd hv hm h1
        have es : str 1 = val 0 * m := by rw [hstr, h0]; ring
        refine ⟨h.same.trans r3, ?_, ?_, fun h => by simp at h, fun _ => ?_, ?_⟩
        · rw [r4]; intro i o ho
          cases i with
          | zero => simp at ho; rw [← ho]; exact hPc
          | succ i => simp at ho
        · rw [r4]; simp
        · rw [es]; exact r1
        · rw [es]; exact r2
      · have hm := hmono k
        rw [hstr] at hm
        obtain ⟨r1, r2, r3, r4⟩ := process_holds hb hb1 (hset.of h.same) (h.holds hk) hc hd hv hm h1
        rw [← hstr] at r1 r2
        refine ⟨h.same.trans r3, ?_, ?_, fun h => by simp at h, fun _ => r1, r2⟩
        · rw [r4]; intro i o ho
          rw [List.reverse_append, List.reverse_singleton, List.singleton_append] at ho
          cases i with
          | zero => simp at ho; rw [← ho]; exact hPc
          | succ i =>
            rw [List.getElem?_cons_succ] at ho
            have := hsub i o ho
            rwa [show k + 1 - 1 - (i + 1) = k - 1 - i by omega]
        · rw [r4, List.length_append, hlen, List.length_singleton]; omega
    have := ih (k := k + 1) (fun i o ho => by rw [show k + 1 + i = k + (i + 1) by omega]; exact hP (i + 1) o ho)
      (fun o ho => hδ o (List.mem_cons_of_mem _ ho))
      (fun i o ho => by rw [ht (i + 1) o ho]; congr 2; omega) step hr
    rw [List.length_cons, show k + (ds.length + 1) = k + 1 + ds.length by omega]
    exact this

/-! ### The value of a turn -/

theorem goPi_pos : 0 < goPi := by
  unfold goPi
  have : (0 : ℚ) < piConst := by unfold piConst; norm_num
  exact_mod_cast this

theorem wide_exact (θ : ℝ) : calcWideAngleBonus (some θ : Option ℝ) = some (wideness θ) := by
  unfold calcWideAngleBonus wideness
  rw [Exact.lit, Exact.lit, Exact.lit, Exact.lit, Exact.fmax, Exact.fmin, Exact.sub, Exact.mul, Exact.sin, Exact.pow]
  congr 1
  unfold goPi
  push_cast
  rw [Real.rpow_two]

theorem acute_exact (θ : ℝ) : calcAcuteAngleBonus (some θ : Option ℝ) = some (1 - wideness θ) := by
  unfold calcAcuteAngleBonus
  rw [wide_exact, Exact.lit, Exact.sub]
  norm_num

theorem wideness_range (θ : ℝ) : 0 ≤ wideness θ ∧ wideness θ ≤ 1 := by
  unfold wideness
  exact ⟨sq_nonneg _, Real.sin_sq_le_one _⟩

variable {T J δ θ : ℝ}

theorem angles_turn (hT : 25 ≤ T) {c l ll : DiffObject (Option ℝ) (Option ℝ)} (hc : Even T J δ c) (hl : Even T J δ l)
    (ac : c.angle = some θ) (al : l.angle = some θ) (all : ll.angle = some θ) :
    Aim.angleBonuses c l ll (some (J / T)) (some (J / T)) = (some (wideBonus θ (J / T)), some (acuteBonus θ T J)) := by
  have hT0 : (0 : ℝ) < T := by linarith
  have e0 : (if (some T : Option ℝ) >. lit 100 then (lit 0 : Option ℝ)
      else some (1 - wideness θ) *. (some (1 - wideness θ) *. fmin (some (J / T)) (lit 125 /. some T) *.
      GoLibm.pow (GoLibm.sin (halfPi *. fmin (lit 1) ((lit 100 -. some T) /. lit 25))) (lit 2) *.
      GoLibm.pow (GoLibm.sin (halfPi *. (clampF64 (some J) (lit 50) (lit 100) -. lit 50)
        /. lit 50)) (lit 2))) = some (acuteRaw θ T J) := by
    unfold acuteRaw
    rw [Exact.lit 100, Exact.lt]
    by_cases h : (100 : ℝ) < T
    · rw [if_pos (by simpa using h), if_pos h, Exact.lit]; norm_num
    · rw [if_neg (by simpa using h), if_neg h]
      simp only [Exact.lit, halfPi_some, Exact.clamp, Exact.sub, Exact.mul, Exact.div _ hT0.ne',
        Exact.div _ (show ((25 : ℚ) : ℝ) ≠ 0 by norm_num), Exact.div _ (show ((50 : ℚ) : ℝ) ≠ 0 by norm_num), Exact.fmin,
        Exact.sin, Exact.pow]
      congr 1
      unfold goPi
      push_cast
      rw [Real.rpow_two, Real.rpow_two]
  unfold Aim.angleBonuses
  rw [hc.strainTime, hl.strainTime, Exact.fmax, Exact.fmin, max_self, min_self]
  have hcond : ((some T : Option ℝ) <. lit 1.25 *. some T) = true := by
    rw [Exact.lit, Exact.mul, Exact.lt, decide_eq_true_eq]; push_cast; linarith
  rw [if_pos hcond, ac, al, all]
  have hn : (!GoFloat.isNaN (some θ : Option ℝ) && !GoFloat.isNaN (some θ : Option ℝ) && !GoFloat.isNaN (some θ : Option ℝ)) = true := by
    simp [GoFloat.isNaN]
  rw [if_pos hn]
  simp only [Exact.fmin, min_self, wide_exact, acute_exact, hc.jump]
  rw [e0]
  have h3 : ∀ x : ℝ, GoLibm.pow (some x) (lit 3 : Option ℝ) = some (x ^ 3) := by
    intro x
    rw [Exact.lit, Exact.pow]
    congr 1
    rw [show (((3 : ℚ) : ℝ)) = ((3 : ℕ) : ℝ) by norm_num, Real.rpow_natCast]
  rw [h3, h3]
  simp only [Exact.lit, Exact.fmin, Exact.sub, Exact.mul, Exact.add]
  obtain ⟨w0, w1⟩ := wideness_range θ
  have hw : min (wideness θ) (wideness θ ^ 3) = wideness θ ^ 3 :=
    min_eq_right (by
      have := mul_le_of_le_one_right w0 (mul_le_one₀ w1 w0 w1)
      calc wideness θ ^ 3 = wideness θ * (wideness θ * wideness θ) := by ring
        _ ≤ _ := this)
  rw [hw]
  unfold wideBonus acuteBonus
  refine Prod.ext ?_ ?_ <;> simp only <;> congr 1 <;> push_cast <;> ring

theorem angles_none {c l ll : DiffObject (Option ℝ) (Option ℝ)} (all : ll.angle = none) (v v' : Option ℝ) :
    Aim.angleBonuses c l ll v v' = (some 0, some 0) := by
  have hz : (lit 0 : Option ℝ) = some 0 := by rw [Exact.lit]; norm_num
  unfold Aim.angleBonuses
  rw [hz]
  split
  · rw [if_neg (by rw [all]; simp [GoFloat.isNaN])]
  · rfl

theorem strain_turn (hT : 25 ≤ T) (hJ : 0 ≤ J) (b : Bool) {c l ll : DiffObject (Option ℝ) (Option ℝ)} (hc : Even T J δ c) (hl : Even T J δ l)
    (hll : Even T J δ ll) {w a : ℝ} (hb : Aim.angleBonuses c l ll (some (J / T)) (some (J / T)) = (some w, some a)) :
    Aim.strain b c l ll = some (J / T + max (2 * a) (1.5 * w)) := by
  unfold Aim.strain
  simp only [aim_velocity hT b hc hl, aim_velocity hT b hl hll, hb, aim_change hT hJ hc hl, hc.travelTime, hc.travel, Exact.lit, Exact.eq,
    Exact.mul, Exact.fmax, Exact.add, zero_mul, add_zero]
  have e : max (a * ((2 : ℚ) : ℝ)) (w * ((1.5 : ℚ) : ℝ)) = max (2 * a) (1.5 * w) := by
    congr 1 <;> push_cast <;> ring
  rw [e]
  cases b <;> norm_num [Exact.mul, Exact.add]

/-- The angle at the `i`-th object: the first has none. -/
def Bent (T J δ θ : ℝ) (i : ℕ) (o : DiffObject (Option ℝ) (Option ℝ)) : Prop :=
  Even T J δ o ∧ o.angle = if i = 0 then none else some θ

theorem value_turn (hT : 25 ≤ T) (hJ : 0 ≤ J) (b : Bool) {sk : Skill (Option ℝ) (Option ℝ)} {c : DiffObject (Option ℝ) (Option ℝ)} {k : ℕ}
    (hc : Bent T J δ θ k c) (hp : ∀ (i : ℕ) o, sk.previous.reverse[i]? = some o → Bent T J δ θ (k - 1 - i) o)
    (hlen : sk.previous.length = min k 2) :
    Aim.strainValue b sk c =
      .ok (some (if k ≤ 1 then 0 else if k = 2 then J / T else J / T + turnBonus θ T J)) := by
  unfold Aim.strainValue
  simp only [hc.1.spinner, Bool.false_or, decide_eq_true_eq]
  by_cases hk : k ≤ 1
  · rw [if_pos (by omega), if_pos hk]
    show Except.ok (lit 0) = _
    rw [Exact.lit]; norm_num
  · rw [if_neg (by omega), if_neg hk]
    obtain ⟨l, hl⟩ := Skill.derefPrevious_ok sk (i := 0) (by omega)
    obtain ⟨ll, hll⟩ := Skill.derefPrevious_ok sk (i := 1) (by omega)
    have get : ∀ {i o}, sk.derefPrevious i = .ok o → sk.previous.reverse[i]? = some o := by
      intro i o h
      unfold Skill.derefPrevious at h
      split at h
      · rename_i o' ho
        cases h
        exact ho
      · cases h
    have pl := hp 0 l (get hl)
    have pll := hp 1 ll (get hll)
    simp only [hl, hll, ok_bind, pl.1.spinner, Bool.false_eq_true, if_false]
    have ac : c.angle = some θ := by rw [hc.2, if_neg (by omega)]
    have al : l.angle = some θ := by rw [pl.2, if_neg (by omega)]
    by_cases h2 : k = 2
    · have all : ll.angle = none := by rw [pll.2, if_pos (by omega)]
      rw [if_pos h2, strain_turn hT hJ b hc.1 pl.1 pll.1 (angles_none all _ _)]
      simp
      rfl
    · have all : ll.angle = some θ := by rw [pll.2, if_neg (by omega)]
      rw [if_neg h2, strain_turn hT hJ b hc.1 pl.1 pll.1 (angles_turn hT hc.1 pl.1 ac al all)]
      rfl

theorem abs_arg_turn {s : ℝ} (hs : 0 < s) (h0 : 0 ≤ θ) (hpi : θ ≤ Real.pi) {x y : ℝ} (hx : x = s * Real.cos θ) (hxy : x ^ 2 + y ^ 2 = s ^ 2) :
    |Complex.arg ⟨x, y⟩| = θ := by
  have hy : y ^ 2 = (s * Real.sin θ) ^ 2 := by
    have := Real.sin_sq_add_cos_sq θ
    rw [hx] at hxy
    linear_combination hxy - s ^ 2 * this
  have form : ∀ φ : ℝ, x = s * Real.cos φ → y = s * Real.sin φ →
      (⟨x, y⟩ : ℂ) = (s : ℂ) * (Complex.cos φ + Complex.sin φ * Complex.I) := by
    intro φ h1 h2
    apply Complex.ext
    · simp [h1, ← Complex.ofReal_cos, ← Complex.ofReal_sin]
    · simp [h2, ← Complex.ofReal_cos, ← Complex.ofReal_sin]
  rcases sq_eq_sq_iff_eq_or_eq_neg.mp hy with hy | hy
  · rw [form θ hx hy, Complex.arg_mul_cos_add_sin_mul_I hs ⟨by linarith [Real.pi_pos], hpi⟩, abs_of_nonneg h0]
  · by_cases hp : θ = Real.pi
    · subst hp
      rw [form Real.pi hx (by rw [hy, Real.sin_pi]; ring), Complex.arg_mul_cos_add_sin_mul_I hs ⟨by linarith [Real.pi_pos], le_rfl⟩,
        abs_of_nonneg h0]
    · have hlt : θ < Real.pi := lt_of_le_of_ne hpi hp
      rw [form (-θ) (by rw [Real.cos_neg]; exact hx) (by rw [Real.sin_neg, hy]; ring),
        Complex.arg_mul_cos_add_sin_mul_I hs ⟨by linarith, by linarith [Real.pi_pos]⟩, abs_neg, abs_of_nonneg h0]

/-! ### The angles of a map -/

variable {t0 Δ dist r c : ℝ} {pos : ℕ → ℝ × ℝ} {objs : List (Obj (Option ℝ) (Option ℝ))} {d : Difficulty (Option ℝ)}

theorem turning_angles (hs : Stream d.mods t0 Δ dist pos objs) (hdist : 0 < dist) (hθ : Turning θ dist pos objs.length)
    {ds : List (DiffObject (Option ℝ) (Option ℝ))} (hds : createDifficultyObjects objs d = .ok ds) (i : ℕ)
    {o : DiffObject (Option ℝ) (Option ℝ)} (ho : ds[i]? = some o) : o.angle = if i = 0 then none else some θ := by
  have hdec := decorateAll_circles (d := d) hs.circle
  have spin : ∀ (i : ℕ) o, objs[i]? = some o → o.isSpinner = false := by
    intro i o ho
    have := hs.circle o (List.mem_of_getElem? ho)
    unfold Obj.isCircle at this
    unfold Obj.isSpinner
    cases hk : o.kind <;> simp_all
  obtain ⟨ps, hps, rfl⟩ := createDifficultyObjects_ok hds
  rw [hdec] at hps
  cases hps
  cases objs with
  | nil => simp at ho
  | cons f rest =>
    obtain ⟨a, b, z, h1, h2, h3, h4⟩ := diffObjectLoop_get d none (⟨f, none⟩ : PObj _ _) (rest.map (⟨·, none⟩)) i ho
    have g : ∀ (j : ℕ) q, ((f :: rest).map (fun o => (⟨o, none⟩ : PObj (Option ℝ) (Option ℝ))))[j]? = some q →
        ∃ w, (f :: rest)[j]? = some w ∧ q = ⟨w, none⟩ := by
      intro j q hq
      rw [List.getElem?_map] at hq
      obtain ⟨w, hw, e⟩ := Option.map_eq_some_iff.mp hq
      exact ⟨w, hw, e.symm⟩
    obtain ⟨x, hx, rfl⟩ := g i a h1
    obtain ⟨y, hy, rfl⟩ := g (i + 1) b h2
    rw [h3]
    unfold newDiffObject setDistances
    simp only [spin _ _ hy, spin _ _ hx, Bool.or_self, Bool.false_eq_true, if_false]
    cases i with
    | zero =>
      have : z = none := by simpa using h4
      subst this
      rw [if_pos rfl]
      rfl
    | succ j =>
      rw [if_neg (by omega), Nat.add_sub_cancel] at h4
      have hlt : j + 1 + 1 < (f :: rest).length := (List.getElem?_eq_some_iff.mp hy).1
      cases z with
      | none =>
        have h4' : ((f :: rest).map (fun o => (⟨o, none⟩ : PObj (Option ℝ) (Option ℝ))))[j]? = none := h4.symm
        rw [List.getElem?_eq_none_iff, List.length_map] at h4'
        omega
      | some q =>
        obtain ⟨w, hw, rfl⟩ := g j q h4.symm
        rw [if_neg (by omega)]
        unfold setAngle
        simp only [spin _ _ hw, Bool.false_eq_true, if_false]
        have hb : (setTravel d ⟨x, none⟩
            { baseObject := ⟨y, none⟩, deltaTime := (y.base.startTime -. x.base.startTime) /. d.speed
              startTime := y.base.startTime /. d.speed, endTime := y.base.endTime /. d.speed, angle := GoFloat.nan
              strainTime := fmax ((y.base.startTime -. x.base.startTime) /. d.speed) (lit 25)
              jumpDistance := lit 0, movementDistance := lit 0, travelDistance := lit 0
              movementTime := lit 0, travelTime := lit 0 }).baseObject = ⟨y, none⟩ := rfl
        simp only [hb, getEndCursorPosition, hs.place _ _ hy, hs.place _ _ hx, hs.place _ _ hw, Vec.sub, Vec.dot, Exact.sub, Exact.mul,
          Exact.add, Math32.abs, Math32.atan2, Exact.up, Exact.down, Exact.atan2, Exact.abs]
        congr 1
        have d1 := hs.apart j (by omega)
        have d2 := hs.apart (j + 1) hlt
        have dt := hθ.turn j hlt
        rw [show j + 2 = j + 1 + 1 from rfl] at dt
        refine abs_arg_turn (s := dist ^ 2) (by positivity) hθ.nonneg hθ.le_pi dt ?_
        rw [show (dist ^ 2) ^ 2 = dist ^ 2 * dist ^ 2 by ring]
        nth_rewrite 1 [← d1]
        rw [← d2]
        ring

end GosuPP.Exactly
