import Verif.Lemmas.Difficulty
import Verif.Go.Real

/-!
# Properties of `Difficulty`: C06 - C12
-/

namespace GosuPP.Props
open Go GosuPP

/-- C06. After any history of setter calls the value is the one obtained by constructing a
fresh `Difficulty` from the last value given to each setter (in any arithmetic). -/
theorem C06_history_independent {D : Type} [GoFloat D] (hp cs od ar : D)
    (ops : List (Spec.DiffOp D)) :
    ops.foldl Spec.runDiffOp (Difficulty.new hp cs od ar) =
      (ops.foldl Spec.DiffInput.apply ⟨hp, cs, od, ar, 0, lit 1⟩).fresh := by
  have h0 : Difficulty.new hp cs od ar = (Spec.DiffInput.mk hp cs od ar 0 (lit 1)).fresh := by
    rw [fresh_eq]; rfl
  rw [h0]
  generalize (Spec.DiffInput.mk hp cs od ar 0 (lit 1)) = i
  induction ops generalizing i with
  | nil => rfl
  | cons op ops ih => rw [List.foldl_cons, List.foldl_cons, run_fresh, ih]

/-- C06, getters: whatever the mods, they return the last value set. -/
theorem C06_getters {D : Type} [GoFloat D] (hp cs od ar : D) (ops : List (Spec.DiffOp D)) :
    let d := ops.foldl Spec.runDiffOp (Difficulty.new hp cs od ar)
    let i := ops.foldl Spec.DiffInput.apply ⟨hp, cs, od, ar, 0, lit 1⟩
    d.getHP = i.hp ∧ d.getCS = i.cs ∧ d.getOD = i.od ∧ d.getAR = i.ar ∧ d.mods = i.mods ∧
      d.customSpeed = i.speed := by
  simp only
  rw [C06_history_independent]
  exact ⟨rfl, rfl, rfl, rfl, rfl, rfl⟩

/-- A history whose intermediate values matter for no result, but whose last ones do. -/
example : ([.setAR (lit 9), .setMods Mod.HardRock, .setAR (lit 3), .setMods 0] :
      List (Spec.DiffOp F64)).foldl Spec.DiffInput.apply
        ⟨lit 5, lit 5, lit 5, lit 5, 0, lit 1⟩ = ⟨lit 5, lit 5, lit 5, lit 3, 0, lit 1⟩ ∧
    (Difficulty.new (lit 5 : F64) (lit 5) (lit 5) (lit 9)).preempt ≠
      (Difficulty.new (lit 5 : F64) (lit 5) (lit 5) (lit 3)).preempt := by
  refine ⟨rfl, by decide +kernel⟩

/-- `x` lies between two literals. -/
def Between (lo hi : ℚ) (x : F64) : Prop := (lit lo : F64) <=. x ∧ x <=. lit hi

/-- C07. For base stats in [0,10], any mods and any custom speed, in IEEE arithmetic, the
derived values are in their documented ranges; in particular none is NaN or infinite. -/
theorem C07_ranges (hp cs od ar speed : F64) (m : Modifier) (hhp : Between 0 10 hp)
    (hcs : Between 0 10 cs) (hod : Between 0 10 od) (har : Between 0 10 ar) :
    let d := (Spec.DiffInput.mk hp cs od ar m speed).fresh
    Between 450 1800 d.preempt ∧ Between 9.6 54.4 d.circleRadius ∧ Between 20 80 d.hit300 ∧
      Between 60 140 d.hit100 ∧ Between 100 200 d.hit50 ∧ Between 3 7.5 d.spinnerRatio ∧
      Between 0 10 d.hpMod := by
  simp only
  rw [fresh_eq]
  obtain ⟨v14, b14, h14, p14⟩ := lit14
  obtain ⟨v13, b13, h13, p13⟩ := lit13
  have aar := adjust_range m h14 p14 har.1 har.2
  have aod := adjust_range m h14 p14 hod.1 hod.2
  have acs := adjust_range m h13 p13 hcs.1 hcs.2
  have ahp := adjust_range m h14 p14 hhp.1 hhp.2
  refine ⟨⟨?_, ?_⟩, ⟨?_, ?_⟩, ⟨?_, ?_⟩, ⟨?_, ?_⟩, ⟨?_, ?_⟩, ⟨?_, ?_⟩, ahp⟩
  · exact Fl.le_trans (by decide +kernel) (rate_ar.anti aar.2)
  · exact Fl.le_trans (rate_ar.anti aar.1) (by decide +kernel)
  · exact Fl.le_trans (by decide +kernel) (rate_cs.anti acs.2)
  · exact Fl.le_trans (rate_cs.anti acs.1) (by decide +kernel)
  · exact Fl.le_trans (by decide +kernel) (rate_h300.anti aod.2)
  · exact Fl.le_trans (rate_h300.anti aod.1) (by decide +kernel)
  · exact Fl.le_trans (by decide +kernel) (rate_h100.anti aod.2)
  · exact Fl.le_trans (rate_h100.anti aod.1) (by decide +kernel)
  · exact Fl.le_trans (by decide +kernel) (rate_h50.anti aod.2)
  · exact Fl.le_trans (rate_h50.anti aod.1) (by decide +kernel)
  · exact Fl.le_trans (by decide +kernel) (rate_spin.mono aod.1)
  · exact Fl.le_trans (rate_spin.mono aod.2) (by decide +kernel)

/-- A value strictly inside the range, and the end points are attained. -/
example : Between 0 10 (lit 9.3) ∧ Between 0 10 (lit 0) ∧ Between 0 10 (lit 10) ∧
    (Difficulty.new (lit 5 : F64) (lit 5) (lit 5) (lit 10)).preempt = lit 450 ∧
    (Difficulty.new (lit 5 : F64) (lit 5) (lit 5) (lit 0)).preempt = lit 1800 := by
  unfold Between; decide +kernel

/-- C08. Monotonicity in the base stats for all (also infinite) stats, any mods, any speed, in
IEEE arithmetic. -/
theorem C08_monotone (hp cs od ar speed : F64) (m : Modifier) :
    let d := fun cs od ar => (Spec.DiffInput.mk hp cs od ar m speed).fresh
    (∀ ar', ar <=. ar' → (d cs od ar').preempt <=. (d cs od ar).preempt) ∧
    (∀ cs', cs <=. cs' → (d cs' od ar).circleRadius <=. (d cs od ar).circleRadius) ∧
    (∀ od', od <=. od' → (d cs od' ar).hit300 <=. (d cs od ar).hit300 ∧
      (d cs od' ar).hit100 <=. (d cs od ar).hit100 ∧ (d cs od' ar).hit50 <=. (d cs od ar).hit50 ∧
      (d cs od ar).spinnerRatio <=. (d cs od' ar).spinnerRatio) := by
  obtain ⟨v14, b14, h14, p14⟩ := lit14
  obtain ⟨v13, b13, h13, p13⟩ := lit13
  simp only [fresh_eq]
  refine ⟨fun ar' h => ?_, fun cs' h => ?_, fun od' h => ⟨?_, ?_, ?_, ?_⟩⟩
  · exact rate_ar.anti (adjust_mono m h14 p14 h)
  · exact rate_cs.anti (adjust_mono m h13 p13 h)
  · exact rate_h300.anti (adjust_mono m h14 p14 h)
  · exact rate_h100.anti (adjust_mono m h14 p14 h)
  · exact rate_h50.anti (adjust_mono m h14 p14 h)
  · exact rate_spin.mono (adjust_mono m h14 p14 h)

example : (lit 9 : F64) <=. lit 9.3 ∧
    (Difficulty.new (lit 5 : F64) (lit 5) (lit 5) (lit 9.3)).preempt <.
      (Difficulty.new (lit 5 : F64) (lit 5) (lit 5) (lit 9)).preempt := by
  decide +kernel

/-- C09. For OD in [0,10] and any mods the hit windows are strictly ordered. -/
theorem C09_windows_ordered (hp cs od ar speed : F64) (m : Modifier) (hod : Between 0 10 od) :
    let d := (Spec.DiffInput.mk hp cs od ar m speed).fresh
    d.hit300 <. d.hit100 ∧ d.hit100 <. d.hit50 := by
  simp only
  rw [fresh_eq]
  obtain ⟨v14, b14, h14, p14⟩ := lit14
  have aod := adjust_range m h14 p14 hod.1 hod.2
  simp only [Difficulty.calculate]
  generalize Difficulty.adjust m 1.4 od = x at aod
  have nx : Fl.NN x := (Fl.le_nn aod.1).2
  have n5 : Fl.NN (lit 5 : F64) := by decide +kernel
  have n75 : Fl.NN (lit 7.5 : F64) := by decide +kernel
  constructor
  · rcases Fl.le_total nx n5 with h | h
    · exact Fl.lt_of_lt_of_le (Fl.lt_of_le_of_lt (rate_h300.anti aod.1) (by decide +kernel))
        (rate_h100.anti h)
    · exact Fl.lt_of_lt_of_le (Fl.lt_of_le_of_lt (rate_h300.anti h) (by decide +kernel))
        (rate_h100.anti aod.2)
  · rcases Fl.le_total nx n5 with h | h
    · exact Fl.lt_of_lt_of_le (Fl.lt_of_le_of_lt (rate_h100.anti aod.1) (by decide +kernel))
        (rate_h50.anti h)
    · rcases Fl.le_total nx n75 with h' | h'
      · exact Fl.lt_of_lt_of_le (Fl.lt_of_le_of_lt (rate_h100.anti h) (by decide +kernel))
          (rate_h50.anti h')
      · exact Fl.lt_of_lt_of_le (Fl.lt_of_le_of_lt (rate_h100.anti h') (by decide +kernel))
          (rate_h50.anti aod.2)

/-- The bound on OD is needed: at OD 100 the order is reversed. -/
example : (Difficulty.new (lit 5 : F64) (lit 5) (lit 100) (lit 5)).hit50 <.
    (Difficulty.new (lit 5 : F64) (lit 5) (lit 100) (lit 5)).hit300 := by
  decide +kernel

/-! ### exact arithmetic -/

theorem rate_real (x mn md mx : ℝ) : difficultyRate x mn md mx =
    if 5 < x then md + (mx - md) * (x - 5) / 5
    else if x < 5 then md - (md - mn) * (5 - x) / 5 else md := by
  unfold difficultyRate
  simp only [RealArith.lt, RealArith.lit, RealArith.add, RealArith.sub, RealArith.mul,
    RealArith.div]
  norm_num

theorem inv_real (r mn md mx : ℝ) : diffFromRate r mn md mx =
    if md < r then -(r - mn) / ((mn - md) / 5) else 5 - (r - md) / ((md - mx) / 5) := by
  unfold diffFromRate
  simp only [RealArith.lt, RealArith.lit, RealArith.sub, RealArith.div, RealArith.neg, fneg]
  norm_num

/-- C10. In exact arithmetic `DiffFromRate` undoes `DifficultyRate`. -/
theorem C10_inverse (x mn md mx : ℝ) (h1 : mx < md) (h2 : md < mn) :
    diffFromRate (difficultyRate x mn md mx) mn md mx = x := by
  rw [inv_real, rate_real]
  have a : md - mx ≠ 0 := by linarith
  have b : mn - md ≠ 0 := by linarith
  by_cases h5 : 5 < x
  · simp only [if_pos h5]
    have : ¬ md < md + (mx - md) * (x - 5) / 5 := by
      have : (mx - md) * (x - 5) ≤ 0 :=
        mul_nonpos_of_nonpos_of_nonneg (by linarith) (by linarith)
      linarith
    rw [if_neg this]
    field_simp
    ring
  · by_cases h5' : x < 5
    · simp only [if_neg h5, if_pos h5']
      have : md < md - (md - mn) * (5 - x) / 5 := by
        have : (md - mn) * (5 - x) < 0 := mul_neg_of_neg_of_pos (by linarith) (by linarith)
        linarith
      rw [if_pos this]
      field_simp
      ring
    · have hx : x = 5 := le_antisymm (not_lt.mp h5) (not_lt.mp h5')
      subst hx
      simp

/-- C10. Without HR, EZ, DT, HT and at speed 1, the effective AR and OD are the base ones, in
exact arithmetic. -/
theorem C10_real_eq_base (hp cs od ar : ℝ) (m : Modifier)
    (hm : ¬ Spec.has m (Mod.HardRock ||| Mod.Easy ||| Mod.DoubleTime ||| Mod.HalfTime)) :
    let d := (Spec.DiffInput.mk hp cs od ar m 1).fresh
    d.arReal = d.getAR ∧ d.odReal = d.getOD := by
  have key : ∀ a, a &&& (Mod.HardRock ||| Mod.Easy ||| Mod.DoubleTime ||| Mod.HalfTime) = a →
      Modifier.active m a = false := by
    intro a ha
    unfold Spec.has at hm
    rw [not_not] at hm
    have : m &&& a = 0 := by
      rw [← ha, BitVec.and_comm a, ← BitVec.and_assoc, hm]; simp
    unfold Modifier.active Modifier.pos
    rw [this]
    decide
  have hHR := key Mod.HardRock (by decide)
  have hEZ := key Mod.Easy (by decide)
  have hDT := key Mod.DoubleTime (by decide)
  have hHT := key Mod.HalfTime (by decide)
  simp only
  rw [fresh_eq]
  simp only [Difficulty.calculate, Difficulty.getModifiedTime, Difficulty.modifiedTime,
    Difficulty.adjust, hHR, hEZ, hDT, hHT, Bool.false_eq_true, if_false, RealArith.div, div_one,
    RealArith.lit, Difficulty.getAR, Difficulty.getOD]
  exact ⟨C10_inverse _ _ _ _ (by norm_num) (by norm_num), C10_inverse _ _ _ _ (by norm_num) (by norm_num)⟩

example : ¬ Spec.has (Mod.Hidden ||| Mod.Flashlight)
    (Mod.HardRock ||| Mod.Easy ||| Mod.DoubleTime ||| Mod.HalfTime) := by decide

theorem rate_real_nonneg {x mn md mx : ℝ} (h0 : 0 ≤ x) (h10 : x ≤ 10) (hmx : 0 ≤ mx)
    (h1 : mx ≤ md) (h2 : md ≤ mn) : 0 ≤ difficultyRate x mn md mx := by
  rw [rate_real]
  split
  · rename_i h; nlinarith
  · split
    · rename_i h; nlinarith
    · linarith

theorem adjust_real_range (m : Modifier) {k : ℚ} (hk : 0 ≤ k) {x : ℝ} (h0 : 0 ≤ x) (h10 : x ≤ 10) :
    0 ≤ Difficulty.adjust m k x ∧ Difficulty.adjust m k x ≤ 10 := by
  unfold Difficulty.adjust
  simp only [RealArith.fmin, RealArith.mul, RealArith.div, RealArith.lit]
  have hk' : (0 : ℝ) ≤ k := by exact_mod_cast hk
  have : ∀ y : ℝ, y = (if Modifier.active m Mod.HardRock = true then min (x * (k : ℝ)) ((10 : ℚ) : ℝ) else x) →
      0 ≤ y ∧ y ≤ 10 := by
    rintro y rfl
    split
    · refine ⟨le_min (by positivity) (by norm_num), (min_le_right _ _).trans (by norm_num)⟩
    · exact ⟨h0, h10⟩
  obtain ⟨a, b⟩ := this _ rfl
  split
  · push_cast at *
    constructor <;> linarith
  · exact ⟨a, b⟩

/-- C11. For base stats in [0,10], any mods and any positive custom speed, `ARReal ≤ 13` and
`ODReal ≤ 40/3` in exact arithmetic. -/
theorem C11_bounded (hp cs od ar speed : ℝ) (m : Modifier) (har : 0 ≤ ar ∧ ar ≤ 10)
    (hod : 0 ≤ od ∧ od ≤ 10) (hs : 0 < speed) :
    let d := (Spec.DiffInput.mk hp cs od ar m speed).fresh
    d.arReal ≤ 13 ∧ d.odReal ≤ 40 / 3 := by
  have hmt : ∀ t : ℝ, 0 ≤ t → 0 ≤ Difficulty.modifiedTime m speed t := by
    intro t ht
    unfold Difficulty.modifiedTime
    simp only [RealArith.div, RealArith.mul, RealArith.lit]
    split
    · have : (0 : ℝ) < ((1.5 : ℚ) : ℝ) := by norm_num
      positivity
    · split
      · have : (0 : ℝ) < ((0.75 : ℚ) : ℝ) := by norm_num
        positivity
      · positivity
  have hinv : ∀ r mn md mx : ℝ, 0 ≤ r → mx < md → md < mn → 5 ≤ 5 + 5 * md / (md - mx) →
      diffFromRate r mn md mx ≤ 5 + 5 * md / (md - mx) := by
    intro r mn md mx hr h1 h2 h3
    rw [inv_real]
    split
    · rename_i h
      have : -(r - mn) / ((mn - md) / 5) ≤ 5 := by
        rw [div_le_iff₀ (by linarith)]; linarith
      linarith
    · have e : (r - md) / ((md - mx) / 5) = 5 * r / (md - mx) - 5 * md / (md - mx) := by
        have : md - mx ≠ 0 := by linarith
        field_simp
      have : 0 ≤ 5 * r / (md - mx) := div_nonneg (by linarith) (by linarith)
      linarith
  simp only
  rw [fresh_eq]
  simp only [Difficulty.calculate, Difficulty.getModifiedTime, RealArith.lit]
  have a1 := adjust_real_range m (k := 1.4) (by norm_num) har.1 har.2
  have a2 := adjust_real_range m (k := 1.4) (by norm_num) hod.1 hod.2
  constructor
  · refine (hinv _ _ _ _ (hmt _ (rate_real_nonneg a1.1 a1.2 ?_ ?_ ?_)) ?_ ?_ ?_).trans ?_ <;> norm_num
  · refine (hinv _ _ _ _ (hmt _ (rate_real_nonneg a2.1 a2.2 ?_ ?_ ?_)) ?_ ?_ ?_).trans ?_ <;> norm_num

/-- C11, consequence used by the PP formulas: the accuracy exponent and the Hidden factor stay
positive. -/
theorem C11_exponent_positive (hp cs od ar speed : ℝ) (m : Modifier) (har : 0 ≤ ar ∧ ar ≤ 10)
    (hod : 0 ≤ od ∧ od ≤ 10) (hs : 0 < speed) :
    let d := (Spec.DiffInput.mk hp cs od ar m speed).fresh
    0 < (14.5 - max d.odReal 8) / 2 ∧ 0 < 1 + 0.04 * (12 - d.arReal) := by
  have h := C11_bounded hp cs od ar speed m har hod hs
  simp only at h ⊢
  constructor
  · have : max (Spec.DiffInput.mk hp cs od ar m speed).fresh.odReal 8 ≤ 40 / 3 :=
      max_le h.2 (by norm_num)
    norm_num
    linarith
  · norm_num at *
    linarith [h.1]

/-- The bounds are sharp: at AR 10, OD 10 and no mods the effective values at speed `s` are
`13 - 3/s` and `40/3 - (10/3)/s` (for `s ≥ 1`). -/
example (s : ℝ) (hs : 1 ≤ s) :
    (Spec.DiffInput.mk 5 5 10 10 0 s).fresh.arReal = 13 - 3 / s ∧
    (Spec.DiffInput.mk 5 5 10 10 0 s).fresh.odReal = 40 / 3 - 10 / 3 / s := by
  have hs0 : (0 : ℝ) < s := by linarith
  rw [fresh_eq]
  have hm : ∀ a, Modifier.active 0 a = false := by
    intro a; unfold Modifier.active Modifier.pos; simp
  simp only [Difficulty.calculate, Difficulty.getModifiedTime, Difficulty.modifiedTime,
    Difficulty.adjust, hm, Bool.false_eq_true, if_false, RealArith.div, RealArith.lit, rate_real,
    inv_real]
  norm_num
  have h1 : ¬ (1200 < 450 / s) := by
    rw [not_lt, div_le_iff₀ hs0]; linarith
  have h2 : ¬ (50 < 20 / s) := by
    rw [not_lt, div_le_iff₀ hs0]; linarith
  rw [if_neg h1, if_neg h2]
  constructor <;> field_simp <;> ring

/-- C11 in IEEE arithmetic, for every positive (also infinite) custom speed: `ARReal ≤ 13` and
`ODReal` is at most the double nearest to 40/3. -/
theorem C11_bounded_ieee (hp cs od ar speed : F64) (m : Modifier) (har : Between 0 10 ar)
    (hod : Between 0 10 od) (hs : (lit 0 : F64) <. speed) :
    let d := (Spec.DiffInput.mk hp cs od ar m speed).fresh
    d.arReal <=. lit 13 ∧ d.odReal <=. lit (40 / 3) := by
  obtain ⟨v14, b14, h14, p14⟩ := lit14
  have aar := adjust_range m h14 p14 har.1 har.2
  have aod := adjust_range m h14 p14 hod.1 hod.2
  simp only
  rw [fresh_eq]
  simp only [Difficulty.calculate, Difficulty.getModifiedTime]
  constructor
  · obtain ⟨v, c, hv, hv1, _⟩ := fin_of_between
      (Fl.le_trans (show Fl.le (.fin 450 false) _ = true by decide +kernel) (rate_ar.anti aar.2))
      (Fl.le_trans (rate_ar.anti aar.1) (show Fl.le _ (.fin 1800 false) = true by decide +kernel))
    have hr := modifiedTime_nonneg m hs hv (by linarith)
    have := diffFromRate_le (mn := lit 1800) (md := lit 1200) (mx := lit 450) (a := 1800) (ab := false)
      (b := 1200) (bb := false) (c := 120) (cb := false) (d := 150) (db := false) (by decide +kernel)
      (by decide +kernel) (by decide +kernel) (by norm_num) (by decide +kernel) (by norm_num)
      (by decide +kernel) hr
    exact Fl.le_trans this (by decide +kernel)
  · obtain ⟨v, c, hv, hv1, _⟩ := fin_of_between
      (Fl.le_trans (show Fl.le (.fin 20 false) _ = true by decide +kernel) (rate_h300.anti aod.2))
      (Fl.le_trans (rate_h300.anti aod.1) (show Fl.le _ (.fin 80 false) = true by decide +kernel))
    have hr := modifiedTime_nonneg m hs hv (by linarith)
    have := diffFromRate_le (mn := lit 80) (md := lit 50) (mx := lit 20) (a := 80) (ab := false)
      (b := 50) (bb := false) (c := 6) (cb := false) (d := 6) (db := false) (by decide +kernel)
      (by decide +kernel) (by decide +kernel) (by norm_num) (by decide +kernel) (by norm_num)
      (by decide +kernel) hr
    exact Fl.le_trans this (by decide +kernel)

example : Between 0 10 (lit 9.5) ∧ (lit 0 : F64) <. lit 0.001 ∧ (lit 0 : F64) <. .inf false := by
  unfold Between; decide +kernel

/-- C12. `DoubleTime` takes precedence over `HalfTime` in the modified time (any arithmetic). -/
theorem C12_double_time_first {D : Type} [GoFloat D] (hp cs od ar speed t : D) (m : Modifier) :
    let d := (Spec.DiffInput.mk hp cs od ar m speed).fresh
    (Spec.has m Mod.DoubleTime → d.getModifiedTime t = t /. (lit 1.5 *. speed)) ∧
    (¬ Spec.has m Mod.DoubleTime → Spec.has m Mod.HalfTime →
      d.getModifiedTime t = t /. (lit 0.75 *. speed)) ∧
    (¬ Spec.has m Mod.DoubleTime → ¬ Spec.has m Mod.HalfTime → d.getModifiedTime t = t /. speed) := by
  simp only
  rw [fresh_eq]
  simp only [Difficulty.calculate, Difficulty.getModifiedTime, Difficulty.modifiedTime,
    show Modifier.active m Mod.DoubleTime = decide (Spec.has m Mod.DoubleTime) from
      active_iff_has m (by decide : (6 : Nat) < 63),
    show Modifier.active m Mod.HalfTime = decide (Spec.has m Mod.HalfTime) from
      active_iff_has m (by decide : (8 : Nat) < 63), decide_eq_true_eq]
  refine ⟨fun h => ?_, fun h h' => ?_, fun h h' => ?_⟩
  · rw [if_pos h]
  · rw [if_neg h, if_pos h']
  · rw [if_neg h, if_neg h']

/-- C12. In exact arithmetic `Speed` is 1.5, 0.75 or 1 times the custom speed. -/
theorem C12_speed (hp cs od ar speed : ℝ) (m : Modifier) (hs : 0 < speed) :
    let d := (Spec.DiffInput.mk hp cs od ar m speed).fresh
    d.speed = (if Spec.has m Mod.DoubleTime then 1.5 else if Spec.has m Mod.HalfTime then 0.75 else 1)
      * speed := by
  have h := C12_double_time_first hp cs od ar speed (1 : ℝ) m
  simp only at h ⊢
  have e : (Spec.DiffInput.mk hp cs od ar m speed).fresh.speed =
      1 / (Spec.DiffInput.mk hp cs od ar m speed).fresh.getModifiedTime 1 := by
    rw [fresh_eq]
    simp only [Difficulty.calculate, Difficulty.getModifiedTime, RealArith.lit, RealArith.div]
    norm_num
  rw [e]
  simp only [RealArith.div, RealArith.mul, RealArith.lit] at h
  split
  · rename_i hd; rw [h.1 hd]; norm_num
  · rename_i hd
    split
    · rename_i hh; rw [h.2.1 hd hh]; norm_num
    · rename_i hh; rw [h.2.2 hd hh]; norm_num

/-- C12. Mods other than HR and EZ (in particular all rate mods), and the custom speed, change
none of Preempt, CircleRadius, the hit windows, SpinnerRatio and HPMod, in any arithmetic. -/
theorem C12_rate_mods_inert {D : Type} [GoFloat D] (hp cs od ar speed speed' : D) (m m' : Modifier)
    (h : m &&& (Mod.HardRock ||| Mod.Easy) = m' &&& (Mod.HardRock ||| Mod.Easy)) :
    let d := (Spec.DiffInput.mk hp cs od ar m speed).fresh
    let d' := (Spec.DiffInput.mk hp cs od ar m' speed').fresh
    d.preempt = d'.preempt ∧ d.circleRadius = d'.circleRadius ∧ d.hit300 = d'.hit300 ∧
      d.hit100 = d'.hit100 ∧ d.hit50 = d'.hit50 ∧ d.spinnerRatio = d'.spinnerRatio ∧
      d.hpMod = d'.hpMod := by
  have key : ∀ i, i < 63 → (Mod.HardRock ||| Mod.Easy).getLsbD i = true →
      Modifier.active m (Mod.bit i) = Modifier.active m' (Mod.bit i) := by
    intro i hi hb
    rw [active_bit m hi, active_bit m' hi]
    have := congrArg (fun x => BitVec.getLsbD x i) h
    simp only [BitVec.getLsbD_and, hb, Bool.and_true] at this
    exact this
  have hHR : Modifier.active m Mod.HardRock = Modifier.active m' Mod.HardRock :=
    key 4 (by decide) (by decide)
  have hEZ : Modifier.active m Mod.Easy = Modifier.active m' Mod.Easy :=
    key 1 (by decide) (by decide)
  have ha : ∀ (k : ℚ) (x : D), Difficulty.adjust m k x = Difficulty.adjust m' k x := by
    intro k x
    unfold Difficulty.adjust
    rw [hHR, hEZ]
  simp only
  rw [fresh_eq, fresh_eq]
  simp only [Difficulty.calculate, ha, and_self]

example : (Mod.HardRock ||| Mod.DoubleTime ||| Mod.Nightcore) &&& (Mod.HardRock ||| Mod.Easy) =
    Mod.HardRock &&& (Mod.HardRock ||| Mod.Easy) := by decide

end GosuPP.Props
