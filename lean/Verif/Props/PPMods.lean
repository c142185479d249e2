import Verif.Lemmas.PPMods
import Verif.Props.PPExact

/-!
# C71: what a mod does to the performance points of a play with given ratings

The ratings are passed in separately (C68 says which mods change them), so these statements compare the same
attributes and hit results under `m` and under `m` with one mod added.
-/

namespace GosuPP.Props
open Go Spec

private theorem inactive {m : Modifier} {i : Nat} (hi : i < 63) (h : ¬ has m (Mod.bit i)) :
    Modifier.active m (Mod.bit i) = false := by
  rw [active_iff_has m hi]; simpa using h

section
variable {D : Type} [GoFloat D] [GoLibm D]

/-- C71 (any arithmetic). Performance points depend on no mods beside these eleven; Nightcore and Daycore
count only through DoubleTime and HalfTime, and Autopilot, Autoplay, SuddenDeath or Perfect not at all. -/
theorem C71_ignored (pp : PPv2 D) (a : Attributes D) (d : Difficulty D) (combo n300 n100 n50 nmiss : Int)
    (m m' : Modifier)
    (h : AgreeOn [Mod.NoFail, Mod.Easy, Mod.TouchDevice, Mod.Hidden, Mod.HardRock, Mod.DoubleTime, Mod.Relax,
      Mod.HalfTime, Mod.Flashlight, Mod.SpunOut, Mod.ScoreV2] m m') :
    (pp.ppv2x a combo n300 n100 n50 nmiss (d.setMods m')).results =
      (pp.ppv2x a combo n300 n100 n50 nmiss (d.setMods m)).results := by
  have e : ∀ (x : Modifier) (i : Nat), i < 63 → x = Mod.bit i → (has m x ↔ has m' x) →
      Modifier.active m' x = Modifier.active m x := by
    rintro _ i hi rfl hm
    rw [active_iff_has m hi, active_iff_has m' hi, decide_eq_decide]
    exact hm.symm
  have h0 := e Mod.NoFail 0 (by decide) rfl (h _ (by simp))
  have h1 := e Mod.Easy 1 (by decide) rfl (h _ (by simp))
  have h2 := e Mod.TouchDevice 2 (by decide) rfl (h _ (by simp))
  have h3 := e Mod.Hidden 3 (by decide) rfl (h _ (by simp))
  have h4 := e Mod.HardRock 4 (by decide) rfl (h _ (by simp))
  have h6 := e Mod.DoubleTime 6 (by decide) rfl (h _ (by simp))
  have h7 := e Mod.Relax 7 (by decide) rfl (h _ (by simp))
  have h8 := e Mod.HalfTime 8 (by decide) rfl (h _ (by simp))
  have h10 := e Mod.Flashlight 10 (by decide) rfl (h _ (by simp))
  have h12 := e Mod.SpunOut 12 (by decide) rfl (h _ (by simp))
  have h29 := e Mod.ScoreV2 29 (by decide) rfl (h _ (by simp))
  exact PPv2.results_congr pp a combo n300 n100 n50 nmiss (sameRates d h1 h4 h6 h8) h0 h2 h3 h7 h10 h12 h29

/-- C71 (any arithmetic). NoFail and SpunOut only scale the total: all four components stay the same. -/
theorem C71_total_only (pp : PPv2 D) (a : Attributes D) (d : Difficulty D) (combo n300 n100 n50 nmiss : Int)
    (m x : Modifier) (hx : x = Mod.NoFail ∨ x = Mod.SpunOut) :
    let r := (pp.ppv2x a combo n300 n100 n50 nmiss (d.setMods m)).results
    let r' := (pp.ppv2x a combo n300 n100 n50 nmiss (d.setMods (m ||| x))).results
    r'.aim = r.aim ∧ r'.speed = r.speed ∧ r'.acc = r.acc ∧ r'.flashlight = r.flashlight := by
  obtain ⟨i, rfl, hi⟩ : ∃ i, x = Mod.bit i ∧ (i = 0 ∨ i = 12) := by
    rcases hx with rfl | rfl
    · exact ⟨0, rfl, .inl rfl⟩
    · exact ⟨12, rfl, .inr rfl⟩
  have e : ∀ {j : Nat}, j < 63 → j ≠ i → Modifier.active (m ||| Mod.bit i) (Mod.bit j) = Modifier.active m (Mod.bit j) :=
    fun hj h => active_or m hj h
  have h2 := @e 2 (by decide) (by omega)
  have h3 := @e 3 (by decide) (by omega)
  have h7 := @e 7 (by decide) (by omega)
  have h10 := @e 10 (by decide) (by omega)
  have h29 := @e 29 (by decide) (by omega)
  have hr : SameRates (d.setMods m) (d.setMods (m ||| Mod.bit i)) :=
    sameRates_or d m (by omega) (by omega) (by omega) (by omega)
  intro r r'
  simp only [r, r']
  rw [PPv2.results_eq, PPv2.results_eq,
    PPv2.play_congr (d := d.setMods m) (d' := d.setMods (m ||| Mod.bit i)) pp a _ _ _ _ _ h29 h7]
  have hd := PPv2.play_diff pp a combo n300 n100 n50 nmiss (d.setMods m)
  generalize pp.play a combo n300 n100 n50 nmiss (d.setMods m) = p at hd ⊢
  rw [← hd] at hr
  have k : ∀ {x}, Modifier.active (m ||| Mod.bit i) x = Modifier.active m x →
      Modifier.active (d.setMods (m ||| Mod.bit i)).mods x = Modifier.active p.diff.mods x := by
    intro x hx; rw [hd]; exact hx
  exact ⟨PPv2.aim_congr p hr (k h2) (k h3), PPv2.speed_congr p hr (k h3), PPv2.acc_congr p hr (k h7) (k h3) (k h10),
    PPv2.fl_congr p hr (k h2) (k h3) (k h10)⟩

end

/-- The total as a function of the components and the multiplier. -/
private theorem total_mul (a s c f m k : ℝ) : PPv2.total a s c f (m * k) = PPv2.total a s c f m * k := by
  unfold PPv2.total
  simp only [RealArith.mul, mul_assoc]

private theorem valid_or {a : Attributes ℝ} {d : Difficulty ℝ} {m : Modifier} {i : Nat} {n300 n100 n50 nmiss : Int}
    (h : ValidPlay a (d.setMods m) n300 n100 n50 nmiss) (hr : SameRates (d.setMods m) (d.setMods (m ||| Mod.bit i))) :
    ValidPlay a (d.setMods (m ||| Mod.bit i)) n300 n100 n50 nmiss :=
  { h with ar := by rw [hr.ar]; exact h.ar }

private theorem total_eq {D : Type} [GoFloat D] [GoLibm D] (pp : PPv2 D) (a : Attributes D) (combo n300 n100 n50 nmiss : Int) (d : Difficulty D) :
    let r := (pp.ppv2x a combo n300 n100 n50 nmiss d).results
    r.total = PPv2.total r.aim r.speed r.acc r.flashlight
      (pp.setup a combo n300 n100 n50 nmiss d).finalMultiplier := rfl

/-- C71 (exact). Adding NoFail never gains PP and loses at most a tenth of the total; without misses and with
full combo it loses nothing. -/
theorem C71_nofail (pp : PPv2 ℝ) (a : Attributes ℝ) (d : Difficulty ℝ) (combo n300 n100 n50 nmiss : Int)
    (m : Modifier) (hc : 0 ≤ combo) (h : ValidPlay a (d.setMods m) n300 n100 n50 nmiss) :
    let r := (pp.ppv2x a combo n300 n100 n50 nmiss (d.setMods m)).results
    let r' := (pp.ppv2x a combo n300 n100 n50 nmiss (d.setMods (m ||| Mod.NoFail))).results
    r'.total ≤ r.total ∧ 0.9 * r.total ≤ r'.total ∧
      (nmiss = 0 → 1 ≤ combo → a.maxCombo ≤ combo → r'.total = r.total) := by
  intro r r'
  obtain ⟨e1, e2, e3, e4⟩ := C71_total_only pp a d combo n300 n100 n50 nmiss m _ (.inl rfl)
  have hn := (C56_nonneg pp a _ combo n300 n100 n50 nmiss hc h).2.2.2.2
  have e12 : Modifier.active (m ||| Mod.NoFail) Mod.SpunOut = Modifier.active m Mod.SpunOut :=
    active_or m (i := 0) (j := 12) (by decide) (by decide)
  have e7 : Modifier.active (m ||| Mod.NoFail) Mod.Relax = Modifier.active m Mod.Relax :=
    active_or m (i := 0) (j := 7) (by decide) (by decide)
  have e0 : Modifier.active (m ||| Mod.NoFail) Mod.NoFail = true := active_or_self m (i := 0) (by decide)
  have e29 : Modifier.active (m ||| Mod.NoFail) Mod.ScoreV2 = Modifier.active m Mod.ScoreV2 :=
    active_or m (i := 0) (j := 29) (by decide) (by decide)
  have hs := PPv2.setup_congr (d := d.setMods m) (d' := d.setMods (m ||| Mod.NoFail)) pp a combo n300 n100 n50 nmiss e29
  have hem := PPv2.setup_misses pp a (d.setMods m) (nmiss := nmiss) (n100 := n100) (n50 := n50) hc h.n300_nonneg h.total.le
  have key : r'.total = r.total * 
      (if Modifier.active m Mod.NoFail = true then 1
        else max 0.9 (1 - 0.02 * ((pp.setup a combo n300 n100 n50 nmiss (d.setMods m)).effectiveMissCount : ℝ)) : ℝ) := by
    have t := total_eq pp a combo n300 n100 n50 nmiss (d.setMods m)
    have t' := total_eq pp a combo n300 n100 n50 nmiss (d.setMods (m ||| Mod.NoFail))
    simp only at t t'
    simp only [r, r']
    rw [t', t, e1, e2, e3, e4, ← total_mul]
    congr 1
    rw [hs]
    generalize hp : pp.setup a combo n300 n100 n50 nmiss (d.setMods m) = p
    have hd : p.diff.mods = m := by rw [← hp]; rfl
    unfold PPv2.finalMultiplier
    have hm' : (d.setMods (m ||| Mod.NoFail)).mods = m ||| Mod.NoFail := rfl
    simp only [hm', hd, e0, e7, e12, if_true]
    have hf : (fmax (lit 0.9) (lit 1 -. lit 0.02 *. ofInt p.effectiveMissCount) : ℝ) =
        max 0.9 (1 - 0.02 * (p.effectiveMissCount : ℝ)) := by
      simp only [RealArith.fmax, RealArith.mul, RealArith.sub, RealArith.lit, RealArith.ofInt]
      norm_num
    rw [hf]
    simp only [RealArith.mul]
    cases Modifier.active m Mod.NoFail
    · simp only [Bool.false_eq_true, if_false]
      split <;> split <;> ring
    · simp only [if_true, mul_one]
  have hmiss : 0 ≤ (pp.setup a combo n300 n100 n50 nmiss (d.setMods m)).effectiveMissCount := by
    rw [hem]; exact le_max_of_le_left h.nmiss_nonneg
  have hmiss' : (0 : ℝ) ≤ (pp.setup a combo n300 n100 n50 nmiss (d.setMods m)).effectiveMissCount := by exact_mod_cast hmiss
  refine ⟨?_, ?_, ?_⟩
  · rw [key]
    refine mul_le_of_le_one_right hn ?_
    split
    · exact le_refl _
    · exact max_le (by norm_num) (by linarith)
  · rw [key, mul_comm]
    refine mul_le_mul_of_nonneg_left ?_ hn
    split
    · norm_num
    · exact le_max_left _ _
  · intro h0 h1 hf
    have hz : (pp.setup a combo n300 n100 n50 nmiss (d.setMods m)).effectiveMissCount = 0 := by
      rw [hem, h0]
      have : PPv2.comboMisses a combo (n300 + n100 + n50 + 0) = 0 := by
        have ht : (0 : ℝ) ≤ (n300 + n100 + n50 + 0 : Int) := by
          have := h.total
          exact_mod_cast (by omega)
        unfold PPv2.comboMisses
        split
        · rename_i hsl
          rw [if_neg, min_eq_left ht]
          have h2 : ((max 1 a.maxCombo : Int) : ℝ) ≤ combo := by exact_mod_cast max_le h1 hf
          have h3 : (0 : ℝ) < a.sliders := by exact_mod_cast hsl
          push_neg
          linarith
        · exact min_eq_left ht
      rw [this]; simp
    rw [key, hz]
    have : max (0.9 : ℝ) (1 - 0.02 * ((0 : Int) : ℝ)) = 1 := by norm_num
    rw [this]
    simp

/-- C71 (exact). Adding SpunOut never gains PP, and loses nothing on a map without spinners. -/
theorem C71_spunout (pp : PPv2 ℝ) (a : Attributes ℝ) (d : Difficulty ℝ) (combo n300 n100 n50 nmiss : Int)
    (m : Modifier) (hc : 0 ≤ combo) (h : ValidPlay a (d.setMods m) n300 n100 n50 nmiss) :
    let r := (pp.ppv2x a combo n300 n100 n50 nmiss (d.setMods m)).results
    let r' := (pp.ppv2x a combo n300 n100 n50 nmiss (d.setMods (m ||| Mod.SpunOut))).results
    r'.total ≤ r.total ∧ (a.spinners = 0 → r'.total = r.total) := by
  intro r r'
  obtain ⟨e1, e2, e3, e4⟩ := C71_total_only pp a d combo n300 n100 n50 nmiss m _ (.inr rfl)
  have hn := (C56_nonneg pp a _ combo n300 n100 n50 nmiss hc h).2.2.2.2
  have e0 : Modifier.active (m ||| Mod.SpunOut) Mod.NoFail = Modifier.active m Mod.NoFail :=
    active_or m (i := 12) (j := 0) (by decide) (by decide)
  have e7 : Modifier.active (m ||| Mod.SpunOut) Mod.Relax = Modifier.active m Mod.Relax :=
    active_or m (i := 12) (j := 7) (by decide) (by decide)
  have e12 : Modifier.active (m ||| Mod.SpunOut) Mod.SpunOut = true := active_or_self m (i := 12) (by decide)
  have e29 : Modifier.active (m ||| Mod.SpunOut) Mod.ScoreV2 = Modifier.active m Mod.ScoreV2 :=
    active_or m (i := 12) (j := 29) (by decide) (by decide)
  have hs := PPv2.setup_congr (d := d.setMods m) (d' := d.setMods (m ||| Mod.SpunOut)) pp a combo n300 n100 n50 nmiss e29
  have ht : (pp.setup a combo n300 n100 n50 nmiss (d.setMods m)).totalHits = n300 + n100 + n50 + nmiss := by
    show (if n300 < 0 then _ else n300) + n100 + n50 + nmiss = _
    rw [if_neg (by have := h.n300_nonneg; omega)]
  have key : r'.total = r.total * 
      (if Modifier.active m Mod.SpunOut = true then 1
        else 1 - ((a.spinners : ℝ) / (n300 + n100 + n50 + nmiss : Int)) ^ (0.85 : ℝ) : ℝ) := by
    have t := total_eq pp a combo n300 n100 n50 nmiss (d.setMods m)
    have t' := total_eq pp a combo n300 n100 n50 nmiss (d.setMods (m ||| Mod.SpunOut))
    simp only at t t'
    simp only [r, r']
    rw [t', t, e1, e2, e3, e4, ← total_mul]
    congr 1
    rw [hs]
    have hsp : (pp.setup a combo n300 n100 n50 nmiss (d.setMods m)).attribs.spinners = a.spinners := rfl
    generalize hp : pp.setup a combo n300 n100 n50 nmiss (d.setMods m) = p at ht hsp ⊢
    have hd : p.diff.mods = m := by rw [← hp]; rfl
    unfold PPv2.finalMultiplier
    have hm' : (d.setMods (m ||| Mod.SpunOut)).mods = m ||| Mod.SpunOut := rfl
    have htot := h.total
    simp only [hm', hd, e0, e7, e12, if_true, ht, hsp, gt_iff_lt, htot, true_and]
    have hf : (lit 1 -. GoLibm.pow (ofInt a.spinners /. ofInt (n300 + n100 + n50 + nmiss)) (lit 0.85) : ℝ) =
        1 - ((a.spinners : ℝ) / (n300 + n100 + n50 + nmiss : Int)) ^ (0.85 : ℝ) := by
      simp only [RealArith.pow, RealArith.div, RealArith.sub, RealArith.lit, RealArith.ofInt]
      norm_num
    rw [hf]
    simp only [RealArith.mul]
    cases Modifier.active m Mod.SpunOut
    · simp only [Bool.false_eq_true, if_false]
      split <;> split <;> ring
    · simp only [if_true, mul_one]
  constructor
  · rw [key]
    refine mul_le_of_le_one_right hn ?_
    split
    · exact le_refl _
    · have h1 : (0 : ℝ) ≤ a.spinners := by exact_mod_cast h.spinners.1
      have h2 : (0 : ℝ) < (n300 + n100 + n50 + nmiss : Int) := by exact_mod_cast h.total
      have := Real.rpow_nonneg (div_nonneg h1 h2.le) (0.85 : ℝ)
      linarith
  · intro h0
    rw [key, h0]
    have : ((0 : Int) : ℝ) / (n300 + n100 + n50 + nmiss : Int) = 0 := by simp
    rw [this, Real.zero_rpow (by norm_num)]
    simp

/-- The results with one more mod that changes neither rates nor the counting of hits. -/
private theorem added (pp : PPv2 ℝ) (a : Attributes ℝ) (d : Difficulty ℝ) (combo n300 n100 n50 nmiss : Int)
    (m : Modifier) {i : Nat} (h7 : i ≠ 7) (h29 : i ≠ 29) (h0 : i ≠ 0) (h12 : i ≠ 12) :
    let p := pp.play a combo n300 n100 n50 nmiss (d.setMods m)
    let q : PPv2 ℝ := { p with diff := d.setMods (m ||| Mod.bit i) }
    (pp.ppv2x a combo n300 n100 n50 nmiss (d.setMods (m ||| Mod.bit i))).results =
      ⟨q.computeAimValue, q.computeSpeedValue, q.computeAccuracyValue, q.computeFlashlightValue,
        PPv2.total q.computeAimValue q.computeSpeedValue q.computeAccuracyValue q.computeFlashlightValue
          (pp.setup a combo n300 n100 n50 nmiss (d.setMods m)).finalMultiplier⟩ :=
  PPv2.results_added pp a combo n300 n100 n50 nmiss
    (active_or m (j := 0) (by decide) (Ne.symm h0)) (active_or m (j := 7) (by decide) (Ne.symm h7))
    (active_or m (j := 12) (by decide) (Ne.symm h12)) (active_or m (j := 29) (by decide) (Ne.symm h29))

/-- Everything `added` needs about the play with `m`. -/
private theorem base_play (pp : PPv2 ℝ) {a : Attributes ℝ} {d : Difficulty ℝ} {combo n300 n100 n50 nmiss : Int}
    (hc : 0 ≤ combo) (h : ValidPlay a d n300 n100 n50 nmiss) :
    let p := pp.play a combo n300 n100 n50 nmiss d
    p.diff = d ∧ PPv2.Sane p ∧ 0 ≤ p.computeAimValue ∧ 0 ≤ p.computeSpeedValue ∧ 0 ≤ p.computeAccuracyValue ∧
      0 ≤ p.computeFlashlightValue ∧ 0 ≤ (pp.setup a combo n300 n100 n50 nmiss d).finalMultiplier := by
  have n := C56_nonneg pp a d combo n300 n100 n50 nmiss hc h
  rw [PPv2.results_eq] at n
  refine ⟨PPv2.play_diff pp a combo n300 n100 n50 nmiss d, PPv2.counted_sane pp hc h, n.1, n.2.1, n.2.2.1, n.2.2.2.1, ?_⟩
  exact (PPv2.setup_multiplier_ord pp (Spec.RatedHigher.mk le_rfl le_rfl le_rfl rfl rfl rfl rfl rfl rfl) hc le_rfl h h
    ⟨rfl, le_rfl, le_rfl, le_rfl, fun _ => le_rfl⟩).1

private theorem ord_scale {x k : ℝ} (hx : 0 ≤ x) (hk : 1 ≤ k) : Ord x (x * k) := ⟨hx, le_mul_of_one_le_right hx hk⟩

/-- C71 (exact). At an effective AR of at most 12 adding Hidden never loses PP, in no component. -/
theorem C71_hidden (pp : PPv2 ℝ) (a : Attributes ℝ) (d : Difficulty ℝ) (combo n300 n100 n50 nmiss : Int)
    (m : Modifier) (hm : ¬ has m Mod.Hidden) (hc : 0 ≤ combo) (h : ValidPlay a (d.setMods m) n300 n100 n50 nmiss)
    (har : (d.setMods m).arReal ≤ 12) :
    ResultsLE (pp.ppv2x a combo n300 n100 n50 nmiss (d.setMods m)).results
      (pp.ppv2x a combo n300 n100 n50 nmiss (d.setMods (m ||| Mod.Hidden))).results := by
  have hr : SameRates (d.setMods m) (d.setMods (m ||| Mod.bit 3)) :=
    sameRates_or d m (by decide) (by decide) (by decide) (by decide)
  have off := inactive (i := 3) (by decide) hm
  have on := active_or_self m (i := 3) (by decide)
  have e2 := active_or m (i := 3) (j := 2) (by decide) (by decide)
  have e7 := active_or m (i := 3) (j := 7) (by decide) (by decide)
  have e10 := active_or m (i := 3) (j := 10) (by decide) (by decide)
  have ha := added pp a d combo n300 n100 n50 nmiss m (i := 3) (by decide) (by decide) (by decide) (by decide)
  obtain ⟨hd, -, n1, n2, n3, n4, n5⟩ := base_play pp hc h
  rw [PPv2.results_eq pp a combo n300 n100 n50 nmiss (d.setMods m), show Mod.Hidden = Mod.bit 3 from rfl, ha]
  generalize pp.play a combo n300 n100 n50 nmiss (d.setMods m) = p at hd n1 n2 n3 n4 ⊢
  have k : ∀ {x}, Modifier.active (m ||| Mod.bit 3) x = Modifier.active m x →
      Modifier.active (d.setMods (m ||| Mod.bit 3)).mods x = Modifier.active p.diff.mods x := by
    intro x hx; rw [hd]; exact hx
  have hoff : Modifier.active p.diff.mods Mod.Hidden = false := by rw [hd]; exact off
  rw [← hd] at hr har
  have f1 : 1 ≤ PPv2.hiddenFactor p.diff := by unfold PPv2.hiddenFactor; linarith
  have o1 : Ord p.computeAimValue ({ p with diff := d.setMods (m ||| Mod.bit 3) } : PPv2 ℝ).computeAimValue := by
    rw [PPv2.aim_hidden p hr (k e2) hoff on]; exact ord_scale n1 f1
  have o2 : Ord p.computeSpeedValue ({ p with diff := d.setMods (m ||| Mod.bit 3) } : PPv2 ℝ).computeSpeedValue := by
    rw [PPv2.speed_hidden p hr hoff on]; exact ord_scale n2 f1
  have o3 : Ord p.computeAccuracyValue ({ p with diff := d.setMods (m ||| Mod.bit 3) } : PPv2 ℝ).computeAccuracyValue := by
    rw [PPv2.acc_hidden p hr (k e7) (k e10) hoff on]; exact ord_scale n3 (by norm_num)
  have o4 : Ord p.computeFlashlightValue ({ p with diff := d.setMods (m ||| Mod.bit 3) } : PPv2 ℝ).computeFlashlightValue := by
    rw [PPv2.fl_hidden p hr (k e2) (k e10) hoff on]; exact ord_scale n4 (by norm_num)
  exact ⟨o1, o2, o3, o4, PPv2.total_ord o1 o2 o3 o4 (Ord.refl n5)⟩

/-- C71 (exact). The effective AR stays at most 12, whatever the mods, for base AR in [0,10] and custom speeds
up to 2. -/
theorem C71_ar (hp cs od ar speed : ℝ) (m : Modifier) (har : 0 ≤ ar ∧ ar ≤ 10) (hs : 0 < speed ∧ speed ≤ 2) :
    (DiffInput.mk hp cs od ar m speed).fresh.arReal ≤ 12 := by
  rw [fresh_eq]
  simp only [Difficulty.calculate, Difficulty.getModifiedTime, RealArith.lit]
  obtain ⟨a1, a2⟩ := adjust_real_range m (k := 1.4) (by norm_num) har.1 har.2
  have ht : 150 ≤ Difficulty.modifiedTime m speed
      (difficultyRate (Difficulty.adjust m 1.4 ar) ((1800 : ℚ) : ℝ) ((1200 : ℚ) : ℝ) ((450 : ℚ) : ℝ)) := by
    have hr : 450 ≤ difficultyRate (Difficulty.adjust m 1.4 ar) ((1800 : ℚ) : ℝ) ((1200 : ℚ) : ℝ) ((450 : ℚ) : ℝ) := by
      rw [rate_real]
      push_cast
      split
      · linarith
      · split <;> linarith
    generalize difficultyRate (Difficulty.adjust m 1.4 ar) ((1800 : ℚ) : ℝ) ((1200 : ℚ) : ℝ) ((450 : ℚ) : ℝ) = t at hr
    obtain ⟨h0, h2⟩ := hs
    unfold Difficulty.modifiedTime
    simp only [RealArith.div, RealArith.mul, RealArith.lit]
    push_cast
    split
    · rw [le_div_iff₀ (by positivity)]; linarith
    · split
      · rw [le_div_iff₀ (by positivity)]; linarith
      · rw [le_div_iff₀ h0]; linarith
  rw [inv_real]
  split
  · rename_i h
    rw [div_le_iff₀ (by norm_num)]
    norm_num at h ⊢
    linarith
  · have : (-7 : ℝ) ≤ (Difficulty.modifiedTime m speed (difficultyRate (Difficulty.adjust m 1.4 ar) ((1800 : ℚ) : ℝ) ((1200 : ℚ) : ℝ) ((450 : ℚ) : ℝ)) - ((1200 : ℚ) : ℝ)) /
        ((((1200 : ℚ) : ℝ) - ((450 : ℚ) : ℝ)) / 5) := by
      rw [le_div_iff₀ (by norm_num)]
      norm_num at ht ⊢
      linarith
    linarith

/-- C71 (exact). Above AR 12, which high speeds reach, Hidden costs aim and speed PP. -/
theorem C71_hidden_fast (pp : PPv2 ℝ) (a : Attributes ℝ) (d : Difficulty ℝ) (combo n300 n100 n50 nmiss : Int)
    (m : Modifier) (hm : ¬ has m Mod.Hidden) (har : 12 < (d.setMods m).arReal) :
    let r := (pp.ppv2x a combo n300 n100 n50 nmiss (d.setMods m)).results
    let r' := (pp.ppv2x a combo n300 n100 n50 nmiss (d.setMods (m ||| Mod.Hidden))).results
    (0 < r.aim → r'.aim < r.aim) ∧ (0 < r.speed → r'.speed < r.speed) := by
  have hr : SameRates (d.setMods m) (d.setMods (m ||| Mod.bit 3)) :=
    sameRates_or d m (by decide) (by decide) (by decide) (by decide)
  have off := inactive (i := 3) (by decide) hm
  have on := active_or_self m (i := 3) (by decide)
  have e2 := active_or m (i := 3) (j := 2) (by decide) (by decide)
  have ha := added pp a d combo n300 n100 n50 nmiss m (i := 3) (by decide) (by decide) (by decide) (by decide)
  have hd : (pp.play a combo n300 n100 n50 nmiss (d.setMods m)).diff = d.setMods m :=
    PPv2.play_diff pp a combo n300 n100 n50 nmiss _
  intro r r'
  simp only [r, r']
  rw [PPv2.results_eq pp a combo n300 n100 n50 nmiss (d.setMods m), show Mod.Hidden = Mod.bit 3 from rfl, ha]
  generalize pp.play a combo n300 n100 n50 nmiss (d.setMods m) = p at hd ⊢
  have k : ∀ {x}, Modifier.active (m ||| Mod.bit 3) x = Modifier.active m x →
      Modifier.active (d.setMods (m ||| Mod.bit 3)).mods x = Modifier.active p.diff.mods x := by
    intro x hx; rw [hd]; exact hx
  have hoff : Modifier.active p.diff.mods Mod.Hidden = false := by rw [hd]; exact off
  rw [← hd] at hr har
  have f1 : PPv2.hiddenFactor p.diff < 1 := by unfold PPv2.hiddenFactor; linarith
  simp only
  rw [PPv2.aim_hidden p hr (k e2) hoff on, PPv2.speed_hidden p hr hoff on]
  exact ⟨fun h => mul_lt_of_lt_one_right h f1, fun h => mul_lt_of_lt_one_right h f1⟩

/-- C71 (exact). Adding Flashlight leaves aim and speed PP alone and never loses PP. -/
theorem C71_flashlight (pp : PPv2 ℝ) (a : Attributes ℝ) (d : Difficulty ℝ) (combo n300 n100 n50 nmiss : Int)
    (m : Modifier) (hm : ¬ has m Mod.Flashlight) (hc : 0 ≤ combo)
    (h : ValidPlay a (d.setMods m) n300 n100 n50 nmiss) :
    let r := (pp.ppv2x a combo n300 n100 n50 nmiss (d.setMods m)).results
    let r' := (pp.ppv2x a combo n300 n100 n50 nmiss (d.setMods (m ||| Mod.Flashlight))).results
    r'.aim = r.aim ∧ r'.speed = r.speed ∧ r.flashlight = 0 ∧ ResultsLE r r' := by
  have hr : SameRates (d.setMods m) (d.setMods (m ||| Mod.bit 10)) :=
    sameRates_or d m (by decide) (by decide) (by decide) (by decide)
  have off := inactive (i := 10) (by decide) hm
  have on := active_or_self m (i := 10) (by decide)
  have e2 := active_or m (i := 10) (j := 2) (by decide) (by decide)
  have e3 := active_or m (i := 10) (j := 3) (by decide) (by decide)
  have e7 := active_or m (i := 10) (j := 7) (by decide) (by decide)
  have ha := added pp a d combo n300 n100 n50 nmiss m (i := 10) (by decide) (by decide) (by decide) (by decide)
  obtain ⟨hd, -, n1, n2, n3, n4, n5⟩ := base_play pp hc h
  have n' := (C56_nonneg pp a _ combo n300 n100 n50 nmiss hc (valid_or h hr)).2.2.2.1
  intro r r'
  simp only [r, r']
  rw [ha] at n'
  rw [PPv2.results_eq pp a combo n300 n100 n50 nmiss (d.setMods m), show Mod.Flashlight = Mod.bit 10 from rfl, ha]
  generalize pp.play a combo n300 n100 n50 nmiss (d.setMods m) = p at hd n1 n2 n3 n4 n' ⊢
  have k : ∀ {x}, Modifier.active (m ||| Mod.bit 10) x = Modifier.active m x →
      Modifier.active (d.setMods (m ||| Mod.bit 10)).mods x = Modifier.active p.diff.mods x := by
    intro x hx; rw [hd]; exact hx
  have hoff : Modifier.active p.diff.mods Mod.Flashlight = false := by rw [hd]; exact off
  rw [← hd] at hr
  have o1 := PPv2.aim_congr p hr (k e2) (k e3)
  have o2 := PPv2.speed_congr p hr (k e3)
  have o3 : Ord p.computeAccuracyValue ({ p with diff := d.setMods (m ||| Mod.bit 10) } : PPv2 ℝ).computeAccuracyValue := by
    rw [PPv2.acc_flashlight p hr (k e7) (k e3) hoff on]; exact ord_scale n3 (by norm_num)
  have z : p.computeFlashlightValue = 0 := by
    rw [PPv2.fl_tail, hoff, if_neg (by decide)]
  have o4 : Ord p.computeFlashlightValue ({ p with diff := d.setMods (m ||| Mod.bit 10) } : PPv2 ℝ).computeFlashlightValue := by
    rw [z]; exact ⟨le_rfl, n'⟩
  refine ⟨o1, o2, z, ?_⟩
  simp only [o1, o2]
  exact ⟨Ord.refl n1, Ord.refl n2, o3, o4, PPv2.total_ord (Ord.refl n1) (Ord.refl n2) o3 o4 (Ord.refl n5)⟩

/-- C71 (exact). Adding Relax never gains PP, and takes all accuracy PP. -/
theorem C71_relax (pp : PPv2 ℝ) (a : Attributes ℝ) (d : Difficulty ℝ) (combo n300 n100 n50 nmiss : Int)
    (m : Modifier) (hm : ¬ has m Mod.Relax) (hc : 0 ≤ combo) (h : ValidPlay a (d.setMods m) n300 n100 n50 nmiss) :
    let r := (pp.ppv2x a combo n300 n100 n50 nmiss (d.setMods m)).results
    let r' := (pp.ppv2x a combo n300 n100 n50 nmiss (d.setMods (m ||| Mod.Relax))).results
    r'.acc = 0 ∧ ResultsLE r' r ∧ r'.total ≤ 0.6 * r.total := by
  have hr : SameRates (d.setMods m) (d.setMods (m ||| Mod.bit 7)) :=
    sameRates_or d m (by decide) (by decide) (by decide) (by decide)
  obtain ⟨o1, o2, o3, o4, o5⟩ := PPv2.relax_added pp a hc h hr (active_or m (j := 0) (by decide) (by decide))
    (active_or m (j := 2) (by decide) (by decide)) (active_or m (j := 3) (by decide) (by decide))
    (active_or m (j := 10) (by decide) (by decide)) (active_or m (j := 12) (by decide) (by decide))
    (active_or m (j := 29) (by decide) (by decide)) (inactive (i := 7) (by decide) hm)
    (active_or_self m (i := 7) (by decide))
  obtain ⟨-, -, n1, n2, n3, n4, n5⟩ := base_play pp hc h
  intro r r'
  have hacc : Ord r'.acc r.acc := by
    rw [show r'.acc = 0 from o3]; exact ⟨le_rfl, n3⟩
  have ht : Ord (PPv2.total r'.aim r'.speed r'.acc r'.flashlight _) (PPv2.total r.aim r.speed r.acc r.flashlight _) :=
    PPv2.total_ord o1 o2 hacc o4 (Ord.refl n5)
  have t : r.total = PPv2.total r.aim r.speed r.acc r.flashlight
      (pp.setup a combo n300 n100 n50 nmiss (d.setMods m)).finalMultiplier := total_eq ..
  have t' : r'.total = PPv2.total r'.aim r'.speed r'.acc r'.flashlight
      (pp.setup a combo n300 n100 n50 nmiss (d.setMods m)).finalMultiplier * 0.6 := by
    rw [← total_mul, ← o5]; exact total_eq ..
  have hle : r'.total ≤ 0.6 * r.total := by
    rw [t, t']; have := ht.2; linarith
  have h0 : 0 ≤ r'.total := by rw [t']; have := ht.1; positivity
  have h1 : 0 ≤ r.total := by rw [t]; exact ht.1.trans ht.2
  exact ⟨o3, ⟨o1, o2, hacc, o4, h0, hle.trans (by linarith)⟩, hle⟩

/-- C71 (exact). Adding TouchDevice only changes aim and flashlight PP; on maps whose aim and flashlight ratings
are at least 1 it never gains PP. -/
theorem C71_touch (pp : PPv2 ℝ) (a : Attributes ℝ) (d : Difficulty ℝ) (combo n300 n100 n50 nmiss : Int)
    (m : Modifier) (hm : ¬ has m Mod.TouchDevice) (hc : 0 ≤ combo)
    (h : ValidPlay a (d.setMods m) n300 n100 n50 nmiss) :
    let r := (pp.ppv2x a combo n300 n100 n50 nmiss (d.setMods m)).results
    let r' := (pp.ppv2x a combo n300 n100 n50 nmiss (d.setMods (m ||| Mod.TouchDevice))).results
    r'.speed = r.speed ∧ r'.acc = r.acc ∧
      (1 ≤ a.aim → (1 ≤ a.flashlight ∨ ¬ has m Mod.Flashlight) → ResultsLE r' r) ∧
      (a.aim ≤ 1 → (a.flashlight ≤ 1 ∨ ¬ has m Mod.Flashlight) → ResultsLE r r') ∧
      (0.0675 ≤ a.aim → a.aim < 1 → 0 < r.aim → r.aim < r'.aim) := by
  have hr : SameRates (d.setMods m) (d.setMods (m ||| Mod.bit 2)) :=
    sameRates_or d m (by decide) (by decide) (by decide) (by decide)
  have off := inactive (i := 2) (by decide) hm
  have on := active_or_self m (i := 2) (by decide)
  have e3 := active_or m (i := 2) (j := 3) (by decide) (by decide)
  have e7 := active_or m (i := 2) (j := 7) (by decide) (by decide)
  have e10 := active_or m (i := 2) (j := 10) (by decide) (by decide)
  have ha := added pp a d combo n300 n100 n50 nmiss m (i := 2) (by decide) (by decide) (by decide) (by decide)
  obtain ⟨hd, hsane, n1, n2, n3, n4, n5⟩ := base_play pp hc h
  have hat : (pp.play a combo n300 n100 n50 nmiss (d.setMods m)).attribs = { a with maxCombo := max 1 a.maxCombo } :=
    (PPv2.counted_fields pp a (d.setMods m) hc h.n300_nonneg h.total).2.2.2.2.2.2.2.1
  intro r r'
  simp only [r, r']
  rw [PPv2.results_eq pp a combo n300 n100 n50 nmiss (d.setMods m), show Mod.TouchDevice = Mod.bit 2 from rfl, ha]
  have hfl : ¬ has m Mod.Flashlight → Modifier.active m Mod.Flashlight = false := inactive (i := 10) (by decide)
  generalize pp.play a combo n300 n100 n50 nmiss (d.setMods m) = p at hd n1 n2 n3 n4 hat hsane ⊢
  have k : ∀ {x}, Modifier.active (m ||| Mod.bit 2) x = Modifier.active m x →
      Modifier.active (d.setMods (m ||| Mod.bit 2)).mods x = Modifier.active p.diff.mods x := by
    intro x hx; rw [hd]; exact hx
  have hoff : Modifier.active p.diff.mods Mod.TouchDevice = false := by rw [hd]; exact off
  have hfl' : ¬ has m Mod.Flashlight → Modifier.active p.diff.mods Mod.Flashlight = false := by rw [hd]; exact hfl
  have hon : Modifier.active (d.setMods (m ||| Mod.bit 2)).mods Mod.TouchDevice = true := on
  rw [← hd] at hr
  have o2 := PPv2.speed_congr p hr (k e3)
  have o3 := PPv2.acc_congr p hr (k e7) (k e3) (k e10)
  have haim : p.attribs.aim = a.aim := by rw [hat]
  have hflr : p.attribs.flashlight = a.flashlight := by rw [hat]
  have t0 := PPv2.aimTail_nonneg n1
  have a1 : p.computeAimValue = ppBase a.aim * p.aimTail 1 := by
    rw [PPv2.aim_tail, hoff, if_neg (by decide), haim]
  have a2 : ({ p with diff := d.setMods (m ||| Mod.bit 2) } : PPv2 ℝ).computeAimValue =
      ppBase (a.aim ^ (0.8 : ℝ)) * p.aimTail 1 := by
    rw [PPv2.aim_tail, PPv2.aimTail_congr p hr (k e3), if_pos hon, ← haim]
  have b1 : p.computeFlashlightValue = if Modifier.active p.diff.mods Mod.Flashlight = true then
      a.flashlight ^ (2 : ℝ) * p.flTail 1 else 0 := by
    rw [PPv2.fl_tail, hoff, if_neg (by decide : ¬ false = true), hflr]
  have b2 : ({ p with diff := d.setMods (m ||| Mod.bit 2) } : PPv2 ℝ).computeFlashlightValue =
      if Modifier.active p.diff.mods Mod.Flashlight = true then
        (a.flashlight ^ (0.8 : ℝ)) ^ (2 : ℝ) * p.flTail 1 else 0 := by
    rw [PPv2.fl_tail, PPv2.flTail_congr p hr (k e3), if_pos hon, ← hflr]
    simp only [show Modifier.active (d.setMods (m ||| Mod.bit 2)).mods Mod.Flashlight =
      Modifier.active p.diff.mods Mod.Flashlight from k e10]
  have hx0 := h.aim
  have hy0 := h.flashlight
  refine ⟨o2, o3, ?_, ?_, ?_⟩
  · intro h1 hf
    have hle : a.aim ^ (0.8 : ℝ) ≤ a.aim := by
      conv_rhs => rw [← Real.rpow_one a.aim]
      exact Real.rpow_le_rpow_of_exponent_le h1 (by norm_num)
    have o1 : Ord ({ p with diff := d.setMods (m ||| Mod.bit 2) } : PPv2 ℝ).computeAimValue p.computeAimValue := by
      rw [a1, a2]; exact (ppBase_ord hle).mul (Ord.refl t0)
    have o4 : Ord ({ p with diff := d.setMods (m ||| Mod.bit 2) } : PPv2 ℝ).computeFlashlightValue p.computeFlashlightValue := by
      rw [b1, b2]
      refine Ord.of_if (fun hc => ?_) (fun _ => Ord.refl le_rfl)
      have h1 : 1 ≤ a.flashlight := hf.resolve_right (fun hn => by rw [hfl' hn] at hc; cases hc)
      have hle : a.flashlight ^ (0.8 : ℝ) ≤ a.flashlight := by
        conv_rhs => rw [← Real.rpow_one a.flashlight]
        exact Real.rpow_le_rpow_of_exponent_le h1 (by norm_num)
      exact (Ord.pow ⟨Real.rpow_nonneg hy0 _, hle⟩ (by norm_num)).mul (Ord.refl (PPv2.flTail_nonneg hsane hc))
    simp only [o2, o3]
    exact ⟨o1, Ord.refl n2, Ord.refl n3, o4, PPv2.total_ord o1 (Ord.refl n2) (Ord.refl n3) o4 (Ord.refl n5)⟩
  · intro h1 hf
    have hle : ∀ {x : ℝ}, 0 ≤ x → x ≤ 1 → x ≤ x ^ (0.8 : ℝ) := by
      intro x h0 h1
      conv_lhs => rw [← Real.rpow_one x]
      exact Real.rpow_le_rpow_of_exponent_ge' h0 h1 (by norm_num) (by norm_num)
    have o1 : Ord p.computeAimValue ({ p with diff := d.setMods (m ||| Mod.bit 2) } : PPv2 ℝ).computeAimValue := by
      rw [a1, a2]; exact (ppBase_ord (hle hx0 h1)).mul (Ord.refl t0)
    have o4 : Ord p.computeFlashlightValue ({ p with diff := d.setMods (m ||| Mod.bit 2) } : PPv2 ℝ).computeFlashlightValue := by
      rw [b1, b2]
      refine Ord.of_if (fun hc => ?_) (fun _ => Ord.refl le_rfl)
      have h1 : a.flashlight ≤ 1 := hf.resolve_right (fun hn => by rw [hfl' hn] at hc; cases hc)
      exact (Ord.pow ⟨hy0, hle hy0 h1⟩ (by norm_num)).mul (Ord.refl (PPv2.flTail_nonneg hsane hc))
    simp only [o2, o3]
    exact ⟨o1, Ord.refl n2, Ord.refl n3, o4, PPv2.total_ord o1 (Ord.refl n2) (Ord.refl n3) o4 (Ord.refl n5)⟩
  · intro h1 h2 h3
    have hlt : a.aim < a.aim ^ (0.8 : ℝ) := by
      conv_lhs => rw [← Real.rpow_one a.aim]
      exact Real.rpow_lt_rpow_of_exponent_gt (by linarith) h2 (by norm_num)
    simp only
    rw [a1] at h3
    rw [a1, a2]
    have ht : 0 < p.aimTail 1 := pos_of_mul_pos_right h3 (ppBase_pos _).le
    refine mul_lt_mul_of_pos_right ?_ ht
    rw [ppBase_real, ppBase_real]
    have hb : 0.0675 < a.aim ^ (0.8 : ℝ) := lt_of_le_of_lt h1 hlt
    refine div_lt_div_of_pos_right (Real.rpow_lt_rpow ?_ ?_ (by norm_num)) (by norm_num)
    · have := le_max_left 1 (a.aim / 0.0675); linarith
    · have : max 1 (a.aim / 0.0675) < max 1 (a.aim ^ (0.8 : ℝ) / 0.0675) := by
        rw [max_lt_iff]
        constructor
        · exact lt_max_of_lt_right (by rw [lt_div_iff₀ (by norm_num)]; linarith)
        · exact lt_max_of_lt_right (div_lt_div_of_pos_right hlt (by norm_num))
      linarith

/-! ### the hypotheses are met -/

/-- Hidden beside DoubleTime with and without SuddenDeath, Perfect and Autopilot. -/
example : AgreeOn [Mod.NoFail, Mod.Easy, Mod.TouchDevice, Mod.Hidden, Mod.HardRock, Mod.DoubleTime, Mod.Relax,
      Mod.HalfTime, Mod.Flashlight, Mod.SpunOut, Mod.ScoreV2]
    (Mod.Hidden ||| Mod.DoubleTime) (Mod.Hidden ||| Mod.DoubleTime ||| Mod.SuddenDeath ||| Mod.Perfect ||| Mod.Relax2) := by
  decide +kernel

theorem setMods_fresh_pp (hp cs od ar speed : ℝ) (m m' : Modifier) :
    (DiffInput.mk hp cs od ar m speed).fresh.setMods m' = (DiffInput.mk hp cs od ar m' speed).fresh :=
  run_fresh (DiffInput.mk hp cs od ar m speed) (.setMods m')

theorem exampleDiff_setMods (m : Modifier) : (exampleDiff 0).setMods m = exampleDiff m := setMods_fresh_pp ..

theorem exampleDiff_valid (m : Modifier) : ValidPlay exampleMap ((exampleDiff 0).setMods m) 965 25 0 10 := by
  rw [exampleDiff_setMods]
  exact example_valid m (by norm_num) (by norm_num) (by norm_num) (by norm_num) (by norm_num)

/-- A play of the example map under any mods, with each of the mods added. -/
example (pp : PPv2 ℝ) (m : Modifier) (hHD : ¬ has m Mod.Hidden) (hFL : ¬ has m Mod.Flashlight)
    (hRX : ¬ has m Mod.Relax) (hTD : ¬ has m Mod.TouchDevice) :
    let r := fun m' => (pp.ppv2x exampleMap 700 965 25 0 10 ((exampleDiff 0).setMods m')).results
    (r (m ||| Mod.NoFail)).total ≤ (r m).total ∧ (r (m ||| Mod.SpunOut)).total ≤ (r m).total ∧
    ResultsLE (r m) (r (m ||| Mod.Hidden)) ∧ ResultsLE (r m) (r (m ||| Mod.Flashlight)) ∧
    ResultsLE (r (m ||| Mod.Relax)) (r m) ∧ ResultsLE (r (m ||| Mod.TouchDevice)) (r m) := by
  have v := exampleDiff_valid m
  refine ⟨(C71_nofail pp _ _ _ _ _ _ _ m (by norm_num) v).1, (C71_spunout pp _ _ _ _ _ _ _ m (by norm_num) v).1,
    C71_hidden pp _ _ _ _ _ _ _ m hHD (by norm_num) v ?_, (C71_flashlight pp _ _ _ _ _ _ _ m hFL (by norm_num) v).2.2.2,
    (C71_relax pp _ _ _ _ _ _ _ m hRX (by norm_num) v).2.1,
    (C71_touch pp _ _ _ _ _ _ _ m hTD (by norm_num) v).2.2.1 (by norm_num [exampleMap]) (.inl (by norm_num [exampleMap]))⟩
  rw [exampleDiff_setMods]
  exact C71_ar _ _ _ _ _ m (by norm_num) (by norm_num)

/-- The mods of the example can be, for one, HardRock and DoubleTime. -/
example : ¬ has (Mod.HardRock ||| Mod.DoubleTime) Mod.Hidden ∧ ¬ has (Mod.HardRock ||| Mod.DoubleTime) Mod.Flashlight ∧
    ¬ has (Mod.HardRock ||| Mod.DoubleTime) Mod.Relax ∧ ¬ has (Mod.HardRock ||| Mod.DoubleTime) Mod.TouchDevice := by
  decide +kernel

/-- AR 10 at four times the speed is above AR 12. -/
example : 12 < ((DiffInput.mk 5 5 10 10 0 4).fresh.setMods 0 : Difficulty ℝ).arReal := by
  rw [setMods_fresh_pp, fresh_eq]
  have hm : ∀ a, Modifier.active 0 a = false := by
    intro a; unfold Modifier.active Modifier.pos; simp
  simp only [Difficulty.calculate, Difficulty.getModifiedTime, Difficulty.modifiedTime,
    Difficulty.adjust, hm, Bool.false_eq_true, if_false, RealArith.div, RealArith.lit, rate_real,
    inv_real]
  norm_num

end GosuPP.Props
