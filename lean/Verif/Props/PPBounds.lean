import Verif.Lemmas.PPBounds
import Verif.Lemmas.Difficulty
import Verif.Props.PP
import Verif.Props.Difficulty

/-!
# C69: performance points of ordinary plays are numbers, and not negative
-/

namespace GosuPP.Props
open Go Fl Spec

section
variable [GoLibm F64]

private theorem setup_ordinary {a : Attributes F64} {d : Difficulty F64} {combo n300 n100 n50 nmiss : Int}
    (pp : PPv2 F64) (h : OrdinaryPlay a d combo n300 n100 n50 nmiss) :
    Ordinary (pp.setup a combo n300 n100 n50 nmiss d) := by
  obtain ⟨⟨h30, h31⟩, ⟨h10, h11⟩, ⟨h50, h51⟩, ⟨hm0, hm1⟩, hc, ⟨hci0, hci1⟩, ⟨ho0, ho1⟩, ⟨hs0, hs1⟩, ⟨hsp0, hsp1⟩, ⟨hmc0, hmc1⟩,
    haim, hspd, hfl, hsf, har, hod⟩ := h
  have nf : Nice (-4096 : ℚ) := by exact (nice_nat 4096 (by norm_num)).neg
  have n14 : Nice (14 : ℚ) := by exact nice_nat 14 (by norm_num)
  have e1 : (pp.setup a combo n300 n100 n50 nmiss d).totalHits = greats a n300 n100 n50 nmiss + n100 + n50 + nmiss := rfl
  have e2 : (pp.setup a combo n300 n100 n50 nmiss d).countGreat = greats a n300 n100 n50 nmiss := rfl
  have e3 : (pp.setup a combo n300 n100 n50 nmiss d).attribs.maxCombo = max 1 a.maxCombo := by
    show maxI 1 a.maxCombo = _
    unfold maxI; split <;> omega
  have e4 : (pp.setup a combo n300 n100 n50 nmiss d).scoreMaxCombo = if combo < 0 then max 1 a.maxCombo else combo := by
    rw [← e3]; rfl
  have eff : (pp.setup a combo n300 n100 n50 nmiss d).effectiveMissCount =
      (pp.setup a combo n300 n100 n50 nmiss d).calculateEffectiveMissCount := rfl
  have hc0 : 0 ≤ (pp.setup a combo n300 n100 n50 nmiss d).scoreMaxCombo := by rw [e4]; split <;> omega
  have hc1 : (pp.setup a combo n300 n100 n50 nmiss d).scoreMaxCombo ≤ 2 ^ 50 := by rw [e4]; split <;> omega
  have hb := eff_bounds (pp.setup a combo n300 n100 n50 nmiss d) (by show |a.sliders| ≤ _; rw [abs_of_nonneg hs0]; omega)
    (by rw [e3, abs_of_nonneg (by omega)]; omega) hc0 (by omega) (by rw [e1]; omega) (by rw [e1]; omega)
  have hacc := C54_accuracy pp a combo (greats a n300 n100 n50 nmiss) n100 n50 nmiss d (by rw [abs_of_nonneg ho0]; omega)
    (by rw [abs_of_nonneg h30]; omega) (by rw [abs_of_nonneg h10]; omega) (by rw [abs_of_nonneg h50]; omega)
    (by rw [abs_of_nonneg hm0]; omega)
  have e5 : (pp.ppv2x a combo (greats a n300 n100 n50 nmiss) n100 n50 nmiss d).accuracy =
      (pp.setup a combo n300 n100 n50 nmiss d).accuracy := by
    have e6 : (pp.setup a combo (greats a n300 n100 n50 nmiss) n100 n50 nmiss d).accuracy =
        (pp.setup a combo n300 n100 n50 nmiss d).accuracy := by
      unfold PPv2.setup
      simp only
      rw [if_neg (by omega : ¬ greats a n300 n100 n50 nmiss < 0)]
      rfl
    rw [← e6]
    unfold PPv2.ppv2x PPv2.relaxMisses
    simp only
    split <;> rfl
  exact {
    total := by rw [e1]; omega
    misses := by
      rw [eff]
      have e : (pp.setup a combo n300 n100 n50 nmiss d).countMiss = nmiss := rfl
      rw [e] at hb
      rw [e1] at hb ⊢
      omega
    combo := ⟨hc0, hc1⟩
    maxCombo := by rw [e3]; omega
    sliders := hs1
    great := by rw [e2]; exact h30
    ok := h10
    meh := h50
    miss := hm0
    hits := by
      rw [e1, e2]
      show greats a n300 n100 n50 nmiss + n100 + n50 ≤ _
      omega
    amount := by
      show 0 ≤ (if d.checkModActive Mod.ScoreV2 then a.objectCount else a.circles) ∧
        (if d.checkModActive Mod.ScoreV2 then a.objectCount else a.circles) ≤ _
      split <;> omega
    spinners := by rw [e1]; exact ⟨hsp0, hsp1⟩
    aim := in_of_within haim nice_zero (nice_pow _ (by norm_num))
    speed := in_of_within hspd nice_zero (nice_pow _ (by norm_num))
    flashlight := in_of_within hfl nice_zero (nice_pow _ (by norm_num))
    sliderFactor := ⟨hsf.1, in_of_within hsf.2 nice_zero (nice_pow _ (by norm_num))⟩
    ar := in_of_within har nf n14
    od := in_of_within hod nf n14
    accuracy := by
      rw [← e5]
      exact In.of_le hacc.1 hacc.2 nice_zero nice_one }

private theorem relax_ordinary {p : PPv2 F64} (h : Ordinary p) : Ordinary p.relaxMisses := by
  unfold PPv2.relaxMisses
  split
  · have h1 := h.misses; have h2 := h.ok; have h3 := h.meh
    have e : minI (p.effectiveMissCount + p.countOk + p.countMeh) p.totalHits =
        min (p.effectiveMissCount + p.countOk + p.countMeh) p.totalHits := by unfold minI; split <;> omega
    have h4 := h.total
    exact { h with misses := by show 0 ≤ minI _ _ ∧ minI _ _ ≤ p.totalHits; rw [e]; omega }
  · exact h

private theorem in_finite {k : ℕ} {x : F64} (h : In 0 (2 ^ k) x) : FiniteNonneg x := by
  have h0 := h.lit_le nice_zero
  obtain ⟨v, z, rfl, -, -⟩ := h
  exact ⟨h0, rfl⟩

private theorem results (pp : PPv2 F64) (a : Attributes F64) (combo n300 n100 n50 nmiss : Int) (d : Difficulty F64) :
    let r := (pp.ppv2x a combo n300 n100 n50 nmiss d).results
    let q := (pp.setup a combo n300 n100 n50 nmiss d).relaxMisses
    r.aim = q.computeAimValue ∧ r.speed = q.computeSpeedValue ∧ r.acc = q.computeAccuracyValue ∧
    r.flashlight = q.computeFlashlightValue ∧
    r.total = PPv2.total r.aim r.speed r.acc r.flashlight (pp.setup a combo n300 n100 n50 nmiss d).finalMultiplier :=
  ⟨rfl, rfl, rfl, rfl, rfl⟩

/-- C69 (IEEE doubles). All five results of the performance points of an ordinary play are finite numbers and not
negative. -/
theorem C69_finite (hl : PowLaws) (pp : PPv2 F64) {a : Attributes F64} {d : Difficulty F64}
    {combo n300 n100 n50 nmiss : Int} (h : OrdinaryPlay a d combo n300 n100 n50 nmiss) :
    let r := (pp.ppv2x a combo n300 n100 n50 nmiss d).results
    FiniteNonneg r.aim ∧ FiniteNonneg r.speed ∧ FiniteNonneg r.acc ∧ FiniteNonneg r.flashlight ∧ FiniteNonneg r.total := by
  have hs := setup_ordinary pp h
  have hr := relax_ordinary hs
  obtain ⟨e1, e2, e3, e4, e5⟩ := results pp a combo n300 n100 n50 nmiss d
  have i1 := aim_in hl hr
  have i2 := speed_in hl hr
  have i3 := acc_in hl hr
  have i4 := flashlight_in hl hr
  rw [← e1] at i1
  rw [← e2] at i2
  rw [← e3] at i3
  rw [← e4] at i4
  have i5 := total_in hl i1 i2 i3 i4 (multiplier_in hl hs)
  rw [← e5] at i5
  exact ⟨in_finite i1, in_finite i2, in_finite i3, in_finite i4, in_finite i5⟩

end

private theorem in_div_fin {x : F64} {a b a' b' w : ℚ} {t : Bool} (hx : In a b x) (hw : 0 < w) (ha : Nice a') (hb : Nice b')
    (h1 : a' * w ≤ a) (h2 : b ≤ b' * w) : In a' b' (x /. fin w t) := by
  obtain ⟨v, z, rfl, v1, v2⟩ := hx
  show In a' b' (Fl.div (fin v z) (fin w t))
  unfold Fl.div
  simp only
  rw [if_neg hw.ne']
  refine in_ofRat _ ha hb ?_ ?_
  · rw [le_div_iff₀ hw]; linarith
  · rw [div_le_iff₀ hw]; linarith

private theorem modifiedTime_in (m : Modifier) {s t : F64} {T M : ℚ} (hs : In (1 / 128) 128 s) (ht : In 0 T t)
    (hT0 : 0 ≤ T) (hT : T * (512 / 3) ≤ M) (hM : Nice M) : In 0 M (Difficulty.modifiedTime m s t) := by
  have n7 : Nice (1 / 128) := by have := nice_neg_pow 7 (by norm_num); norm_num at this ⊢; exact this
  have n8 : Nice (3 / 512) := by
    refine ⟨?_, ?_⟩
    · have : Rep fmt64 (((3 : ℤ) : ℚ) * pow2 (-9)) := ⟨3, -9, by decide, by decide, rfl⟩
      rw [pow2_eq] at this
      norm_num at this ⊢
      exact this
    · rw [abs_of_pos (by norm_num)]
      exact _root_.lt_trans (b := pow2 0) (by rw [pow2_eq]; norm_num) (pow2_lt.mpr (by norm_num))
  unfold Difficulty.modifiedTime
  split
  · have : In (1 / 128) (2 ^ 8) (lit 1.5 *. s) :=
      (in_lit (q := 1.5) nice_one (by exact nice_nat 2 (by norm_num)) (by norm_num) (by norm_num)).mul hs
        (by norm_num) (by norm_num) n7 (nice_pow _ (by norm_num)) (by norm_num) (by norm_num)
    exact ht.div this le_rfl (by norm_num) hM (by linarith)
  split
  · have : In (3 / 512) (2 ^ 8) (lit 0.75 *. s) := by
      have e : (lit 0.75 : F64) = fin (3 / 4) false := by decide +kernel
      rw [e]
      exact (show In (3 / 4) 1 (fin (3 / 4) false : F64) from ⟨_, _, rfl, le_rfl, by norm_num⟩).mul hs
        (by norm_num) (by norm_num) n8 (nice_pow _ (by norm_num)) (by norm_num) (by norm_num)
    exact ht.div this le_rfl (by norm_num) hM (by linarith)
  · exact ht.div hs le_rfl (by norm_num) hM (by linarith)

private theorem diffFromRate_in {r mn md mx : F64} {M a b c d : ℚ} (hr : In 0 M r) (npk : Nice M)
    (hmn : In a a mn) (hmd : In b b md) (e1 : (mn -. md) /. lit 5 = fin c false) (e2 : (md -. mx) /. lit 5 = fin d false)
    (hc : 0 < c) (hd : 0 < d) (ha : 0 ≤ a) (hb : 0 ≤ b) (hak : a ≤ M) (hbk : b ≤ M)
    (hck : M ≤ 4095 * c) (hdk : M ≤ 4095 * d) :
    ∃ v z, diffFromRate r mn md mx = fin v z ∧ -4096 ≤ v := by
  have n95 : Nice (-4095 : ℚ) := by exact (nice_nat 4095 (by norm_num)).neg
  have p95 : Nice (4095 : ℚ) := by exact nice_nat 4095 (by norm_num)
  have key : In (-4096) (2 ^ 13) (diffFromRate r mn md mx) := by
    unfold diffFromRate
    simp only
    rw [e1, e2]
    split
    · have h1 : In (-M) M (r -. mn) := hr.sub hmn npk.neg npk (by linarith) (by linarith)
      have h2 : In (-M) M (fneg (r -. mn)) := by
        obtain ⟨v, z, e, v1, v2⟩ := h1
        rw [e]
        exact ⟨-v, _, rfl, by linarith, by linarith⟩
      exact (in_div_fin h2 hc n95 p95 (by linarith) (by linarith)).mono (by norm_num) (by norm_num)
    · have h1 : In (-M) M (r -. md) := hr.sub hmd npk.neg npk (by linarith) (by linarith)
      have h2 := in_div_fin (t := false) h1 hd n95 p95 (by linarith) (by linarith)
      have n5 : Nice (5 : ℚ) := by exact nice_nat 5 (by norm_num)
      exact (in_lit (q := 5) n5 n5 le_rfl le_rfl).sub h2 (by exact (nice_nat 4096 (by norm_num)).neg) (nice_pow 13 (by norm_num))
        (by norm_num) (by norm_num)
  obtain ⟨v, z, e, v1, -⟩ := key
  exact ⟨v, z, e, v1⟩

/-- C69 (IEEE doubles). The effective AR and OD of a difficulty with base stats between 0 and 10, any mods and a custom
speed between 0.01 and 100 are what ordinary plays ask for. -/
theorem C69_stats (hp cs od ar speed : F64) (m : Modifier) (har : Within 0 10 ar) (hod : Within 0 10 od)
    (hs : Within 0.01 100 speed) :
    let d := (DiffInput.mk hp cs od ar m speed).fresh
    Within (-4096) 14 d.arReal ∧ Within (-4096) 14 d.odReal := by
  have hs0 : (lit 0 : F64) <. speed := by
    have h : Fl.lt (lit 0 : F64) (lit 0.01) = true := by decide +kernel
    exact Fl.lt_of_lt_of_le h hs.1
  have hsI : In (1 / 128) 128 speed := by
    have n7 : Nice (1 / 128) := by have := nice_neg_pow 7 (by norm_num); norm_num at this ⊢; exact this
    have n8 : Nice (128 : ℚ) := by exact nice_nat 128 (by norm_num)
    refine In.of_le (Fl.le_trans ?_ hs.1) (Fl.le_trans hs.2 ?_) n7 n8
    · rw [go_lit, go_lit]; exact ofRat_mono (by norm_num) _ _
    · rw [go_lit, go_lit]; exact ofRat_mono (by norm_num) _ _
  obtain ⟨u1, u2⟩ := C11_bounded_ieee hp cs od ar speed m har hod hs0
  obtain ⟨v14, b14, h14, p14⟩ := lit14
  have aar := adjust_range m h14 p14 har.1 har.2
  have aod := adjust_range m h14 p14 hod.1 hod.2
  simp only at u1 u2 ⊢
  rw [fresh_eq] at u1 u2 ⊢
  simp only [Difficulty.calculate, Difficulty.getModifiedTime] at u1 u2 ⊢
  have nf : Nice (-4096 : ℚ) := by exact (nice_nat 4096 (by norm_num)).neg
  refine ⟨⟨?_, Fl.le_trans u1 (by rw [go_lit, go_lit]; exact ofRat_mono (by norm_num) _ _)⟩,
    ⟨?_, Fl.le_trans u2 (by rw [go_lit, go_lit]; exact ofRat_mono (by norm_num) _ _)⟩⟩
  · obtain ⟨v, c, hv, hv1, hv2⟩ := fin_of_between
      (Fl.le_trans (show Fl.le (.fin 450 false) _ = true by decide +kernel) (rate_ar.anti aar.2))
      (Fl.le_trans (rate_ar.anti aar.1) (show Fl.le _ (.fin 1800 false) = true by decide +kernel))
    have ht : In 0 1800 (difficultyRate (Difficulty.adjust m 1.4 ar) (lit 1800) (lit 1200) (lit 450)) :=
      ⟨v, c, hv, by linarith, hv2⟩
    have hr := modifiedTime_in m (M := 307200) hsI ht (by norm_num) (by norm_num) (by exact nice_nat 307200 (by norm_num))
    have n18 : Nice (1800 : ℚ) := by exact nice_nat 1800 (by norm_num)
    have n12 : Nice (1200 : ℚ) := by exact nice_nat 1200 (by norm_num)
    obtain ⟨w, z, e, hw⟩ := diffFromRate_in (mx := lit 450) (c := 120) (d := 150) hr (by exact nice_nat 307200 (by norm_num)) (in_lit (q := 1800) n18 n18 le_rfl le_rfl)
      (in_lit (q := 1200) n12 n12 le_rfl le_rfl) (by decide +kernel) (by decide +kernel) (by norm_num) (by norm_num)
      (by norm_num) (by norm_num) (by norm_num) (by norm_num) (by norm_num) (by norm_num)
    exact In.lit_le (b := w) ⟨w, z, e, hw, le_rfl⟩ nf
  · obtain ⟨v, c, hv, hv1, hv2⟩ := fin_of_between
      (Fl.le_trans (show Fl.le (.fin 20 false) _ = true by decide +kernel) (rate_h300.anti aod.2))
      (Fl.le_trans (rate_h300.anti aod.1) (show Fl.le _ (.fin 80 false) = true by decide +kernel))
    have ht : In 0 80 (difficultyRate (Difficulty.adjust m 1.4 od) (lit 80) (lit 50) (lit 20)) :=
      ⟨v, c, hv, by linarith, hv2⟩
    have hr := modifiedTime_in m (M := 13654) hsI ht (by norm_num) (by norm_num) (by exact nice_nat 13654 (by norm_num))
    have n18 : Nice (80 : ℚ) := by exact nice_nat 80 (by norm_num)
    have n12 : Nice (50 : ℚ) := by exact nice_nat 50 (by norm_num)
    obtain ⟨w, z, e, hw⟩ := diffFromRate_in (mx := lit 20) (c := 6) (d := 6) hr (by exact nice_nat 13654 (by norm_num)) (in_lit (q := 80) n18 n18 le_rfl le_rfl)
      (in_lit (q := 50) n12 n12 le_rfl le_rfl) (by decide +kernel) (by decide +kernel) (by norm_num) (by norm_num)
      (by norm_num) (by norm_num) (by norm_num) (by norm_num) (by norm_num) (by norm_num)
    exact In.lit_le (b := w) ⟨w, z, e, hw, le_rfl⟩ nf

/-! ### Concrete cases -/

/-- Library functions that satisfy the laws: every power is one, every logarithm is one half. -/
def Sample.libm3 : GoLibm F64 where
  pow _ _ := fin 1 false
  sin _ := fin 1 false
  cos _ := fin 0 false
  acos _ := fin 0 false
  atan2 _ _ := fin 1 false
  log10 _ := fin (1 / 2) false
  cbrt x := x

/-- C69: the laws of the library functions do not contradict each other. -/
theorem Sample.libm3_laws : @PowLaws Sample.libm3 := by
  letI := Sample.libm3
  have h1 : ∀ k : ℕ, k ≤ 1000 → Within 0 (2 ^ k) (fin 1 false) := by
    intro k hk
    exact In.within ⟨1, false, rfl, by norm_num, one_le_pow₀ (by norm_num)⟩ nice_zero (nice_pow k (by omega))
  refine ⟨?_, ?_, ?_, ?_, ?_⟩
  · intro x y _ _
    have := h1 0 (by norm_num)
    rw [pow_zero] at this
    exact this
  · exact fun x y k m hkm _ _ => h1 _ hkm
  · intro x y _ _
    show Fl.le (lit 1 : F64) (fin 1 false) = true
    decide +kernel
  · exact fun x k hk _ => h1 _ (by omega)
  · exact fun x _ => In.within ⟨1 / 2, false, rfl, by norm_num, by norm_num⟩ nice_zero (by exact nice_nat 16 (by norm_num))

/-- C69: a play with three misses and a broken combo on the sample map, with HardRock, DoubleTime and Relax, and one without
arguments, are ordinary. -/
example : OrdinaryPlay Sample.attribs (DiffInput.mk (lit 5) (lit 4) (lit 8) (lit 9) (Mod.HardRock ||| Mod.DoubleTime ||| Mod.Relax) (lit 1)).fresh
      60 90 5 2 3 ∧
    OrdinaryPlay Sample.attribs (DiffInput.mk (lit 5) (lit 4) (lit 8) (lit 9) 0 (lit 1)).fresh (-1) (-1) 0 0 0 := by
  have hs := C69_stats (lit 5) (lit 4) (lit 8) (lit 9) (lit 1)
  refine ⟨⟨by decide +kernel, by decide, by decide, by decide, by decide, by decide +kernel, by decide +kernel,
    by decide +kernel, ⟨by decide +kernel, fun h => by revert h; decide +kernel⟩, by decide +kernel, by unfold Within; decide +kernel, by unfold Within; decide +kernel,
    by unfold Within; decide +kernel, ⟨ofRat_wf _ _, by unfold Within; decide +kernel⟩, ?_, ?_⟩,
    ⟨by decide +kernel, by decide, by decide, by decide, by decide, by decide +kernel, by decide +kernel,
    by decide +kernel, ⟨by decide +kernel, fun h => by revert h; decide +kernel⟩, by decide +kernel, by unfold Within; decide +kernel, by unfold Within; decide +kernel,
    by unfold Within; decide +kernel, ⟨ofRat_wf _ _, by unfold Within; decide +kernel⟩, ?_, ?_⟩⟩
  · exact (hs _ (by unfold Within; decide +kernel) (by unfold Within; decide +kernel) (by unfold Within; decide +kernel)).1
  · exact (hs _ (by unfold Within; decide +kernel) (by unfold Within; decide +kernel) (by unfold Within; decide +kernel)).2
  · exact (hs _ (by unfold Within; decide +kernel) (by unfold Within; decide +kernel) (by unfold Within; decide +kernel)).1
  · exact (hs _ (by unfold Within; decide +kernel) (by unfold Within; decide +kernel) (by unfold Within; decide +kernel)).2

/-- C69: with no objects judged at all the play is ordinary too. -/
example : OrdinaryPlay Sample.attribs (DiffInput.mk (lit 5) (lit 4) (lit 8) (lit 9) Mod.SpunOut (lit 1)).fresh 0 0 0 0 0 := by
  have hs := C69_stats (lit 5) (lit 4) (lit 8) (lit 9) (lit 1) Mod.SpunOut (by unfold Within; decide +kernel)
    (by unfold Within; decide +kernel) (by unfold Within; decide +kernel)
  exact ⟨by decide +kernel, by decide, by decide, by decide, by decide, by decide +kernel, by decide +kernel, by decide +kernel,
    ⟨by decide +kernel, fun _ h => absurd h (by decide +kernel)⟩, by decide +kernel, by unfold Within; decide +kernel,
    by unfold Within; decide +kernel, by unfold Within; decide +kernel, ⟨ofRat_wf _ _, by unfold Within; decide +kernel⟩, hs.1, hs.2⟩

end GosuPP.Props
