import Verif.Lemmas.Bounds
import Verif.Model.PP
import Verif.Props.Sample

/-!
# PP: C52 (reuse of the receiver), C53 (default arguments), C54 (accuracy, effective misses),
C55 (components switched off by mods)
-/

namespace GosuPP.Props
open Go Fl

section
variable {D : Type} [GoFloat D] [GoLibm D]

/-- C52 (any arithmetic). The result of `PPv2x` does not depend on the receiver. -/
theorem C52_reuse (pp pp' : PPv2 D) (attribs : Attributes D) (combo n300 n100 n50 nmiss : Int)
    (diff : Difficulty D) :
    pp.ppv2x attribs combo n300 n100 n50 nmiss diff = pp'.ppv2x attribs combo n300 n100 n50 nmiss diff := by
  cases pp
  cases pp'
  unfold PPv2.ppv2x PPv2.relaxMisses
  simp only
  split <;> split <;> first | rfl | (rename_i h1 h2; exact absurd h1 h2) | (rename_i h1 h2; exact absurd h2 h1)

/-- C53 (any arithmetic). A negative combo stands for the maximum combo (at least 1). -/
theorem C53_combo (pp : PPv2 D) (attribs : Attributes D) (combo n300 n100 n50 nmiss : Int)
    (diff : Difficulty D) (h : combo < 0) :
    pp.ppv2x attribs combo n300 n100 n50 nmiss diff =
      pp.ppv2x attribs (max 1 attribs.maxCombo) n300 n100 n50 nmiss diff := by
  have hm : maxI 1 attribs.maxCombo = max 1 attribs.maxCombo := by unfold maxI; split <;> omega
  have : pp.setup attribs combo n300 n100 n50 nmiss diff =
      pp.setup attribs (max 1 attribs.maxCombo) n300 n100 n50 nmiss diff := by
    unfold PPv2.setup
    simp only [hm]
    rw [if_pos h, if_neg (by omega : ¬ max 1 attribs.maxCombo < 0)]
  unfold PPv2.ppv2x
  rw [this]

/-- C53 (any arithmetic). A negative number of 300s stands for the number that makes the hits add
up to the number of objects. -/
theorem C53_n300 (pp : PPv2 D) (attribs : Attributes D) (combo n300 n100 n50 nmiss : Int)
    (diff : Difficulty D) (h : n300 < 0) :
    pp.ppv2x attribs combo n300 n100 n50 nmiss diff =
      pp.ppv2x attribs combo (attribs.objectCount - n100 - n50 - nmiss) n100 n50 nmiss diff := by
  have : pp.setup attribs combo n300 n100 n50 nmiss diff =
      pp.setup attribs combo (attribs.objectCount - n100 - n50 - nmiss) n100 n50 nmiss diff := by
    unfold PPv2.setup
    simp only
    rw [if_pos h]
    by_cases h' : attribs.objectCount - n100 - n50 - nmiss < 0
    · rw [if_pos h']
    · rw [if_neg h']
  unfold PPv2.ppv2x
  rw [this]

/-- C53. Then the hits are as many as the objects. -/
theorem C53_total (pp : PPv2 D) (attribs : Attributes D) (combo n300 n100 n50 nmiss : Int)
    (diff : Difficulty D) (h : n300 < 0) :
    (pp.ppv2x attribs combo n300 n100 n50 nmiss diff).totalHits = attribs.objectCount := by
  unfold PPv2.ppv2x PPv2.relaxMisses PPv2.setup
  simp only [h, if_true]
  split <;> simp only <;> omega

/-- C55 (any arithmetic). With Relax the accuracy PP is 0. -/
theorem C55_relax (pp : PPv2 D) (attribs : Attributes D) (combo n300 n100 n50 nmiss : Int)
    (diff : Difficulty D) (h : diff.mods.active Mod.Relax = true) :
    (pp.ppv2x attribs combo n300 n100 n50 nmiss diff).results.acc = lit 0 := by
  have hd : (pp.setup attribs combo n300 n100 n50 nmiss diff).relaxMisses.diff = diff := by
    unfold PPv2.relaxMisses PPv2.setup
    simp only
    split <;> rfl
  unfold PPv2.ppv2x PPv2.computeAccuracyValue
  simp only [hd, h, if_true]

/-- C55 (any arithmetic). Without Flashlight the flashlight PP is 0. -/
theorem C55_flashlight (pp : PPv2 D) (attribs : Attributes D) (combo n300 n100 n50 nmiss : Int)
    (diff : Difficulty D) (h : diff.mods.active Mod.Flashlight = false) :
    (pp.ppv2x attribs combo n300 n100 n50 nmiss diff).results.flashlight = lit 0 := by
  have hd : (pp.setup attribs combo n300 n100 n50 nmiss diff).relaxMisses.diff = diff := by
    unfold PPv2.relaxMisses PPv2.setup
    simp only
    split <;> rfl
  unfold PPv2.ppv2x PPv2.computeFlashlightValue
  have h' : diff.checkModActive Mod.Flashlight = false := h
  simp only [hd, h', Bool.not_false, if_true]

end

/-! ### C54 -/

private theorem clamp01 {x : F64} (h : NN x) :
    ((lit 0 : F64) <=. clampF64 x (lit 0) (lit 1)) = true ∧
    (clampF64 x (lit 0) (lit 1) <=. (lit 1 : F64)) = true := by
  unfold clampF64
  have h0 := fmax_spec (lit_nn 0 : NN (lit 0 : F64)) h
  have h1 := fmin_spec (lit_nn 1 : NN (lit 1 : F64)) (le_nn h0.1).2
  refine ⟨?_, h1.1⟩
  rcases h1.2.2 with e | e <;> rw [e]
  · decide +kernel
  · exact h0.1

variable [GoLibm F64]

/-- C54 (IEEE, any library functions). The accuracy is in [0, 1], for all counts (negative ones
included) that fit into 64 bits. -/
theorem C54_accuracy (pp : PPv2 F64) (attribs : Attributes F64) (combo n300 n100 n50 nmiss : Int)
    (diff : Difficulty F64) (hobj : |attribs.objectCount| ≤ 2 ^ 60) (h300 : |n300| ≤ 2 ^ 60)
    (h100 : |n100| ≤ 2 ^ 60) (h50 : |n50| ≤ 2 ^ 60) (hmiss : |nmiss| ≤ 2 ^ 60) :
    let acc := (pp.ppv2x attribs combo n300 n100 n50 nmiss diff).accuracy
    ((lit 0 : F64) <=. acc) = true ∧ (acc <=. (lit 1 : F64)) = true := by
  have key : ∀ m n : Int, |m| ≤ 2 ^ 62 → |n| ≤ 2 ^ 63 → n ≠ 0 →
      let acc : F64 := clampF64 ((ofInt n50 *. lit 50 +. ofInt n100 *. lit 100 +. ofInt m *. lit 300) /.
        (ofInt n *. lit 300)) (lit 0) (lit 1)
      ((lit 0 : F64) <=. acc) = true ∧ (acc <=. (lit 1 : F64)) = true := by
    intro m n hm hn hn0
    apply clamp01
    have l : ∀ q : ℚ, |q| ≤ 512 → Bd 9 (lit q : F64) := by
      intro q hq
      rw [go_lit]
      exact bd_ofRat (by norm_num [pow2]; exact hq) (by decide) (by decide) _
    have b1 : Bd 72 (ofInt n50 *. lit 50 : F64) :=
      (bd_ofInt64 (by omega)).mul (l 50 (by norm_num)) (by decide) (by decide)
    have b2 : Bd 72 (ofInt n100 *. lit 100 : F64) :=
      (bd_ofInt64 (by omega)).mul (l 100 (by norm_num)) (by decide) (by decide)
    have b3 : Bd 72 (ofInt m *. lit 300 : F64) :=
      (bd_ofInt64 (by omega)).mul (l 300 (by norm_num)) (by decide) (by decide)
    have b4 : Bd 74 (ofInt n50 *. lit 50 +. ofInt n100 *. lit 100 +. ofInt m *. lit 300 : F64) :=
      (b1.add b2 (by decide) (by decide)).add (b3.mono (by decide)) (by decide) (by decide)
    have b5 : Bd 72 (ofInt n *. lit 300 : F64) :=
      (bd_ofInt64 hn).mul (l 300 (by norm_num)) (by decide) (by decide)
    have a4 : Aw 8 (lit 300 : F64) := by
      have hl : (lit 300 : F64) = ofRat fmt64 300 false := rfl
      rw [hl]
      exact aw_ofRat (by norm_num [pow2]) (by decide) _ (l 300 (by norm_num))
    have a5 : Aw 8 (ofInt n *. lit 300 : F64) := (aw_ofInt64 hn0 hn).mul a4 (by decide) b5
    exact div_nn_of b4 a5
  have h0 : ((lit 0 : F64) <=. (lit 0 : F64)) = true ∧ ((lit 0 : F64) <=. (lit 1 : F64)) = true := by
    decide +kernel
  intro acc
  have hacc : acc = (pp.setup attribs combo n300 n100 n50 nmiss diff).accuracy := by
    show (pp.ppv2x attribs combo n300 n100 n50 nmiss diff).accuracy = _
    unfold PPv2.ppv2x PPv2.relaxMisses
    simp only
    split <;> rfl
  rw [hacc]
  rw [abs_le] at hobj h300 h100 h50 hmiss
  obtain ⟨m, hm, hm'⟩ : ∃ m, |m| ≤ 2 ^ 62 ∧
      m = if n300 < 0 then attribs.objectCount - n100 - n50 - nmiss else n300 := by
    refine ⟨_, ?_, rfl⟩
    rw [abs_le]
    split <;> constructor <;> omega
  have hn : |m + n100 + n50 + nmiss| ≤ 2 ^ 63 := by
    rw [abs_le] at hm ⊢
    constructor <;> omega
  have e : (pp.setup attribs combo n300 n100 n50 nmiss diff).accuracy =
      if m + n100 + n50 + nmiss = 0 then lit 0
      else clampF64 ((ofInt n50 *. lit 50 +. ofInt n100 *. lit 100 +. ofInt m *. lit 300) /.
        (ofInt (m + n100 + n50 + nmiss) *. lit 300)) (lit 0) (lit 1) := by
    rw [hm']; rfl
  rw [e]
  by_cases hne : m + n100 + n50 + nmiss = 0
  · rw [if_pos hne]; exact h0
  · rw [if_neg hne]; exact key _ _ hm hn hne

/-- The threshold below which sliders are considered dropped. -/
private theorem eff_trunc {x : F64} {n : Int} (h0 : ((lit 0 : F64) <=. x) = true)
    (hn : 0 ≤ n) (hn' : n ≤ 2 ^ 53) (h : (x <=. (ofInt n : F64)) = true) :
    0 ≤ GoFloat.trunc (GoFloat.floor x) ∧ GoFloat.trunc (GoFloat.floor x) ≤ n := by
  rw [ofInt64_exact (by rw [abs_le]; omega)] at h
  have hz : (lit 0 : F64) = fin 0 false := by rw [go_lit]; exact ofRat_zero _
  rw [hz] at h0
  cases x with
  | nan => cases h
  | inf s => cases s <;> [cases h; cases h0]
  | fin v b =>
    simp only [go_le, le, decide_eq_true_eq] at h h0
    have hf : 0 ≤ ⌊v⌋ := Int.floor_nonneg.mpr h0
    have hfn : ⌊v⌋ ≤ n := by
      have := Int.floor_mono h
      simpa using this
    have hfl : ∃ c, (GoFloat.floor (fin v b : F64)) = fin (⌊v⌋ : ℚ) c := by
      show ∃ c, Fl.floor (fin v b) = _
      unfold Fl.floor
      simp only
      split
      · rename_i hv; exact ⟨b, by rw [hv]; simp⟩
      · exact ⟨false, rfl⟩
    obtain ⟨c, hc⟩ := hfl
    rw [hc]
    show 0 ≤ Fl.trunc (fin (⌊v⌋ : ℚ) c) ∧ Fl.trunc (fin (⌊v⌋ : ℚ) c) ≤ n
    have hv : ¬ ((⌊v⌋ : ℚ) < 0) := by
      rw [not_lt]; exact_mod_cast hf
    have ht : Fl.trunc (fin (⌊v⌋ : ℚ) c : F64) = ⌊v⌋ := by
      unfold Fl.trunc
      simp only [hv, if_false, Int.floor_intCast]
      rw [if_pos (by omega)]
    rw [ht]
    exact ⟨hf, hfn⟩

/-- The effective miss count before Relax is taken into account. -/
theorem eff_bounds (pp : PPv2 F64) (hs : |pp.attribs.sliders| ≤ 2 ^ 60)
    (hmc : |pp.attribs.maxCombo| ≤ 2 ^ 60) (hc0 : 0 ≤ pp.scoreMaxCombo) (hc1 : pp.scoreMaxCombo ≤ 2 ^ 60)
    (ht0 : 0 ≤ pp.totalHits) (ht1 : pp.totalHits ≤ 2 ^ 53) :
    pp.countMiss ≤ pp.calculateEffectiveMissCount ∧ 0 ≤ pp.calculateEffectiveMissCount ∧
    pp.calculateEffectiveMissCount ≤ max pp.countMiss pp.totalHits ∧
    (pp.attribs.maxCombo ≤ pp.scoreMaxCombo ∨ pp.attribs.sliders ≤ 0 →
      pp.calculateEffectiveMissCount = max pp.countMiss 0) := by
  have hz : (lit 0 : F64) = fin 0 false := by rw [go_lit]; exact ofRat_zero _
  have h00 : ((lit 0 : F64) <=. (lit 0 : F64)) = true := by rw [hz]; decide
  -- the part estimated from the combo
  obtain ⟨cb, hcb, hdef, hfull⟩ : ∃ cb : F64, ((lit 0 : F64) <=. cb) = true ∧
      pp.calculateEffectiveMissCount =
        maxI pp.countMiss (GoFloat.trunc (GoFloat.floor (fmin cb (ofInt pp.totalHits)))) ∧
      (pp.attribs.maxCombo ≤ pp.scoreMaxCombo ∨ pp.attribs.sliders ≤ 0 → cb = lit 0) := by
    unfold PPv2.calculateEffectiveMissCount
    by_cases hsl : pp.attribs.sliders > 0
    · simp only [hsl, if_true]
      have hmcB : Bd 63 (ofInt pp.attribs.maxCombo : F64) := bd_ofInt64 (by omega)
      have hslB : Bd 63 (ofInt pp.attribs.sliders : F64) := bd_ofInt64 (by omega)
      have hscB : Bd 63 (ofInt pp.scoreMaxCombo : F64) := bd_ofInt64 (by rw [abs_le]; omega)
      have h01B : Bd 0 (lit 0.1 : F64) := by
        rw [go_lit]; exact bd_ofRat (by norm_num [pow2]) (by decide) (by decide) _
      have hpB : Bd 63 (lit 0.1 *. ofInt pp.attribs.sliders : F64) := h01B.mul hslB (by decide) (by decide)
      have hsc0 : ((lit 0 : F64) <=. ofInt pp.scoreMaxCombo) = true := by
        rw [go_ofInt, go_lit]
        exact ofRat_mono (by exact_mod_cast hc0) _ _
      have hp0 : ((lit 0 : F64) <=. (lit 0.1 *. ofInt pp.attribs.sliders : F64)) = true := by
        have h1 : NonNeg (lit 0.1 : F64) := ofRat_nonneg (by norm_num) _
        have h2 : NonNeg (ofInt pp.attribs.sliders : F64) :=
          ofRat_nonneg (by exact_mod_cast (by omega : (0 : Int) ≤ pp.attribs.sliders)) _
        have := mul_nonneg h1 h2 hpB.nn
        rw [hz]; exact this
      have hthrB : Bd 64 (ofInt pp.attribs.maxCombo -. lit 0.1 *. ofInt pp.attribs.sliders : F64) :=
        hmcB.sub hpB (by decide) (by decide)
      have hthr : ((ofInt pp.attribs.maxCombo -. lit 0.1 *. ofInt pp.attribs.sliders : F64) <=.
          (ofInt pp.attribs.maxCombo : F64)) = true := by
        obtain ⟨w, c, hw, -⟩ := hpB
        rw [hw] at hp0 ⊢
        rw [hz] at hp0
        simp only [go_le, le, decide_eq_true_eq] at hp0
        have hwf : WF (ofInt pp.attribs.maxCombo : F64) := ofRat_wf _ _
        obtain ⟨v, b, hv, -⟩ := hmcB
        rw [hv] at hwf ⊢
        rw [← ofRat_fin hwf]
        show le (Fl.sub (ofRat fmt64 v b) (fin w c)) _ = true
        rw [ofRat_fin hwf]
        show le (ofRat fmt64 (v + -w) _) (fin v b) = true
        rw [← ofRat_fin hwf]
        exact ofRat_mono (by linarith) _ _
      generalize (ofInt pp.attribs.maxCombo -. lit 0.1 *. ofInt pp.attribs.sliders : F64) = thr at *
      by_cases hlt : (ofInt pp.scoreMaxCombo <. thr) = true
      · simp only [hlt, if_true]
        refine ⟨_, ?_, rfl, ?_⟩
        · have hm := fmax_spec (lit_nn 1 : NN (lit 1 : F64)) hscB.nn
          have h1 : (lit 1 : F64) = fin 1 false := by decide +kernel
          have hthr0 : NonNeg thr := by
            have : le (lit 0 : F64) thr = true := Fl.le_trans hsc0 (Fl.le_of_lt hlt)
            rw [hz] at this; exact this
          obtain ⟨v, b, hv, hv1⟩ : ∃ v b, fmax (lit 1) (ofInt pp.scoreMaxCombo : F64) = fin v b ∧ 1 ≤ v := by
            have hge := hm.1
            rcases hm.2.2 with e | e
            · exact ⟨1, false, by rw [e, h1], le_rfl⟩
            · obtain ⟨v, b, hv, -⟩ := hscB
              rw [e, hv, h1] at hge
              simp only [le, decide_eq_true_eq] at hge
              exact ⟨v, b, by rw [e, hv], hge⟩
          rw [hv, hz]
          exact div_nonneg hthr0 (by linarith) b
        · rintro (h | h)
          · exfalso
            have h1 : le (ofInt pp.attribs.maxCombo : F64) (ofInt pp.scoreMaxCombo) = true := by
              rw [go_ofInt, go_ofInt]; exact ofRat_mono (by exact_mod_cast h) _ _
            have := not_lt_of_le (Fl.le_trans hthr h1)
            rw [go_lt] at hlt
            rw [this] at hlt
            cases hlt
          · omega
      · simp only [hlt]
        exact ⟨lit 0, h00, rfl, fun _ => rfl⟩
    · simp only [hsl, if_false]
      exact ⟨lit 0, h00, rfl, fun _ => rfl⟩
  have htn : NN (ofInt pp.totalHits : F64) := ofInt_nn _
  have htnn : ((lit 0 : F64) <=. (ofInt pp.totalHits : F64)) = true := by
    rw [go_ofInt, go_lit]
    exact ofRat_mono (by exact_mod_cast ht0) _ _
  have hmin := fmin_spec (le_nn hcb).2 htn
  have hge : ((lit 0 : F64) <=. fmin cb (ofInt pp.totalHits)) = true := by
    rcases hmin.2.2 with e | e <;> rw [e]
    · exact hcb
    · exact htnn
  obtain ⟨t0, t1⟩ := eff_trunc hge ht0 ht1 hmin.2.1
  rw [hdef]
  generalize ht : GoFloat.trunc (GoFloat.floor (fmin cb (ofInt pp.totalHits : F64))) = t at *
  unfold maxI
  refine ⟨by split <;> omega, by split <;> omega, by split <;> omega, ?_⟩
  intro h
  have hcb0 := hfull h
  have ht' : t ≤ 0 := by
    rw [hcb0] at hmin
    have h1 := hmin.1
    have : (0 : Int) ≤ 0 := le_rfl
    have hz' : (lit 0 : F64) = ofInt 0 := by rw [go_ofInt, go_lit]; norm_num
    rw [hcb0] at hge ht
    rw [hz'] at h1
    have := (eff_trunc (n := 0) hge le_rfl (by norm_num) (by rw [hz'] at *; exact h1)).2
    rw [ht] at this
    exact this
  split <;> omega

/-- C54 (IEEE, any library functions). The effective miss count is at least the number of misses
and at most the larger of the misses and the hits; Relax adds the 100s and 50s to it, up to the
number of hits. With full combo, or without sliders, it is exactly the number of misses. -/
theorem C54_misses (pp : PPv2 F64) (attribs : Attributes F64) (combo n300 n100 n50 nmiss : Int)
    (diff : Difficulty F64) (hs : |attribs.sliders| ≤ 2 ^ 60) (hmc : |attribs.maxCombo| ≤ 2 ^ 60)
    (hc : combo ≤ 2 ^ 60) (h300 : 0 ≤ n300) (h100 : 0 ≤ n100) (h50 : 0 ≤ n50) (hmiss : 0 ≤ nmiss)
    (htot : n300 + n100 + n50 + nmiss ≤ 2 ^ 53) :
    let total := n300 + n100 + n50 + nmiss
    let eff := (pp.ppv2x attribs combo n300 n100 n50 nmiss diff).effectiveMissCount
    nmiss ≤ eff ∧ eff ≤ total ∧
    (combo < 0 ∨ max 1 attribs.maxCombo ≤ combo ∨ attribs.sliders ≤ 0 →
      eff = if diff.mods.active Mod.Relax then nmiss + n100 + n50 else nmiss) ∧
    (diff.mods.active Mod.Relax = true → nmiss + n100 + n50 ≤ eff) := by
  intro total eff
  set q := pp.setup attribs combo n300 n100 n50 nmiss diff with hq
  have hm : maxI 1 attribs.maxCombo = max 1 attribs.maxCombo := by unfold maxI; split <;> omega
  have e1 : q.attribs.sliders = attribs.sliders := rfl
  have e2 : q.attribs.maxCombo = max 1 attribs.maxCombo := hm
  have e3 : q.scoreMaxCombo = if combo < 0 then max 1 attribs.maxCombo else combo := by
    rw [← hm]; rfl
  have e4 : q.totalHits = total := by
    show (if n300 < 0 then attribs.objectCount - n100 - n50 - nmiss else n300) + n100 + n50 + nmiss = _
    rw [if_neg (by omega)]
  have e5 : q.countMiss = nmiss := rfl
  have e6 : q.countOk = n100 := rfl
  have e7 : q.countMeh = n50 := rfl
  have e8 : q.effectiveMissCount = q.calculateEffectiveMissCount := rfl
  have e9 : q.diff = diff := rfl
  rw [abs_le] at hmc
  have hb := eff_bounds q (by rw [e1]; exact hs) (by rw [e2, abs_le]; omega)
    (by rw [e3]; split <;> omega) (by rw [e3]; split <;> omega)
    (by rw [e4]; omega) (by rw [e4]; exact htot)
  have heff : eff = if diff.mods.active Mod.Relax then
      minI (q.effectiveMissCount + n100 + n50) total else q.effectiveMissCount := by
    show (pp.ppv2x attribs combo n300 n100 n50 nmiss diff).effectiveMissCount = _
    unfold PPv2.ppv2x
    rw [← hq]
    unfold PPv2.relaxMisses
    simp only [e9, e6, e7, e4]
    split <;> rfl
  rw [e8] at heff
  obtain ⟨b1, b2, b3, b4⟩ := hb
  rw [e5] at b1 b3 b4
  rw [e4] at b3
  rw [e1, e2, e3] at b4
  have ht : total = n300 + n100 + n50 + nmiss := rfl
  clear_value total
  clear_value eff
  generalize q.calculateEffectiveMissCount = c at *
  have b5 : combo < 0 ∨ max 1 attribs.maxCombo ≤ combo ∨ attribs.sliders ≤ 0 → c = nmiss := by
    intro h
    have := b4 (by split <;> omega)
    omega
  cases hr : diff.mods.active Mod.Relax
  · rw [hr] at heff
    simp only [Bool.false_eq_true, if_false] at heff ⊢
    refine ⟨by omega, by omega, fun h => by rw [heff]; exact b5 h, by simp⟩
  · rw [hr] at heff
    simp only [if_true] at heff ⊢
    unfold minI at heff
    refine ⟨?_, ?_, ?_, ?_⟩
    · split at heff <;> omega
    · split at heff <;> omega
    · intro h
      have := b5 h
      split at heff <;> omega
    · intro _
      split at heff <;> omega

/-! ### Concrete cases -/

/-- Attributes of a map with 100 objects, 30 of them sliders. -/
def Sample.attribs : Attributes F64 :=
  { (Attributes.zero : Attributes F64) with
    aim := lit 2, speed := lit 2, sliderFactor := lit 1
    objectCount := 100, circles := 70, sliders := 30, maxCombo := 200 }

/-- Some receiver. -/
def Sample.pp : PPv2 F64 :=
  { results := ⟨lit 0, lit 0, lit 0, lit 0, lit 0⟩, attribs := Attributes.zero, scoreMaxCombo := 0
    countGreat := 0, countOk := 0, countMeh := 0, countMiss := 0, effectiveMissCount := 0
    diff := Difficulty.new (lit 5) (lit 5) (lit 5) (lit 5), totalHits := 0, accuracy := lit 0
    amountHitObjectsWithAccuracy := 0 }

/-- C54: a combo of 60 out of 200 counts as 3 slider breaks, full combo as none, and a combo of 0
as 100 misses, the number of hits. -/
example : [0, 60, 190, 199, 200, -1].map (fun c =>
    (@PPv2.calculateEffectiveMissCount F64 _ (@PPv2.setup F64 _ Sample.pp Sample.attribs
      c 90 5 4 1 (Difficulty.new (lit 5) (lit 5) (lit 5) (lit 5))))) = [100, 3, 1, 1, 1, 1] := by
  decide +kernel

end GosuPP.Props
