import Verif.Lemmas.EndToEnd
import Verif.Props.Written
import Verif.Props.StackBounds
import Verif.Props.StarBounds
import Verif.Props.Sections

/-!
# C80: from the file to the performance points
-/

namespace GosuPP.Props
open Go Fl Spec

section
variable [GoSort] [GoLibm F64]

/-- A parsed map without sliders, of moderate size. -/
structure Moderate (m : BeatMap F32 F64) : Prop where
  noSliders : ∀ o ∈ m.hitObjects, o.isSlider = false
  count : m.hitObjects.length ≤ 2 ^ 15
  times : ∀ o ∈ m.hitObjects, ∃ (n : ℤ) (b : Bool), |n| ≤ 2 ^ 40 ∧ o.base.startTime = fin n b
  places : ∀ o ∈ m.hitObjects, VBd 17 o.base.startPosRaw
  stats : Within 0 10 m.difficulty.getCS ∧ Within 0 10 m.difficulty.getOD ∧ Within 0 10 m.difficulty.getAR
  sorted : m.hitObjects.Pairwise (fun a b => (a.base.startTime <=. b.base.startTime) = true)

/-- The stack data that mods select. -/
def variantOf (mods : Modifier) : Variant :=
  if mods.active Mod.HardRock then .hr else if mods.active Mod.Easy then .ez else .nm

omit [GoSort] [GoLibm F64] in
theorem fresh_of (d : Difficulty F64) (mods : Modifier) (speed : F64) :
    (d.setMods mods).setCustomSpeed speed = (DiffInput.mk d.getHP d.getCS d.getOD d.getAR mods speed).fresh := by
  rw [fresh_eq]
  exact calculate_congr rfl rfl rfl rfl rfl rfl

omit [GoSort] [GoLibm F64] in
theorem new_fresh (d : Difficulty F64) (mods : Modifier) :
    (Difficulty.new d.getHP d.getCS d.getOD d.getAR).setMods mods =
      (DiffInput.mk d.getHP d.getCS d.getOD d.getAR mods (lit 1)).fresh := by
  rw [fresh_eq]
  exact calculate_congr rfl rfl rfl rfl rfl rfl

/-- A position near the playfield stays there when flipped and stacked. -/
theorem placed_modified {fuel : Nat} {text : Str} {m : BeatMap F32 F64} (h : parseText fuel text = .ok (some m))
    (hcs : Within 0 10 m.difficulty.getCS) {o : Obj F32 F64} (ho : o ∈ m.hitObjects) (mods : Modifier)
    (hidx : o.isSpinner = false → |(stackOf o (variantOf mods)).1| ≤ 2 ^ 15) {p : Vec F32} (hp : VBd 17 p) :
    Placed (o.base.modifyPosition p mods) := by
  obtain ⟨px, py⟩ := hp
  have hoff : VBd 18 (stackOf o (variantOf mods)).2 := by
    cases hsp : o.isSpinner with
    | true =>
      obtain ⟨-, z1, z2, z3⟩ := C29_spinners fuel text m h o ho hsp
      have hz : VBd 18 (Vec.zero : Vec F32) := by
        have : Bd 18 (lit 0 : F32) := ⟨0, false, by decide +kernel, by simp [pow2]⟩
        exact ⟨this, this⟩
      cases variantOf mods <;> simp only [stackOf, z1, z2, z3] <;> exact hz
    | false =>
      rw [C79_offset fuel text m h o ho hsp (variantOf mods)]
      have hr : Bd 6 ((Difficulty.new m.difficulty.getHP m.difficulty.getCS m.difficulty.getOD m.difficulty.getAR).setMods
          (variantOf mods).mods).circleRadius := by
        rw [new_fresh, fresh_eq]
        obtain ⟨v13, b13, h13, p13⟩ := lit13
        have acs := adjust_range (variantOf mods).mods h13 p13 hcs.1 hcs.2
        simp only [Difficulty.calculate]
        obtain ⟨v, c, hv, hv1, hv2⟩ := fin_of_between
          (Fl.le_trans (show Fl.le (.fin 1 false) _ = true by decide +kernel) (rate_cs.anti acs.2))
          (Fl.le_trans (rate_cs.anti acs.1) (show Fl.le _ (.fin 64 false) = true by decide +kernel))
        refine ⟨v, c, hv, ?_⟩
        rw [show pow2 6 = 2 ^ 6 from pow2_nat 6, abs_of_nonneg (by linarith)]
        norm_num
        exact hv2
      exact ⟨offset_bd (hidx hsp) hr, offset_bd (hidx hsp) hr⟩
  have add : ∀ {p q : Vec F32}, VBd 18 p → VBd 18 q → Placed (p.add q) := by
    intro p q hp hq
    apply bd_placed
    exact ⟨hp.1.add hq.1 (by decide) (by decide), hp.2.add hq.2 (by decide) (by decide)⟩
  have hp18 : VBd 18 p := ⟨px.mono (by decide), py.mono (by decide)⟩
  unfold HitObject.modifyPosition
  unfold variantOf at hoff
  by_cases a1 : mods.active Mod.HardRock
  · rw [if_pos a1] at hoff ⊢
    refine add ⟨px.mono (by decide), ?_⟩ hoff
    have h384 : Bd 17 (lit 384 : F32) := by
      refine ⟨384, false, by decide +kernel, ?_⟩
      rw [show pow2 17 = 2 ^ 17 from pow2_nat 17, abs_of_pos (by norm_num)]
      norm_num
    exact h384.sub py (by decide) (by decide)
  · rw [if_neg a1] at hoff ⊢
    by_cases a2 : mods.active Mod.Easy
    · rw [if_pos a2] at hoff ⊢
      exact add hp18 hoff
    · rw [if_neg a2] at hoff ⊢
      exact add hp18 hoff

theorem moderate_ordinary {fuel : Nat} {text : Str} {m : BeatMap F32 F64} (h : parseText fuel text = .ok (some m)) (hm : Moderate m)
    (mods : Modifier) (speed : F64) (hs : Within 0.01 100 speed) :
    OrdinaryMap ((m.difficulty.setMods mods).setCustomSpeed speed) m.hitObjects := by
  rw [fresh_of]
  obtain ⟨h1, h2, h3⟩ := C70_stats m.difficulty.getHP m.difficulty.getCS m.difficulty.getOD m.difficulty.getAR speed mods
    hm.stats.1 hm.stats.2.1 hs
  have hmods : (DiffInput.mk m.difficulty.getHP m.difficulty.getCS m.difficulty.getOD m.difficulty.getAR mods speed).fresh.mods = mods := rfl
  refine ⟨h1, h2, h3, hm.count.trans (by norm_num), ?_, ?_⟩
  · intro o ho
    have n40 : Nice (2 ^ 40 : ℚ) := nice_pow 40 (by norm_num)
    obtain ⟨n, b, hn, ht⟩ := hm.times o ho
    have hns := hm.noSliders o ho
    have hplace : Placed (o.base.modifyPosition o.base.startPosRaw mods) := by
      refine placed_modified h hm.stats.1 ho mods (fun _ => ?_) (hm.places o ho)
      obtain ⟨i, hi⟩ := List.getElem?_of_mem ho
      obtain ⟨i1, i2⟩ := C79_bounds fuel text m h hm.noSliders i o hi (variantOf mods)
      have := hm.count
      rw [abs_of_nonneg i1]
      omega
    refine ⟨?_, hplace, ?_, ?_⟩
    · refine In.within ⟨n, b, ht, ?_, ?_⟩ n40.neg n40
      · exact_mod_cast (abs_le.mp hn).1
      · exact_mod_cast (abs_le.mp hn).2
    · show Placed (o.base.modifyPosition o.base.endPosRaw mods)
      rw [parsed_pathless h o ho hns]
      exact hplace
    · intro s hk
      unfold Obj.isSlider at hns
      rw [hk] at hns
      cases hns
  · exact hm.sorted.isChain

omit [GoSort] [GoLibm F64] in
theorem speed_in {mods : Modifier} {speed : F64} (hs : Within 0.25 4 speed) :
    In (1 / 8) 8 ((lit 1 : F64) /. Difficulty.modifiedTime mods speed (lit 1)) := by
  have nat : ∀ n : ℕ, n ≤ 2 ^ 53 → Nice (n : ℚ) := fun n h => nice_nat n h
  have n8 : Nice (8 : ℚ) := by exact nat 8 (by norm_num)
  have n18 : Nice (1 / 8) := by have := nice_neg_pow 3 (by norm_num); norm_num at this ⊢; exact this
  have n14 : Nice (1 / 4) := by have := nice_neg_pow 2 (by norm_num); norm_num at this ⊢; exact this
  have n12 : Nice (1 / 2) := by have := nice_neg_pow 1 (by norm_num); norm_num at this ⊢; exact this
  have n2 : Nice (2 : ℚ) := by exact nat 2 (by norm_num)
  have n4 : Nice (4 : ℚ) := by exact nat 4 (by norm_num)
  have h1 : In 1 1 (lit 1 : F64) := in_lit nice_one nice_one le_rfl le_rfl
  have hsI : In (1 / 4) 4 speed := In.of_le (by have := hs.1; norm_num at this ⊢; exact this) hs.2 n14 n4
  have key : ∀ x : F64, In (1 / 8) 8 x → In (1 / 8) 8 ((lit 1 : F64) /. ((lit 1 : F64) /. x)) := by
    intro x hx
    have h2 := h1.div' hx (by norm_num) (by norm_num) n18 n8 (by norm_num) (by norm_num)
    exact h1.div' h2 (by norm_num) (by norm_num) n18 n8 (by norm_num) (by norm_num)
  have hk : ∀ k : ℚ, 1 / 2 ≤ k → k ≤ 2 → In (1 / 8) 8 ((lit k : F64) *. speed) := by
    intro k k1 k2
    exact (in_lit n12 n2 k1 k2 : In (1 / 2) 2 (lit k : F64)).mul hsI (by norm_num) (by norm_num) n18 n8 (by norm_num) (by norm_num)
  unfold Difficulty.modifiedTime
  split
  · exact key _ (hk _ (by norm_num) (by norm_num))
  split
  · exact key _ (hk _ (by norm_num) (by norm_num))
  · exact key _ (hsI.mono (by norm_num) (by norm_num))

/-- The calculation of an ordinary map returns, and its results are finite. -/
theorem results_of_ordinary (hl : PowLaws) (ht : TrigLaws) {fuel : Nat} {text : Str} {m : BeatMap F32 F64}
    (h : parseText fuel text = .ok (some m))
    (htimes : ∀ o ∈ m.hitObjects, ∃ (n : ℤ) (b : Bool), |n| ≤ 2 ^ 40 ∧ o.base.startTime = fin n b)
    (hstats : Within 0 10 m.difficulty.getCS ∧ Within 0 10 m.difficulty.getOD ∧ Within 0 10 m.difficulty.getAR)
    {mods : Modifier} {speed : F64} (hord : OrdinaryMap ((m.difficulty.setMods mods).setCustomSpeed speed) m.hitObjects)
    (hh : ¬ ∃ o ∈ m.hitObjects, Spec.Hollow o) (hne : m.hitObjects ≠ []) (hs : Within 0.25 4 speed) :
    let d := (m.difficulty.setMods mods).setCustomSpeed speed
    ∃ N, ∀ fuel' ≥ N,
      (∃ a, calculateSingle fuel' m.hitObjects d = .ok a ∧ FiniteStars a ∧
        ∀ (pp : PPv2 F64) (combo n300 n100 n50 nmiss : Int), combo ≤ 2 ^ 50 → 0 ≤ n100 → 0 ≤ n50 → 0 ≤ nmiss →
          (n300 < 0 ∧ n100 + n50 + nmiss ≤ m.hitObjects.length) ∨
            (0 ≤ n300 ∧ n300 + n100 + n50 + nmiss = m.hitObjects.length) →
          let r := (pp.ppv2x a combo n300 n100 n50 nmiss d).results
          FiniteNonneg r.aim ∧ FiniteNonneg r.speed ∧ FiniteNonneg r.acc ∧ FiniteNonneg r.flashlight ∧ FiniteNonneg r.total) ∧
      (∃ p, calculateStrainPeaks fuel' m.hitObjects d = .ok p) := by
  intro d
  have hs' : Within 0.01 100 speed := by
    refine ⟨Fl.le_trans ?_ hs.1, Fl.le_trans hs.2 ?_⟩
    · rw [go_lit, go_lit]; exact ofRat_mono (by norm_num) _ _
    · rw [go_lit, go_lit]; exact ofRat_mono (by norm_num) _ _
  obtain ⟨har, hod⟩ := C69_stats m.difficulty.getHP m.difficulty.getCS m.difficulty.getOD m.difficulty.getAR speed mods
    hstats.2.2 hstats.2.1 hs'
  rw [← fresh_of] at har hod
  have hsec : Ordinary m.hitObjects d.speed := by
    refine ⟨fun o ho => ?_, ?_⟩
    · obtain ⟨n, b, hn, ht⟩ := htimes o (List.mem_of_mem_tail ho)
      refine ⟨n, b, ht, ?_, ?_⟩
      · exact_mod_cast hn.trans (by norm_num)
      · by_cases h0 : n = 0
        · left; exact_mod_cast h0
        · right
          have h1 : (1 : ℚ) ≤ |(n : ℚ)| := by exact_mod_cast Int.one_le_abs h0
          exact _root_.le_trans (by rw [show (1 : ℚ) = pow2 0 by simp [pow2]]; exact pow2_mono (by decide)) h1
    · obtain ⟨v, b, hv, h1, h2⟩ := speed_in (mods := mods) hs
      refine ⟨v, b, ?_, h1, h2.trans ?_⟩
      · show ((m.difficulty.setMods mods).setCustomSpeed speed).speed = _
        rw [fresh_of, fresh_eq]
        exact hv
      · rw [show (8 : ℚ) = pow2 3 by rw [pow2_eq]; norm_num]
        exact pow2_mono (by decide)
  obtain ⟨N, hN⟩ := C62_returns fuel text m h hne d hsec hh
  refine ⟨N, fun fuel' hf => ?_⟩
  obtain ⟨⟨a, ha⟩, p, hp⟩ := hN fuel' hf
  refine ⟨⟨a, ha, C70_single hl ht fuel' hord ha, ?_⟩, p, hp⟩
  intro pp combo n300 n100 n50 nmiss hc h100 h50 hmiss hall
  exact C70_pp hl ht fuel' hord har hod ha pp hc h100 h50 hmiss hall

/-- The calculation of a moderate map returns, and its results are finite. -/
theorem moderate_results (hl : PowLaws) (ht : TrigLaws) {fuel : Nat} {text : Str} {m : BeatMap F32 F64}
    (h : parseText fuel text = .ok (some m)) (hm : Moderate m) (hne : m.hitObjects ≠ []) (mods : Modifier) (speed : F64)
    (hs : Within 0.25 4 speed) :
    let d := (m.difficulty.setMods mods).setCustomSpeed speed
    ∃ N, ∀ fuel' ≥ N,
      (∃ a, calculateSingle fuel' m.hitObjects d = .ok a ∧ FiniteStars a ∧
        ∀ (pp : PPv2 F64) (combo n300 n100 n50 nmiss : Int), combo ≤ 2 ^ 50 → 0 ≤ n100 → 0 ≤ n50 → 0 ≤ nmiss →
          (n300 < 0 ∧ n100 + n50 + nmiss ≤ m.hitObjects.length) ∨
            (0 ≤ n300 ∧ n300 + n100 + n50 + nmiss = m.hitObjects.length) →
          let r := (pp.ppv2x a combo n300 n100 n50 nmiss d).results
          FiniteNonneg r.aim ∧ FiniteNonneg r.speed ∧ FiniteNonneg r.acc ∧ FiniteNonneg r.flashlight ∧ FiniteNonneg r.total) ∧
      (∃ p, calculateStrainPeaks fuel' m.hitObjects d = .ok p) := by
  have hs' : Within 0.01 100 speed := by
    refine ⟨Fl.le_trans ?_ hs.1, Fl.le_trans hs.2 ?_⟩
    · rw [go_lit, go_lit]; exact ofRat_mono (by norm_num) _ _
    · rw [go_lit, go_lit]; exact ofRat_mono (by norm_num) _ _
  refine results_of_ordinary hl ht h hm.times hm.stats (moderate_ordinary h hm mods speed hs') ?_ hne hs
  rintro ⟨o, ho, s, hk, -⟩
  have := hm.noSliders o ho
  unfold Obj.isSlider at this
  rw [hk] at this
  cases this

/-- A written map without sliders: at most 32768 objects, whole coordinates of at most 131071 and times within 34 years. -/
structure ModerateFile (f : File) : Prop where
  good : f.Good
  points : f.points ≠ []
  named : ¬ (f.title = [] ∧ f.artist = [] ∧ f.creator = [])
  noSliders : ∀ o ∈ f.objects, o.kind ≠ .slider
  count : f.objects.length ≤ 2 ^ 15
  times : ∀ o ∈ f.objects, |o.head.time| ≤ 2 ^ 40
  places : ∀ o ∈ f.objects, o.head.x.whole < 2 ^ 17 ∧ o.head.y.whole < 2 ^ 17

theorem clamp_within (d : Dec) : Within 0 10 (clampF64 (d.value : F64) (lit 0) (lit 10)) := by
  have h := (stat_range d.show).1
  have hn : (d.value : F64) ≠ .nan := by
    have hr : ∀ q : ℚ, (lit q : F64) ≠ .nan := fun q => (Fl.le_nn (ofRat_mono (f := fmt64) (le_refl q) false false)).1
    unfold Dec.value
    split
    · intro hc
      generalize hx : (lit (d.whole + fracValue d.frac) : F64) = x at hc
      have := hr (d.whole + fracValue d.frac)
      rw [hx] at this
      cases x <;> first | exact this rfl | cases hc
    · exact hr _
  unfold stat at h
  rw [(parseFloat_show d : (parseFloat d.show : F64) = d.value)] at h
  exact h hn

omit [GoSort] [GoLibm F64] in
theorem given_frame (o : Obj F32 F64) : (given o).isSlider = o.isSlider ∧ (given o).base.startPosRaw = o.base.startPosRaw := by
  obtain ⟨b, k⟩ := o
  cases k <;> exact ⟨rfl, rfl⟩

theorem file_moderate {fuel : Nat} {f : File} (hf : ModerateFile f) {m : BeatMap F32 F64}
    (h : parseText fuel f.text = .ok (some m)) : Moderate m := by
  obtain ⟨os, hos, hp⟩ := C78_objects fuel f hf.good m h
  obtain ⟨-, -, -, hlen, -⟩ := C78_counters fuel f hf.good m h
  obtain ⟨-, -, ⟨-, hcs, hod, har, -⟩, -⟩ := C78_values fuel f hf.good m h
  have key : ∀ o ∈ m.hitObjects, ∃ l ∈ f.objects, ∃ o', LineDescribes fuel l o' ∧ given o = given o' := by
    intro o ho
    obtain ⟨o', ho', e⟩ := List.mem_map.mp (hp.mem_iff.mp (List.mem_map_of_mem (f := given) ho))
    obtain ⟨l, hl, hd⟩ := forall₂_right hos ho'
    exact ⟨l, hl, o', hd, e.symm⟩
  refine ⟨?_, ?_, ?_, ?_, ?_, ?_⟩
  · intro o ho
    obtain ⟨l, hl, o', hd, e⟩ := key o ho
    rw [← (given_frame o).1, e, (given_frame o').1]
    have := hd.rest
    have hns := hf.noSliders l hl
    unfold Obj.isSlider
    cases l with
    | circle h => rw [this.1]
    | spinner h e => rw [this.1]
    | slider h c ps r len => exact absurd rfl hns
  · rw [hlen]; exact hf.count
  · intro o ho
    obtain ⟨l, hl, o', hd, e⟩ := key o ho
    have e1 := congrArg (fun o : Obj F32 F64 => o.base.startTime) e
    simp only [given_start] at e1
    obtain ⟨b, hb⟩ := int_value_exact ((hf.times l hl).trans (by norm_num : (2 : ℤ) ^ 40 ≤ 2 ^ 53))
    exact ⟨l.head.time, b, hf.times l hl, by rw [e1, hd.time, hb]⟩
  · intro o ho
    obtain ⟨l, hl, o', hd, e⟩ := key o ho
    rw [← (given_frame o).2, e, (given_frame o').2, hd.start]
    exact ⟨dec_bd (hf.places l hl).1 (by norm_num), dec_bd (hf.places l hl).2 (by norm_num)⟩
  · rw [hcs, hod, har]
    exact ⟨clamp_within _, clamp_within _, clamp_within _⟩
  · obtain ⟨os, h1, h2⟩ := C20_sorted fuel f.text m h
    refine (h2 ?_).1
    rw [lines_text hf.good, records_objects hf.good] at h1
    intro o ho
    obtain ⟨l, -, hd⟩ := forall₂_right (describes_all hf.good.objects h1) ho
    rw [hd.time]
    exact int_value_nn _

/-- C80 (IEEE). Every written map without sliders of moderate size is parsed; under any mods and a custom speed between a quarter and
four the difficulty calculation of the parsed map returns with finite ratings that are not negative, and every play that
has as many judgements as the map has objects gets finite performance points that are not negative. -/
theorem C80_written (hl : PowLaws) (ht : TrigLaws) (fuel : Nat) (f : File) (hf : ModerateFile f) (hne : f.objects ≠ []) (mods : Modifier)
    (speed : F64) (hs : Within 0.25 4 speed) :
    ∃ m : BeatMap F32 F64, parseText fuel f.text = .ok (some m) ∧ m.hitObjects.length = f.objects.length ∧
      let d := (m.difficulty.setMods mods).setCustomSpeed speed
      ∃ N, ∀ fuel' ≥ N,
        (∃ a, calculateSingle fuel' m.hitObjects d = .ok a ∧ FiniteStars a ∧
          ∀ (pp : PPv2 F64) (combo n300 n100 n50 nmiss : Int), combo ≤ 2 ^ 50 → 0 ≤ n100 → 0 ≤ n50 → 0 ≤ nmiss →
            (n300 < 0 ∧ n100 + n50 + nmiss ≤ f.objects.length) ∨
              (0 ≤ n300 ∧ n300 + n100 + n50 + nmiss = f.objects.length) →
            let r := (pp.ppv2x a combo n300 n100 n50 nmiss d).results
            FiniteNonneg r.aim ∧ FiniteNonneg r.speed ∧ FiniteNonneg r.acc ∧ FiniteNonneg r.flashlight ∧ FiniteNonneg r.total) ∧
        (∃ p, calculateStrainPeaks fuel' m.hitObjects d = .ok p) := by
  obtain ⟨m, h⟩ := C78_parses (S := F32) (D := F64) fuel f hf.good hf.points hf.named hf.noSliders
  obtain ⟨-, -, -, hlen, -⟩ := C78_counters fuel f hf.good m h
  refine ⟨m, h, hlen, ?_⟩
  rw [← hlen]
  refine moderate_results hl ht h (file_moderate hf h) ?_ mods speed hs
  intro he
  rw [he] at hlen
  exact hne (List.length_eq_zero_iff.mp hlen.symm)

end

/-- A circle and a spinner. -/
theorem Sample.plain_moderate : ModerateFile Sample.plain := by
  refine ⟨Sample.plain_good, by simp [Sample.plain, Sample.file], by simp [Sample.plain, Sample.file], by decide, by decide, by decide, ?_⟩
  intro o ho
  simp only [Sample.plain, List.mem_cons, List.not_mem_nil, or_false] at ho
  rcases ho with rfl | rfl <;> decide

/-- With HardRock and DoubleTime at speed 1.25, with laws that a library satisfies. -/
example [GoSort] : ∃ m : BeatMap F32 F64, @parseText F32 F64 _ _ _ _ Sample.libm3 0 Sample.plain.text = .ok (some m) ∧
    m.hitObjects.length = 2 ∧ ∃ N, ∀ fuel ≥ N, ∃ a,
      @calculateSingle F32 F64 _ Sample.libm3 _ _ _ fuel m.hitObjects
        ((m.difficulty.setMods (Mod.HardRock ||| Mod.DoubleTime)).setCustomSpeed (lit 1.25)) = .ok a ∧ FiniteStars a := by
  letI := Sample.libm3
  obtain ⟨m, h1, h2, N, h3⟩ := C80_written Sample.libm3_laws Sample.libm3_trig 0 Sample.plain Sample.plain_moderate (by decide)
    (Mod.HardRock ||| Mod.DoubleTime) (lit 1.25) (by unfold Within; decide +kernel)
  refine ⟨m, h1, h2, N, fun fuel hf => ?_⟩
  obtain ⟨⟨a, h4, h5, -⟩, -⟩ := h3 fuel hf
  exact ⟨a, h4, h5⟩

end GosuPP.Props
