import Verif.Lemmas.SliderFile

/-!
# C85: written maps with straight sliders, from the file to the performance points
-/

namespace GosuPP.Props
open Go Fl Spec

/-- A straight slider through at most 129 points with whole coordinates below 4096, of a length from 1 to 16383, where the
number of spans times the length (and 512 px more for each span) is at most 131072. -/
def StraightLine (h : Head) (c : Char) (ps : List (Dec × Dec)) (r : ℤ) (len : Dec) : Prop :=
  c = 'L' ∧ (∀ p ∈ (h.x, h.y) :: ps, Spec.WholePoint p) ∧ ps.length ≤ 128 ∧ len.neg = false ∧ 1 ≤ len.whole ∧ len.whole < 2 ^ 14 ∧
    1 ≤ r ∧ r * (len.whole + 512) ≤ 2 ^ 17

/-- A written map with straight sliders: times within 8 years, coordinates of at most 131071, beat lengths from 1 to 65535 in
magnitude, slider multiplier and tick rate from a quarter to eight. -/
structure SliderFile (f : File) : Prop where
  good : f.Good
  points : f.points ≠ []
  named : ¬ (f.title = [] ∧ f.artist = [] ∧ f.creator = [])
  count : f.objects.length ≤ 2 ^ 29
  times : ∀ o ∈ f.objects, |o.head.time| ≤ 2 ^ 38
  places : ∀ o ∈ f.objects, o.head.x.whole < 2 ^ 17 ∧ o.head.y.whole < 2 ^ 17
  beats : ∀ p ∈ f.points, 1 ≤ p.beatLength.whole ∧ p.beatLength.whole < 2 ^ 16
  multiplier : f.sliderMultiplier.neg = false ∧ 1 / 4 ≤ f.sliderMultiplier.whole + fracValue f.sliderMultiplier.frac ∧
    f.sliderMultiplier.whole + fracValue f.sliderMultiplier.frac ≤ 8
  tickRate : f.tickRate.neg = false ∧ 1 / 4 ≤ f.tickRate.whole + fracValue f.tickRate.frac ∧ f.tickRate.whole + fracValue f.tickRate.frac ≤ 8
  sliders : ∀ h c ps r len, ObjectLine.slider h c ps r len ∈ f.objects → StraightLine h c ps r len

theorem SliderFile.ranges {f : File} (hf : SliderFile f) :
    In (1 / 4) 8 (f.sliderMultiplier.value : F64) ∧ In (1 / 4) 8 (f.tickRate.value : F64) := by
  have n4 : Nice (1 / 4 : ℚ) := by have := nice_neg_pow 2 (by norm_num); norm_num at this ⊢; exact this
  have n8 : Nice (8 : ℚ) := by exact nice_nat 8 (by norm_num)
  exact ⟨dec_in hf.multiplier.1 n4 n8 hf.multiplier.2.1 hf.multiplier.2.2, dec_in hf.tickRate.1 n4 n8 hf.tickRate.2.1 hf.tickRate.2.2⟩

section
variable [GoSort] [GoLibm F64]

/-- The timing of an object of such a file can be set, and its sliders are tame. -/
theorem SliderFile.timing {f : File} (hf : SliderFile f) {fuel : ℕ} (hfuel : 2 ^ 26 + 4 ≤ fuel) {t : Timings F64} (ht : FairTiming t)
    {l : ObjectLine} (hl : l ∈ f.objects) {o0 o1 : Obj F32 F64} (h0 : LineDescribes fuel l o0)
    (hfresh : ∀ s, o0.kind = .slider s → s.scorePoints = []) (h1 : uncombo o1 = uncombo o0) :
    ∃ o2, o1.setTiming fuel t = .ok o2 ∧ ∀ s2, o2.kind = .slider s2 → TameSlider t s2 := by
  have hk : o1.kind = o0.kind := by
    have : (uncombo o1).kind = (uncombo o0).kind := by rw [h1]
    exact this
  have hs : o1.base.startTime = o0.base.startTime := by
    have : (uncombo o1).base.startTime = (uncombo o0).base.startTime := by rw [h1]
    exact this
  have hr := h0.rest
  cases l with
  | circle h =>
    refine ⟨o1, ?_, fun s e => ?_⟩
    · unfold Obj.setTiming; rw [hk, hr.1]
    · rw [hk, hr.1] at e; cases e
  | spinner h e =>
    refine ⟨o1, ?_, fun s e => ?_⟩
    · unfold Obj.setTiming; rw [hk, hr.1]
    · rw [hk, hr.1] at e; cases e
  | slider h c ps r len =>
    obtain ⟨s, ks, kr, kp, kmc, -⟩ := hr
    obtain ⟨rfl, hpts, hn, hneg, hl1, hl2, hr1, hrw⟩ := hf.sliders _ _ _ _ _ hl
    have nl1 : Nice ((len.whole : ℚ) + 1) := by
      have := nice_nat (len.whole + 1) (by omega)
      push_cast at this; exact this
    have q1 : (1 : ℚ) ≤ len.whole := by exact_mod_cast hl1
    have q2 : (len.whole : ℚ) + 1 ≤ 2 ^ 14 := by exact_mod_cast hl2
    have hfr := fracValue_range len.frac
    obtain ⟨P, zP, hP, P1, P2⟩ : In 1 (len.whole + 1) (len.value : F64) := dec_in hneg nice_one nl1 (by linarith) (by linarith)
    rw [hP] at kmc kp
    obtain ⟨hpath, C, zC, hC, C0, C1⟩ := straight_path (ps := (h.x, h.y) :: ps) hpts (by rw [List.length_cons]; omega) P1 (P2.trans q2) kmc
    obtain ⟨b, hb⟩ := int_value_exact ((hf.times _ hl).trans (by norm_num : (2 : ℤ) ^ 38 ≤ 2 ^ 53))
    have hst : In (-2 ^ 38) (2 ^ 38) o1.base.startTime := by
      rw [hs, h0.time, hb]
      have := abs_le.mp (hf.times _ hl)
      exact ⟨_, b, rfl, by exact_mod_cast this.1, by exact_mod_cast this.2⟩
    obtain ⟨o2, s2, g1, g2, g3⟩ := tame_timing (b := o1.base) (W := len.whole + 512) (fuel := fuel) ht kmc hpath hC kp C0
      (by push_cast; linarith) P1 (by omega) (by rw [kr]; exact hr1) (by rw [kr]; exact_mod_cast hrw) (hfresh s ks) hst hfuel
    have e : o1 = ⟨o1.base, .slider s⟩ := by
      rw [← ks, ← hk]
    refine ⟨o2, by rw [e]; exact g1, fun s2' e2 => ?_⟩
    rw [g2] at e2
    cases e2
    exact g3

/-- C85 (IEEE). A written map with straight sliders is read: the parser ends, without a panic and without an error. -/
theorem C85_parses (fuel : Nat) (hfuel : 2 ^ 26 + 4 ≤ fuel) (f : File) (hf : SliderFile f) :
    ∃ m : BeatMap F32 F64, parseText fuel f.text = .ok (some m) ∧ m.hitObjects.length = f.objects.length := by
  have hc : ∀ r ∈ records "HitObjects" (scanLines bufferSize f.text), ¬ CurveRecord r := by
    intro r hr hcr
    rw [lines_text hf.good, records_objects hf.good] at hr
    obtain ⟨o, hol, rfl⟩ := List.mem_map.mp hr
    obtain ⟨h1, h2⟩ := hcr
    rw [lineKind_written] at h1
    cases o with
    | circle h => cases h1
    | spinner h e => cases h1
    | slider h c ps r len =>
      have hs := hf.sliders _ _ _ _ _ hol
      rw [hs.1, path_written (by decide)] at h2
      rcases h2 with h2 | h2 <;> exact absurd h2 (by simp)
  have hmal : ¬ Malformed (scanLines bufferSize f.text) := by
    rw [lines_text hf.good]
    rintro (⟨r, hr, hb⟩ | ⟨r, hr, hb⟩)
    · rw [records_events hf.good] at hr
      have hlen : 3 ≤ r.length := by
        unfold File.events at hr
        rcases List.mem_cons.mp hr with rfl | hr
        · exact Nat.le_add_left _ _
        · obtain ⟨b, -, rfl⟩ := List.mem_map.mp hr
          exact Nat.le_refl _
      have := hb.2
      omega
    · rw [records_objects hf.good] at hr
      obtain ⟨o, hol, rfl⟩ := List.mem_map.mp hr
      rcases hb with hb | hb
      · unfold BadObject at hb
        rw [lineKind_written] at hb
        cases o with
        | circle h => rcases hb with hb | hb <;> simp [ObjectLine.fields, Head.fields, ObjectLine.kind] at hb
        | spinner h e => rcases hb with hb | hb <;> simp [ObjectLine.fields, Head.fields, ObjectLine.kind] at hb
        | slider h c ps r l =>
          have hs := hf.sliders _ _ _ _ _ hol
          have hlen : (ObjectLine.slider h c ps r l).fields.length = 8 := rfl
          rcases hb with hb | hb
          · omega
          · rcases hb with hb | ⟨p, hp, hb⟩
            · omega
            · rw [hs.1, path_written (by decide), List.tail_cons] at hp
              obtain ⟨q, -, rfl⟩ := List.mem_map.mp hp
              exact hb (by simp)
      · obtain ⟨h1, h2⟩ := hb
        rw [lineKind_written] at h1
        cases o with
        | circle h => cases h1
        | spinner h e => cases h1
        | slider h c ps r l =>
          obtain ⟨-, -, -, -, hl1, -, hr1, hrw⟩ := hf.sliders _ _ _ _ _ hol
          have hlen : (ObjectLine.slider h c ps r l).fields.length = 8 := rfl
          have hrep : repeats (ObjectLine.slider h c ps r l).fields = r := parseInt_showInt (hf.good.objects _ hol).2.2.2
          rw [hrep, hlen] at h2
          have : (0 : ℤ) ≤ l.whole := by positivity
          have : r ≤ 2 ^ 17 := by nlinarith
          rcases h2 with h2 | h2 | h2 <;> omega
  have hnp := mt (C24_iff (S := F32) (D := F64) fuel f.text hc).mp hmal
  have hc' : ∀ p ∈ sectioned [] (scanLines bufferSize f.text), ¬ SliderLine CurveRecord p := by
    intro p hp h
    obtain ⟨r, h1, h2⟩ := (sliderLine_iff _ _).mpr ⟨p, hp, h⟩
    exact hc r h1 h2
  obtain ⟨r, hr⟩ : ∃ r, parseText (S := F32) (D := F64) fuel f.text = .ok r := by
    rcases GosuPP.parseLines_plain (S := F32) (D := F64) (fuel := fuel) (st := ParseState.init) hc' with ⟨st, hst⟩ | hst
    · unfold parseText parseFromLines
      rw [hst, ok_bind]
      unfold finishParse
      simp only
      split
      · exact ⟨_, rfl⟩
      · obtain ⟨os, h1, h2, -⟩ := parseLines_objects hst
        rw [lines_text hf.good] at hst
        rw [lines_text hf.good, records_objects hf.good] at h1
        have hd := describes_all hf.good.objects h1
        have hfr := fresh_all h1
        obtain ⟨l', hl'⟩ : ∃ l', setTimings fuel st.beatMap.timings.finalizePoints
            (comboLoop {} (GoSort.stable (fun x y : Obj F32 F64 => x.base.startTime <. y.base.startTime) st.beatMap.hitObjects)) = .ok l' := by
          apply setTimings_ok
          intro o hom
          have hm := List.mem_map_of_mem (f := uncombo) hom
          rw [comboLoop_frame] at hm
          obtain ⟨o0, ho0, e⟩ := List.mem_map.mp hm
          have ho0 := (GoSort.stable_perm _ _).mem_iff.mp ho0
          rw [h2] at ho0
          obtain ⟨l, hl, hdl⟩ := forall₂_right hd ho0
          obtain ⟨o2, g, -⟩ := hf.timing hfuel (file_timing hf.good hst hf.points hf.beats hf.ranges.1 hf.ranges.2) hl hdl (hfr o0 ho0) e.symm
          exact ⟨o2, g⟩
        rw [hl']
        exact ⟨_, rfl⟩
    · exfalso
      apply hnp
      unfold parseText parseFromLines
      rw [hst]
      rfl
  cases r with
  | some m =>
    obtain ⟨-, -, -, hlen, -⟩ := C78_counters fuel f hf.good m hr
    exact ⟨m, hr, hlen⟩
  | none =>
    exfalso
    rcases (C23_error_iff fuel f.text none hr).mp rfl with hv | hv
    · rw [lines_text hf.good] at hv
      simp only [values_metadata hf.good] at hv
      simp [File.metadata, hf.good.title.2.2, hf.good.artist.2.2, hf.good.creator.2.2] at hv
      exact hf.named hv
    · rw [lines_text hf.good, (records_timing hf.good).1, List.map_eq_nil_iff] at hv
      exact hf.points hv

/-- The parsed map is of moderate size, up to the heights of stacks. -/
theorem SliderFile.moderate {f : File} (hf : SliderFile f) {fuel : ℕ} (hfuel : 2 ^ 26 + 4 ≤ fuel) {m : BeatMap F32 F64}
    (h : parseText fuel f.text = .ok (some m)) (hh : ∀ o ∈ m.hitObjects, ∀ v, |(stackOf o v).1| ≤ 2 ^ 15) : ModerateMap m := by
  obtain ⟨os, hos, hp⟩ := C78_objects fuel f hf.good m h
  obtain ⟨-, -, -, hlen, -⟩ := C78_counters fuel f hf.good m h
  obtain ⟨-, -, ⟨-, hcs, hod, har, -⟩, -⟩ := C78_values fuel f hf.good m h
  have key : ∀ o ∈ m.hitObjects, ∃ l ∈ f.objects, ∃ o', LineDescribes fuel l o' ∧ given o = given o' := by
    intro o ho
    obtain ⟨o', ho', e⟩ := List.mem_map.mp (hp.mem_iff.mp (List.mem_map_of_mem (f := given) ho))
    obtain ⟨l, hl, hd⟩ := forall₂_right hos ho'
    exact ⟨l, hl, o', hd, e.symm⟩
  have ht : FairTiming m.timings := by
    obtain ⟨st, hst, objs, -, rfl⟩ := parseText_some h
    rw [lines_text hf.good] at hst
    exact file_timing hf.good hst hf.points hf.beats hf.ranges.1 hf.ranges.2
  refine ⟨?_, hh, ?_, ?_, ?_, ?_, ?_⟩
  · intro o ho s hk
    obtain ⟨arr, harr, o0, o1, o2, h0, h1, h2, h3⟩ := parsed_from h ho
    rw [lines_text hf.good, records_objects hf.good] at harr
    obtain ⟨l, hl, rfl⟩ := List.mem_map.mp harr
    obtain ⟨o0', e, hd⟩ := create_describes (hf.good.objects l hl) h0
    cases e
    obtain ⟨o2', g1, g2⟩ := hf.timing hfuel ht hl hd (fun s hs => by
      obtain ⟨-, -, -, h⟩ := createObject_newT h0 s hs
      exact h) h1
    rw [h2] at g1
    cases g1
    exact g2 s (by rw [← kind_unstack o2, ← h3, kind_unstack, hk])
  · rw [hlen]; exact hf.count
  · intro o ho
    obtain ⟨l, hl, o', hd, e⟩ := key o ho
    have e1 := congrArg (fun o : Obj F32 F64 => o.base.startTime) e
    simp only [given_start] at e1
    obtain ⟨b, hb⟩ := int_value_exact ((hf.times l hl).trans (by norm_num : (2 : ℤ) ^ 38 ≤ 2 ^ 53))
    exact ⟨l.head.time, b, (hf.times l hl).trans (by norm_num), by rw [e1, hd.time, hb]⟩
  · intro o ho
    obtain ⟨l, hl, o', hd, e⟩ := key o ho
    rw [← (given_frame o).2, e, (given_frame o').2, hd.start]
    exact ⟨dec_bd (hf.places l hl).1 (by norm_num), dec_bd (hf.places l hl).2 (by norm_num)⟩
  · rw [hcs, hod, har]
    exact ⟨clamp_within _, clamp_within _, clamp_within _⟩
  · obtain ⟨os, h1, h2⟩ := C20_sorted fuel f.text m h
    refine (h2 ?_).1
    rw [lines_text hf.good, records_objects hf.good] at h1
    intro o ho
    obtain ⟨l, -, hd⟩ := forall₂_right (describes_all hf.good.objects h1) ho
    rw [hd.time]
    exact int_value_nn _

/-- C85 (IEEE). A written map with straight sliders is parsed, and if no stack of the parsed map is higher than 32768, then under any
mods and a custom speed between a quarter and four the difficulty calculation returns with finite ratings that are not negative, and
every play that has as many judgements as the map has objects gets finite performance points that are not negative. -/
theorem C85_written (hl : PowLaws) (ht : TrigLaws) (fuel : Nat) (hfuel : 2 ^ 26 + 4 ≤ fuel) (f : File) (hf : SliderFile f) (hne : f.objects ≠ []) :
    ∃ m : BeatMap F32 F64, parseText fuel f.text = .ok (some m) ∧ m.hitObjects.length = f.objects.length ∧
      ((∀ o ∈ m.hitObjects, ∀ v, |(stackOf o v).1| ≤ 2 ^ 15) →
        ∀ (mods : Modifier) (speed : F64), Within 0.25 4 speed →
        let d := (m.difficulty.setMods mods).setCustomSpeed speed
        ∃ N, ∀ fuel' ≥ N,
          (∃ a, calculateSingle fuel' m.hitObjects d = .ok a ∧ FiniteStars a ∧
            ∀ (pp : PPv2 F64) (combo n300 n100 n50 nmiss : Int), combo ≤ 2 ^ 50 → 0 ≤ n100 → 0 ≤ n50 → 0 ≤ nmiss →
              (n300 < 0 ∧ n100 + n50 + nmiss ≤ f.objects.length) ∨
                (0 ≤ n300 ∧ n300 + n100 + n50 + nmiss = f.objects.length) →
              let r := (pp.ppv2x a combo n300 n100 n50 nmiss d).results
              FiniteNonneg r.aim ∧ FiniteNonneg r.speed ∧ FiniteNonneg r.acc ∧ FiniteNonneg r.flashlight ∧ FiniteNonneg r.total) ∧
          (∃ p, calculateStrainPeaks fuel' m.hitObjects d = .ok p)) := by
  obtain ⟨m, h, hlen⟩ := C85_parses fuel hfuel f hf
  refine ⟨m, h, hlen, fun hh mods speed hs => ?_⟩
  rw [← hlen]
  refine C83_parsed hl ht fuel f.text m h (hf.moderate hfuel h hh) ?_ mods speed hs
  intro he
  rw [he] at hlen
  exact hne (List.length_eq_zero_iff.mp hlen.symm)

end

/-! ### A concrete file -/

namespace Sample

/-- A file with a straight slider of three points and three spans, and a circle. -/
def straight : File :=
  { Sample.file with
    objects := [.slider ⟨dec 10 [], dec 20 [], 400, false, 0, 2⟩ 'L' [(dec 50 [], dec 20 []), (dec 50 [], dec 80 [])] 3 (dec 90 [5]),
      .circle (head 100 50 1000 true 3)] }

theorem straight_good : straight.Good := by
  obtain ⟨h1, h2, h3, h4, h5, h6, h7, h8, h9, h10, h11, h12, h13, h14, h15, -, -⟩ := file_good
  refine ⟨h1, h2, h3, h4, h5, h6, h7, h8, h9, h10, h11, h12, h13, h14, h15, ?_, by decide +kernel⟩
  intro o ho
  simp only [straight, List.mem_cons, List.not_mem_nil, or_false] at ho
  rcases ho with rfl | rfl <;> (unfold File.GoodObject File.Int64; decide)

theorem straight_file : SliderFile straight := by
  refine ⟨straight_good, by simp [straight, file], by simp [straight, file], by simp [straight], ?_, ?_, ?_, ?_, ?_, ?_⟩
  · intro o ho
    simp only [straight, List.mem_cons, List.not_mem_nil, or_false] at ho
    rcases ho with rfl | rfl <;> decide
  · intro o ho
    simp only [straight, List.mem_cons, List.not_mem_nil, or_false] at ho
    rcases ho with rfl | rfl <;> decide
  · intro p hp
    simp only [straight, file, List.mem_cons, List.not_mem_nil, or_false] at hp
    rcases hp with rfl | rfl <;> decide
  · decide +kernel
  · decide +kernel
  · intro h c ps r len hm
    simp only [straight, List.mem_cons, List.not_mem_nil, or_false, reduceCtorEq] at hm
    cases hm
    refine ⟨rfl, ?_, by decide, by decide, by decide, by decide, by decide, by decide⟩
    intro p hp
    simp only [List.mem_cons, List.not_mem_nil, or_false] at hp
    rcases hp with rfl | rfl | rfl <;> (unfold Spec.WholePoint; decide)

example [GoSort] [GoLibm F64] : ∃ m : BeatMap F32 F64, parseText (2 ^ 26 + 4) straight.text = .ok (some m) ∧ m.hitObjects.length = 2 :=
  C85_parses _ le_rfl straight straight_file

/-- No stack of the parsed map is high … -/
theorem straight_heights : ∃ m, @parseText F32 F64 _ _ _ insertionGoSort libm3 (2 ^ 26 + 4) straight.text = .ok (some m) ∧
    ∀ o ∈ m.hitObjects, ∀ v, |(stackOf o v).1| ≤ 2 ^ 15 := by
  have : (match @parseText F32 F64 _ _ _ insertionGoSort libm3 (2 ^ 26 + 4) straight.text with
    | .ok (some m) => m.hitObjects.all (fun o => [Variant.nm, .ez, .hr].all (fun v => decide (|(stackOf o v).1| ≤ 2 ^ 15)))
    | _ => false) = true := by decide +kernel
  split at this
  · rename_i m hm
    simp only [List.all_eq_true, decide_eq_true_eq] at this
    exact ⟨m, hm, fun o ho v => this o ho v (by cases v <;> simp)⟩
  · cases this

/-- … so that its ratings are finite. -/
example : ∃ m, @parseText F32 F64 _ _ _ insertionGoSort libm3 (2 ^ 26 + 4) straight.text = .ok (some m) ∧
    ∃ N, ∀ fuel ≥ N, ∃ a, @calculateSingle F32 F64 _ libm3 _ _ insertionGoSort fuel m.hitObjects
      ((m.difficulty.setMods (Mod.HardRock ||| Mod.DoubleTime)).setCustomSpeed (lit 1.25)) = .ok a ∧ FiniteStars a := by
  letI := libm3
  letI := insertionGoSort
  obtain ⟨m, h1, -, h2⟩ := C85_written libm3_laws libm3_trig (2 ^ 26 + 4) le_rfl straight straight_file (by simp [straight])
  obtain ⟨m', h3, h4⟩ := straight_heights
  have e : m = m' := by
    have := h1.symm.trans h3
    cases this
    rfl
  subst e
  obtain ⟨N, hN⟩ := h2 h4 (Mod.HardRock ||| Mod.DoubleTime) (lit 1.25) (by unfold Within; decide +kernel)
  refine ⟨m, h1, N, fun fuel hf => ?_⟩
  obtain ⟨⟨a, h5, h6, -⟩, -⟩ := hN fuel hf
  exact ⟨a, h5, h6⟩

end Sample

end GosuPP.Props
