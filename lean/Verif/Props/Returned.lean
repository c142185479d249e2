import Verif.Lemmas.Returned
import Verif.Props.Visible
import Verif.Props.SliderFiles

/-!
# C106: every map as an editor writes it is read and rated
-/

namespace GosuPP.Props
open Go Spec Exactly
attribute [local instance] exactLibm

section
variable [GoSort]

/-- C106 (exact arithmetic). A written map with sliders of every kind is read: the parser ends, without a panic and without an error, and
gives every object. -/
theorem C106_parses {f : File} (hf : EditedFile f) :
    ∃ N, ∀ fuel ≥ N, ∃ m : BeatMap (Option ℝ) (Option ℝ), parseText fuel f.text = .ok (some m) ∧ m.hitObjects.length = f.objects.length := by
  have hq : (0 : ℝ) < 10 * f.sliderMultiplier.amount / f.tickRate.amount := by
    have h1 : (0 : ℝ) < f.sliderMultiplier.amount := by exact_mod_cast hf.multiplier
    have h2 : (0 : ℝ) < f.tickRate.amount := by exact_mod_cast hf.tickRate
    positivity
  obtain ⟨N, hN⟩ := makes_written hf hq
  refine ⟨N, fun fuel hfu => ?_⟩
  have hmk := hN fuel hfu
  have hmal : ¬ Malformed f.lines := by
    rintro (⟨r, hr, hb⟩ | ⟨r, hr, hb⟩)
    · rw [records_events hf.good] at hr
      have hlen : 3 ≤ r.length := by
        unfold File.events at hr
        rcases List.mem_cons.mp hr with rfl | hr
        · exact Nat.le_add_left _ _
        · obtain ⟨b, -, rfl⟩ := List.mem_map.mp hr
          exact Nat.le_refl _
      have := hb.2
      omega
    · rw [records_objects hf.good] at hr
      obtain ⟨o, hol, rfl⟩ := List.mem_map.mp hr
      rcases hb with hb | hb
      · unfold BadObject at hb
        rw [lineKind_written] at hb
        cases o with
        | circle h => rcases hb with hb | hb <;> simp [ObjectLine.fields, Head.fields, ObjectLine.kind] at hb
        | spinner h e => rcases hb with hb | hb <;> simp [ObjectLine.fields, Head.fields, ObjectLine.kind] at hb
        | slider h c ps r l =>
          have hlen : (ObjectLine.slider h c ps r l).fields.length = 8 := rfl
          rcases hb with hb | hb
          · omega
          · rcases hb with hb | ⟨p, hp, hb⟩
            · omega
            · rw [path_written (hf.good.objects _ hol).2.2.1, List.tail_cons] at hp
              obtain ⟨q, -, rfl⟩ := List.mem_map.mp hp
              exact hb (by simp)
      · obtain ⟨h1, h2⟩ := hb
        rw [lineKind_written] at h1
        cases o with
        | circle h => cases h1
        | spinner h e => cases h1
        | slider h c ps r l =>
          have h3 := hf.spans _ _ _ _ _ hol
          have h4 := (hf.lengths _ _ _ _ _ hol).2
          have hlen : (ObjectLine.slider h c ps r l).fields.length = 8 := rfl
          have hrep : repeats (ObjectLine.slider h c ps r l).fields = r := parseInt_showInt (hf.good.objects _ hol).2.2.2
          rw [hrep, hlen] at h2
          rcases h2 with h2 | h2 | h2 <;> omega
  rw [malformed_iff] at hmal
  push Not at hmal
  obtain ⟨st, hst⟩ : ∃ st, parseLines (S := Option ℝ) (D := Option ℝ) fuel f.lines ParseState.init = .ok st := by
    refine lines_read hmal fun p hp r h1 h2 h3 => ?_
    have hr : r ∈ records "HitObjects" f.lines := by
      simp only [records, List.mem_filterMap, recordFor]
      exact ⟨p, hp, by rw [if_pos h2, h1]⟩
    rw [records_objects hf.good] at hr
    obtain ⟨o, hol, rfl⟩ := List.mem_map.mp hr
    rw [lineKind_written] at h3
    cases o with
    | circle h => cases h3
    | spinner h e => cases h3
    | slider h c ps r l =>
      obtain ⟨mc, hmc, -⟩ := hmk _ hol
      have h5 := hf.spans _ _ _ _ _ hol
      exact created_slider (hf.good.objects _ hol) (by omega) (hf.lengths _ _ _ _ _ hol).2 hmc
  obtain ⟨r, hr⟩ : ∃ r, parseText (S := Option ℝ) (D := Option ℝ) fuel f.text = .ok r := by
    unfold parseText parseFromLines
    rw [lines_text hf.good, hst, ok_bind]
    unfold finishParse
    simp only
    split
    · exact ⟨_, rfl⟩
    · obtain ⟨os, h1, h2, -⟩ := parseLines_objects hst
      rw [records_objects hf.good] at h1
      have hd := describes_all hf.good.objects h1
      have hsound := sound_written hf.toFairFile hst
      obtain ⟨r1, r2, r3⟩ := rates_written hf.toFairFile hf.points hst
      obtain ⟨l', hl'⟩ : ∃ l', setTimings fuel st.beatMap.timings.finalizePoints
          (comboLoop {} (GoSort.stable (fun x y : Obj (Option ℝ) (Option ℝ) => x.base.startTime <. y.base.startTime) st.beatMap.hitObjects)) =
          .ok l' := by
        apply setTimings_ok
        intro o hom
        have hm := List.mem_map_of_mem (f := uncombo) hom
        rw [comboLoop_frame] at hm
        obtain ⟨o0, ho0, e⟩ := List.mem_map.mp hm
        have ho0 := (GoSort.stable_perm _ _).mem_iff.mp ho0
        rw [h2] at ho0
        obtain ⟨l, hl, hdl⟩ := forall₂_right hd ho0
        have ek : o0.kind = o.kind := by have := congrArg Obj.kind e; exact this
        have es : o0.base.startTime = o.base.startTime := by
          have := congrArg (fun x => x.base.startTime) e
          exact this
        have hrest := hdl.rest
        unfold Obj.setTiming
        cases l with
        | circle h => rw [← ek, hrest.1]; exact ⟨_, rfl⟩
        | spinner h e => rw [← ek, hrest.1]; exact ⟨_, rfl⟩
        | slider h c ps r len =>
          obtain ⟨s, ks, kr, kp, kmc, -⟩ := hrest
          obtain ⟨mc, hmc, hset⟩ := hmk _ hl
          rw [hmc] at kmc
          rw [← ek, ks]
          exact hset _ o.base s hsound r3 (fun p hp => sound_steps hsound hp r1 r2)
            ⟨_, by rw [← es, hdl.time, value_amount]⟩ (Except.ok.inj kmc).symm kp
      rw [hl']
      exact ⟨_, rfl⟩
  cases r with
  | some m =>
    obtain ⟨-, -, -, hlen, -⟩ := C78_counters fuel f hf.good m hr
    exact ⟨m, hr, hlen⟩
  | none =>
    exfalso
    rcases (C23_error_iff fuel f.text none hr).mp rfl with hv | hv
    · rw [lines_text hf.good] at hv
      simp only [values_metadata hf.good] at hv
      simp [File.metadata, hf.good.title.2.2, hf.good.artist.2.2, hf.good.creator.2.2] at hv
      exact hf.named hv
    · rw [lines_text hf.good, (records_timing hf.good).1, List.map_eq_nil_iff] at hv
      exact hf.points hv

/-- C106 (exact arithmetic). A written map with an object is read and rated: with every combination of mods and at every speed, all
ratings are numbers. -/
theorem C106_rated {f : File} (hf : EditedFile f) (hne : f.objects ≠ []) :
    ∃ N, ∀ fuel ≥ N, ∃ m : BeatMap (Option ℝ) (Option ℝ), parseText fuel f.text = .ok (some m) ∧
      ∀ (mods : Modifier) (s : ℝ), 0 < s → ∃ M, ∀ fuel' ≥ M, ∃ a,
        calculateSingle fuel' m.hitObjects ((m.difficulty.setMods mods).setCustomSpeed (some s)) = .ok a ∧ Rated a := by
  obtain ⟨N, hN⟩ := C106_parses hf
  refine ⟨N, fun fuel hfu => ?_⟩
  obtain ⟨m, hm, -⟩ := hN fuel hfu
  exact ⟨m, hm, fun mods s hs => C105_written hf.toFairFile hne hm hs mods⟩

end

/-- The sample file, with an arc and a Bézier curve. -/
def Sample.curved : File :=
  { Sample.file with objects := Sample.file.objects ++
      [.slider (Sample.head 100 100 4000 true 0) 'P' [(Sample.dec 150 [], Sample.dec 60 []), (Sample.dec 200 [], Sample.dec 100 [])] 1
        (Sample.dec 120 []),
       .slider (Sample.head 10 20 6000 false 0) 'B' [(Sample.dec 50 [], Sample.dec 20 [5]), (Sample.dec 90 [], Sample.dec 120 []),
        (Sample.dec 10 [], Sample.dec 200 [])] 3 (Sample.dec 90 [])] }

private theorem curved_good : Sample.curved.Good := by
  constructor
  case points =>
    intro p hp
    simp only [Sample.curved, Sample.file, List.mem_cons, List.not_mem_nil, or_false] at hp
    rcases hp with rfl | rfl <;> (unfold File.GoodPoint File.Int64; decide)
  case objects =>
    intro o ho
    simp only [Sample.curved, Sample.file, List.mem_append, List.mem_cons, List.not_mem_nil, or_false] at ho
    rcases ho with (rfl | rfl | rfl) | rfl | rfl <;> (unfold File.GoodObject File.Int64; decide)
  case short => decide +kernel
  case version | previewTime | mode | mapID | setID => unfold File.Int64; decide
  case background => decide
  all_goals unfold File.Word; decide +kernel

private theorem curved_edited : EditedFile Sample.curved where
  good := curved_good
  multiplier := by norm_num [Dec.amount, Sample.curved, Sample.file, Sample.dec, fracValue]
  tickRate := by norm_num [Dec.amount, Sample.curved, Sample.file, Sample.dec, fracValue]
  beats p hp := by
    simp only [Sample.curved, Sample.file, List.mem_cons, List.not_mem_nil, or_false] at hp
    rcases hp with rfl | rfl <;> norm_num [Dec.amount, Sample.dec, fracValue]
  spans h c ps r len hm := by
    simp [Sample.curved, Sample.file] at hm
    rcases hm with ⟨-, -, -, rfl, -⟩ | ⟨-, -, -, rfl, -⟩ | ⟨-, -, -, rfl, -⟩ <;> norm_num
  points := by simp [Sample.curved, Sample.file]
  named := by simp [Sample.curved, Sample.file]
  lengths h c ps r len hm := by
    simp [Sample.curved, Sample.file] at hm
    rcases hm with ⟨-, -, -, rfl, rfl⟩ | ⟨-, -, -, rfl, rfl⟩ | ⟨-, -, -, rfl, rfl⟩ <;> norm_num [Dec.amount, Sample.dec, fracValue]
  arcs h a b r len hm := by
    simp [Sample.curved, Sample.file] at hm
    obtain ⟨rfl, ⟨rfl, rfl⟩, -, -⟩ := hm
    intro p hp
    simp only [List.mem_cons, List.not_mem_nil, or_false] at hp
    rcases hp with rfl | rfl | rfl <;> norm_num [Dec.amount, Sample.dec, Sample.head, fracValue, abs_le]

/-- C106: the sample file has a straight line, an arc and a Bézier curve; it is read and rated with HardRock. -/
example [GoSort] : ∃ fuel, ∃ m : BeatMap (Option ℝ) (Option ℝ), parseText fuel Sample.curved.text = .ok (some m) ∧ m.hitObjects.length = 5 ∧
    ∃ fuel' a, calculateSingle fuel' m.hitObjects ((m.difficulty.setMods Mod.HardRock).setCustomSpeed (some 1.5)) = .ok a ∧ Rated a := by
  obtain ⟨N, hN⟩ := C106_parses curved_edited
  obtain ⟨M, hM⟩ := C106_rated curved_edited (by simp [Sample.curved, Sample.file])
  obtain ⟨m, hm, hl⟩ := hN (max N M) (le_max_left ..)
  obtain ⟨m', hm', hr⟩ := hM (max N M) (le_max_right ..)
  rw [hm] at hm'
  cases hm'
  obtain ⟨K, hK⟩ := hr Mod.HardRock 1.5 (by norm_num)
  exact ⟨_, m, hm, hl, K, hK K le_rfl⟩

end GosuPP.Props
