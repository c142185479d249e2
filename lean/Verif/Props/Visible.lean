import Verif.Lemmas.FairFile
import Verif.Lemmas.Visible
import Verif.Props.ParserObjects
import Verif.Props.Rating
import Verif.Props.Written

/-!
# C105: a map file with defined numbers gets defined ratings
-/

namespace GosuPP.Props
open Go Spec Exactly
attribute [local instance] exactLibm

/-- C105 (exact arithmetic). Curves of every type through defined points, with a defined length, have defined points only. -/
theorem C105_curve {fuel : ℕ} {typ : Str} {ps : List (Vec (Option ℝ))} (h : ∀ v ∈ ps, Somewhere v) {len : Option ℝ} (hl : IsNumber len)
    {mc : MultiCurve (Option ℝ)} (e : MultiCurve.newT fuel typ ps len = .ok mc) {t : Option ℝ} (ht : IsNumber t) :
    ∃ v, mc.pointAt t = .ok v ∧ Somewhere v := drawn_pointAt (newT_drawn h hl e) ht

section
variable [GoSort] {fuel : ℕ} {text : Str} {m : BeatMap (Option ℝ) (Option ℝ)}

/-- Where the objects of a map come from. -/
private theorem made (h : parseText fuel text = .ok (some m)) :
    ∃ v sl objs, m.hitObjects = Stacking.calculate v m.difficulty sl objs ∧
      ∀ o2 ∈ objs, ∃ arr ∈ records "HitObjects" (scanLines bufferSize text), ∃ o0 o1 : Obj (Option ℝ) (Option ℝ),
        createObject fuel arr = .ok (some o0) ∧ uncombo o1 = uncombo o0 ∧ o1.setTiming fuel m.timings = .ok o2 := by
  obtain ⟨st, hl, objs, hobj, rfl⟩ := parseText_some h
  refine ⟨_, _, objs, rfl, fun o2 ho2 => ?_⟩
  obtain ⟨o1, ho1, ht⟩ := forall₂_mem_right (setTimings_forall hobj) ho2
  obtain ⟨i, hi⟩ := List.getElem?_of_mem ho1
  rw [comboLoop_getElem] at hi
  cases hr : (GoSort.stable (fun x y : Obj (Option ℝ) (Option ℝ) => x.base.startTime <. y.base.startTime) st.beatMap.hitObjects)[i]? with
  | none => rw [hr] at hi; cases hi
  | some x =>
    rw [hr] at hi
    cases hi
    obtain ⟨os, h1, h2, -⟩ := parseLines_objects hl
    have hx := (GoSort.stable_perm _ _).mem_iff.mp (List.mem_of_getElem? hr)
    rw [h2] at hx
    have hx : some x ∈ os := by simpa [List.reduceOption] using hx
    obtain ⟨arr, ha, h⟩ := mapM_mem h1 hx
    exact ⟨arr, ha, x, _, h, comboOut_uncombo _ _, ht⟩

/-- C105 (exact arithmetic). A file that is read and that gives no NaN or infinity as position, time, path or length, whose CS is a
number, and whose sliders have a span and a positive velocity: whatever the mods, all times are defined and in order, all positions
are defined, and all sliders can be followed. -/
theorem C105_visible (h : parseText fuel text = .ok (some m))
    (hclean : ∀ arr ∈ records "HitObjects" (scanLines bufferSize text), CleanRecord arr) (hcs : IsNumber m.difficulty.cs)
    (hmov : ∀ o ∈ m.hitObjects, Moving m.timings o) (mods : Modifier) : Visible mods m.hitObjects := by
  obtain ⟨v, sl, objs, e, hobjs⟩ := made h
  have given : ∀ o2 ∈ objs, ∃ o1, Given o1 ∧ o1.setTiming fuel m.timings = .ok o2 := by
    intro o2 ho2
    obtain ⟨arr, ha, o0, o1, h0, h1, h2⟩ := hobjs o2 ho2
    obtain ⟨g1, g2, g3, g4, g5⟩ := create_given (hclean arr ha) h0
    have eb := congrArg Obj.base h1
    have ek : o1.kind = o0.kind := by have := congrArg Obj.kind h1; exact this
    refine ⟨o1, ⟨?_, ?_, ?_, by rw [ek]; exact g4, ?_, ?_, ?_⟩, h2⟩
    · rw [show o1.base.startTime = o0.base.startTime from by have := congrArg HitObject.startTime eb; exact this]; exact g1
    · rw [show o1.base.startPosRaw = o0.base.startPosRaw from by have := congrArg HitObject.startPosRaw eb; exact this]; exact g2
    · rw [show o1.base.endPosRaw = o0.base.endPosRaw from by have := congrArg HitObject.endPosRaw eb; exact this]; exact g3
    · rw [show o1.base.stackOffset = o0.base.stackOffset from by have := congrArg HitObject.stackOffset eb; exact this]; exact g5.1
    · rw [show o1.base.stackOffsetEZ = o0.base.stackOffsetEZ from by have := congrArg HitObject.stackOffsetEZ eb; exact this]; exact g5.2.1
    · rw [show o1.base.stackOffsetHR = o0.base.stackOffsetHR from by have := congrArg HitObject.stackOffsetHR eb; exact this]; exact g5.2.2
  have off2 : ∀ o2 ∈ objs, Offsets o2 := by
    intro o2 ho2
    obtain ⟨o1, g, ht⟩ := given o2 ho2
    unfold Obj.setTiming at ht
    split at ht
    · unfold Slider.setTiming at ht
      obtain ⟨tp, -, ht⟩ := bind_ok ht
      obtain ⟨pts, -, ht⟩ := bind_ok ht
      obtain ⟨ep, -, ht⟩ := bind_ok ht
      cases ht
      exact g.stack
    · cases ht
      exact g.stack
  have off : ∀ o ∈ m.hitObjects, Offsets o := by
    rw [e]
    exact offsets_calculate hcs off2
  have full : ∀ o ∈ m.hitObjects, IsNumber o.base.startTime ∧ Somewhere o.base.startPosRaw ∧ Somewhere o.base.endPosRaw ∧
      ∀ s, o.kind = .slider s → s.scorePoints ≠ [] ∧ (∀ p ∈ s.scorePoints, IsNumber p.time) ∧ IsNumber o.base.endTime ∧
        ∀ t : ℝ, ∃ v, sliderPositionAt o.base s (some t) = .ok v ∧ Somewhere v := by
    intro o ho
    have hm : unstack o ∈ objs.map unstack := by
      rw [← Stacking.calculate_frame v m.difficulty sl objs, ← e]
      exact List.mem_map_of_mem ho
    obtain ⟨o2, ho2, he⟩ := List.mem_map.mp hm
    obtain ⟨o1, g, ht⟩ := given o2 ho2
    have eb := congrArg Obj.base he
    have ek : o2.kind = o.kind := by have := congrArg Obj.kind he; exact this
    have est : o2.base.startTime = o.base.startTime := by have := congrArg HitObject.startTime eb; exact this
    have esp : o2.base.startPosRaw = o.base.startPosRaw := by have := congrArg HitObject.startPosRaw eb; exact this
    have een : o2.base.endTime = o.base.endTime := by have := congrArg HitObject.endTime eb; exact this
    have eep : o2.base.endPosRaw = o.base.endPosRaw := by have := congrArg HitObject.endPosRaw eb; exact this
    have epos : ∀ s t, sliderPositionAt o.base s t = sliderPositionAt o2.base s t := by
      intro s t
      unfold sliderPositionAt isRetarded
      rw [est, esp, een]
    rw [← est, ← esp, ← een, ← eep, ← ek]
    simp only [epos]
    have hmv := hmov o ho
    unfold Obj.setTiming at ht
    split at ht
    · rename_i s hk
      obtain ⟨g4, g5, g6⟩ := g.slider s hk
      have hst : o1.base.startTime = o2.base.startTime := by
        unfold Slider.setTiming at ht
        obtain ⟨tp, -, ht⟩ := bind_ok ht
        obtain ⟨pts, -, ht⟩ := bind_ok ht
        obtain ⟨ep, -, ht⟩ := bind_ok ht
        cases ht
        rfl
      have hsp : o1.base.startPosRaw = o2.base.startPosRaw := by
        unfold Slider.setTiming at ht
        obtain ⟨tp, -, ht⟩ := bind_ok ht
        obtain ⟨pts, -, ht⟩ := bind_ok ht
        obtain ⟨ep, -, ht⟩ := bind_ok ht
        cases ht
        rfl
      have hrep : ∃ s2, o2.kind = .slider s2 ∧ s2.repeatCount = s.repeatCount := by
        unfold Slider.setTiming at ht
        obtain ⟨tp, -, ht⟩ := bind_ok ht
        obtain ⟨pts, -, ht⟩ := bind_ok ht
        obtain ⟨ep, -, ht⟩ := bind_ok ht
        cases ht
        exact ⟨_, rfl, rfl⟩
      obtain ⟨s2, hk2, hr2⟩ := hrep
      have hko : o.kind = .slider s2 := ek ▸ hk2
      obtain ⟨s', k', n1, n2, n3, -, -, n6, n7⟩ := timed (fuel := fuel) (tim := m.timings) g4 g.start g.time g5 (by rw [g6]; simp)
        (by rw [← hr2]; exact hmv.spans s2 hko) (by rw [hst, est]; exact hmv.moves s2 hko) ht
      refine ⟨hst ▸ g.time, hsp ▸ g.start, n6, fun s'' hs'' => ?_⟩
      rw [k'] at hs''
      cases hs''
      exact ⟨n1, n2, n3, n7⟩
    · rename_i hk
      cases ht
      exact ⟨g.time, g.start, g.stop, fun s hs => absurd hs (by simpa using hk s)⟩
  refine ⟨fun o ho => (full o ho).1, ?_, fun o ho => ?_, fun o ho => ?_, fun o ho s hs => ?_⟩
  · obtain ⟨os, h1, h2⟩ := C20_sorted_of fuel text m h
    have hnum : ∀ o ∈ os.reduceOption, IsNumber o.base.startTime := by
      intro o ho
      have ho : some o ∈ os := by simpa [List.reduceOption] using ho
      obtain ⟨arr, ha, h⟩ := mapM_mem h1 ho
      exact (create_given (hclean arr ha) h).time
    have hsw : StrictWeak (byStart (S := Option ℝ) (D := Option ℝ)) os.reduceOption := by
      constructor
      · intro a ha
        obtain ⟨x, hx⟩ := hnum a ha
        simp only [byStart, hx, Exact.lt, lt_irrefl, decide_false]
      · intro a ha b hb c hc
        obtain ⟨x, hx⟩ := hnum a ha
        obtain ⟨y, hy⟩ := hnum b hb
        obtain ⟨z, hz⟩ := hnum c hc
        simp only [byStart, hx, hy, hz, Exact.lt, decide_eq_true_eq]
        exact lt_trans
      · intro a ha b hb c hc
        obtain ⟨x, hx⟩ := hnum a ha
        obtain ⟨y, hy⟩ := hnum b hb
        obtain ⟨z, hz⟩ := hnum c hc
        simp only [byStart, hx, hy, hz, Exact.lt, decide_eq_false_iff_not, not_lt]
        exact fun h1 h2 => h2.trans h1
    have hp := (h2 hsw).1
    intro i j o o' s t hij ho ho' hs ht
    rcases Nat.eq_or_lt_of_le hij with rfl | hlt
    · rw [ho] at ho'
      cases ho'
      rw [hs] at ht
      exact (Option.some.inj ht).le
    · obtain ⟨li, ei⟩ := List.getElem?_eq_some_iff.mp ho
      obtain ⟨lj, ej⟩ := List.getElem?_eq_some_iff.mp ho'
      have := List.pairwise_iff_getElem.mp hp i j li lj hlt
      rw [ei, ej, hs, ht, Exact.lt, decide_eq_false_iff_not, not_lt] at this
      exact this
  · exact modify_somewhere (off o ho).1 (off o ho).2.1 (off o ho).2.2 (full o ho).2.1 mods
  · exact modify_somewhere (off o ho).1 (off o ho).2.1 (off o ho).2.2 (full o ho).2.2.1 mods
  · obtain ⟨n1, n2, n3, n4⟩ := (full o ho).2.2.2 s hs
    refine ⟨n1, n2, n3, ?_, fun t => ?_⟩
    · have := (hmov o ho).spans s hs
      omega
    · obtain ⟨z, hz, sz⟩ := n4 t
      refine ⟨o.base.modifyPosition z mods, ?_, modify_somewhere (off o ho).1 (off o ho).2.1 (off o ho).2.2 sz mods⟩
      unfold Obj.getStackedPositionAtMod Obj.getPositionAt
      rw [hs]
      dsimp only
      rw [hz]
      rfl

end

/-- C105 (exact arithmetic). A map in which all times and positions are defined is rated, and all its ratings are numbers, for every
speed, circle radius and hit window above 0. -/
theorem C105_rated [GoSort] {objs : List (Obj (Option ℝ) (Option ℝ))} {d : Difficulty (Option ℝ)} {c r w : ℝ} (hv : Visible d.mods objs)
    (hne : objs ≠ []) (hr : d.speed = some r) (hr0 : 0 < r) (hc : d.circleRadius = some c) (hc0 : 0 < c) (hw : d.hit300 = some w) (hw0 : 0 < w) :
    ∃ N, ∀ fuel ≥ N, ∃ a, calculateSingle fuel objs d = .ok a ∧ Rated a := by
  have hs := visible_shows hc hc0 hne hv
  obtain ⟨N, hN⟩ := C97_returns hs hr hr0 hne
  refine ⟨N, fun fuel hf => ?_⟩
  obtain ⟨p, a, -, ha⟩ := hN fuel hf
  refine ⟨a, ha, ?_⟩
  by_cases hn : 2 ≤ objs.length
  · choose isl hl using islands_exist (r := r) (x := notesOf d objs)
    obtain ⟨l1, l2, l3, l4, -, -, -, -, -, g1, g2, g3, g4, g5⟩ := C100_ratings hs hr hr0 hc hc0 hw hw0 hl hn ha
    exact ⟨⟨_, g1⟩, ⟨_, g2⟩, ⟨_, g3⟩, ⟨_, g4⟩, ⟨_, g5⟩⟩
  · have h1 : objs.length = 1 := by
      have : 0 < objs.length := List.length_pos_iff.mpr hne
      omega
    obtain ⟨o, rfl⟩ := List.length_eq_one_iff.mp h1
    obtain ⟨a1, a2, a3, a4, a5⟩ := C100_one ha
    exact ⟨⟨_, a2⟩, ⟨_, a5⟩, ⟨_, a3⟩, ⟨_, a4⟩, ⟨_, a1⟩⟩

section
variable [GoSort] {fuel : ℕ}

/-- Stats of at most 10 keep circles and hit windows above 0, whatever the mods. -/
private theorem stats {d : Difficulty (Option ℝ)} {cs od s : ℝ} (hcs : d.cs = some cs) (hcs1 : cs ≤ 12) (hod : d.od = some od) (hod1 : od ≤ 13)
    (hs : 0 < s) (mods : Modifier) :
    ∃ r c w : ℝ, 0 < r ∧ 0 < c ∧ 0 < w ∧ ((d.setMods mods).setCustomSpeed (some s)).speed = some r ∧
      ((d.setMods mods).setCustomSpeed (some s)).circleRadius = some c ∧ ((d.setMods mods).setCustomSpeed (some s)).hit300 = some w := by
  obtain ⟨-, x, -, ex, -, h12⟩ := Exactly.adjust_mono mods (k := 1.3) (by norm_num) (show (10 : ℝ) ≤ 12 by norm_num) (le_refl cs)
  obtain ⟨-, y, -, ey, -, h13⟩ := Exactly.adjust_mono mods (k := 1.4) (by norm_num) (show (10 : ℝ) ≤ 13 by norm_num) (le_refl od)
  obtain ⟨r, hr, er⟩ := speed_pos mods hs
  refine ⟨r, 54.4 - 4.48 * x, 80 - 6 * y, hr, ?_, ?_, ?_, ?_, ?_⟩
  · have := h12 hcs1
    norm_num
    linarith
  · have := h13 hod1
    linarith
  · exact er
  · show difficultyRate (Difficulty.adjust mods 1.3 d.cs) _ _ _ = _
    rw [hcs, ex, radius_exact]
  · show difficultyRate (Difficulty.adjust mods 1.4 d.od) _ _ _ = _
    rw [hod, ey, rate300]

/-- C105 (exact arithmetic). From the file to the ratings: a map that is read from a file as in `C105_visible`, with objects, has
ratings that are numbers under all mods and at all speeds. -/
theorem C105_file {text : Str} {m : BeatMap (Option ℝ) (Option ℝ)} (h : parseText fuel text = .ok (some m))
    (hclean : ∀ arr ∈ records "HitObjects" (scanLines bufferSize text), CleanRecord arr)
    (hmov : ∀ o ∈ m.hitObjects, Moving m.timings o) (hne : m.hitObjects ≠ []) {cs od s : ℝ} (hcs : m.difficulty.getCS = some cs)
    (hcs1 : cs ≤ 12) (hod : m.difficulty.getOD = some od) (hod1 : od ≤ 13) (hs : 0 < s) (mods : Modifier) :
    ∃ N, ∀ fuel ≥ N, ∃ a, calculateSingle fuel m.hitObjects ((m.difficulty.setMods mods).setCustomSpeed (some s)) = .ok a ∧ Rated a := by
  obtain ⟨r, c, w, hr, hc, hw, er, ec, ew⟩ := stats hcs hcs1 hod hod1 hs mods
  exact C105_rated (C105_visible h hclean ⟨_, hcs⟩ hmov mods) hne er hr ec hc ew hw

/-- What a written map satisfies once it is read. -/
theorem written_moves {f : File} (hf : FairFile f) {m : BeatMap (Option ℝ) (Option ℝ)} (h : parseText fuel f.text = .ok (some m)) :
    (∀ arr ∈ records "HitObjects" (scanLines bufferSize f.text), CleanRecord arr) ∧ ∀ o ∈ m.hitObjects, Moving m.timings o := by
  constructor
  · intro arr harr
    rw [lines_text hf.good, records_objects hf.good] at harr
    obtain ⟨l, hl, rfl⟩ := List.mem_map.mp harr
    exact clean_written (hf.good.objects l hl)
  · have ht : SoundTiming m.timings := by
      obtain ⟨st, hst, objs, -, rfl⟩ := parseText_some h
      rw [lines_text hf.good] at hst
      exact sound_written hf hst
    intro o ho
    constructor
    · intro s hk
      obtain ⟨arr, harr, o0, o1, o2, h0, h1, h2, h3⟩ := parsed_from h ho
      rw [lines_text hf.good, records_objects hf.good] at harr
      obtain ⟨l, hl, rfl⟩ := List.mem_map.mp harr
      obtain ⟨o0', e, hd⟩ := create_describes (hf.good.objects l hl) h0
      cases e
      have k1 : o1.kind = o0.kind := by have := congrArg Obj.kind h1; exact this
      have k2 : o2.kind = .slider s := by rw [← kind_unstack o2, ← h3, kind_unstack, hk]
      unfold Obj.setTiming at h2
      split at h2
      · rename_i s1 hs1
        have hrep : s.repeatCount = s1.repeatCount := by
          unfold Slider.setTiming at h2
          obtain ⟨tp, -, h2⟩ := bind_ok h2
          obtain ⟨pts, -, h2⟩ := bind_ok h2
          obtain ⟨ep, -, h2⟩ := bind_ok h2
          cases h2
          cases k2
          rfl
        rw [k1] at hs1
        have hr := hd.rest
        cases l with
        | circle h => rw [hr.1] at hs1; cases hs1
        | spinner h e => rw [hr.1] at hs1; cases hs1
        | slider h c ps r len =>
          obtain ⟨s', e, er, -⟩ := hr
          rw [e] at hs1
          cases hs1
          rw [hrep, er]
          exact hf.spans _ _ _ _ _ hl
      · rename_i hn
        cases h2
        exact absurd k2 (by simpa using hn s)
    · intro s _ p hp
      obtain ⟨hv, d, hd, ed⟩ := sound_moves ht (pointAt_mem hp)
      exact ⟨hv, d, hd.le, ed⟩

/-- C105 (exact arithmetic). Every map that can be played and is written with objects has, once it is read, ratings that are numbers,
under all mods and at all speeds. -/
theorem C105_written {f : File} (hf : FairFile f) (hne : f.objects ≠ []) {m : BeatMap (Option ℝ) (Option ℝ)}
    (h : parseText fuel f.text = .ok (some m)) {s : ℝ} (hs : 0 < s) (mods : Modifier) :
    ∃ N, ∀ fuel ≥ N, ∃ a, calculateSingle fuel m.hitObjects ((m.difficulty.setMods mods).setCustomSpeed (some s)) = .ok a ∧ Rated a := by
  obtain ⟨-, -, ⟨-, hcs, hod, -⟩, -⟩ := C78_values fuel f hf.good m h
  obtain ⟨-, -, -, hlen, -⟩ := C78_counters fuel f hf.good m h
  have hcl : ∀ d : Dec, ∃ x : ℝ, (clampF64 d.value (lit 0) (lit 10) : Option ℝ) = some x ∧ x ≤ 10 := by
    intro d
    rw [value_amount, Exact.lit, Exact.lit, Exact.clamp]
    exact ⟨_, rfl, (min_le_left _ _).trans (by norm_num)⟩
  obtain ⟨cs, ecs, hcs1⟩ := hcl f.cs
  obtain ⟨od, eod, hod1⟩ := hcl f.od
  refine C105_file h ?_ ?_ ?_ (hcs.trans ecs) (by linarith) (hod.trans eod) (by linarith) hs mods
  · exact (written_moves hf h).1
  · exact (written_moves hf h).2
  · intro hnil
    rw [hnil, List.length_nil] at hlen
    exact hne (List.length_eq_zero_iff.mp hlen.symm)

end

/-- C105: a Catmull curve through three points can be asked for its middle. -/
example : ∃ mc v, MultiCurve.newT 0 ['C'] [⟨some 0, some 0⟩, ⟨some 30, some 40⟩, ⟨some 60, some (-40)⟩] (some 70 : Option ℝ) = .ok mc ∧
    mc.pointAt (some 0.5) = .ok v ∧ Somewhere v := by
  rcases newT_cases (S := Option ℝ) (D := Option ℝ) 0 ['C'] ⟨some 0, some 0⟩ [⟨some 30, some 40⟩, ⟨some 60, some (-40)⟩] (some 70) with
    ⟨e, h, -⟩ | ⟨-, mc, -, h⟩
  · obtain ⟨ls, h'⟩ := processType_ok (S := Option ℝ) (D := Option ℝ) (fuel := 0) (typ := ['C'])
      (points := [⟨some 0, some 0⟩, ⟨some 30, some 40⟩, ⟨some 60, some (-40)⟩]) (by decide) (by decide)
    rw [h'] at h
    cases h
  · obtain ⟨v, hv, hs⟩ := C105_curve (t := some 0.5) (fun v hv => by
      simp only [List.mem_cons, List.not_mem_nil, or_false] at hv
      rcases hv with rfl | rfl | rfl <;> exact ⟨_, _, rfl⟩) ⟨70, rfl⟩ h ⟨0.5, rfl⟩
    exact ⟨mc, v, h, hv, hs⟩

theorem plain_fair : FairFile Sample.plain where
  good := Sample.plain_good
  multiplier := by norm_num [Dec.amount, Sample.plain, Sample.file, Sample.dec, fracValue]
  tickRate := by norm_num [Dec.amount, Sample.plain, Sample.file, Sample.dec, fracValue]
  beats p hp := by
    simp only [Sample.plain, Sample.file, List.mem_cons, List.not_mem_nil, or_false] at hp
    rcases hp with rfl | rfl <;> norm_num [Dec.amount, Sample.dec, fracValue]
  spans h c ps r len hm := by simp [Sample.plain] at hm

/-- C105: the sample file, with HardRock and DoubleTime at 1.25 times the speed. -/
example [GoSort] : ∃ m : BeatMap (Option ℝ) (Option ℝ), parseText 0 Sample.plain.text = .ok (some m) ∧
    Visible Mod.HardRock m.hitObjects ∧
    ∃ fuel a, calculateSingle fuel m.hitObjects ((m.difficulty.setMods (Mod.HardRock ||| Mod.DoubleTime)).setCustomSpeed (some 1.25)) = .ok a ∧
      Rated a := by
  obtain ⟨m, hm⟩ := C78_parses (S := Option ℝ) (D := Option ℝ) 0 Sample.plain Sample.plain_good (by simp [Sample.plain, Sample.file])
    (by simp [Sample.plain, Sample.file]) (by decide)
  obtain ⟨-, -, ⟨-, hcs, -⟩, -⟩ := C78_values 0 Sample.plain Sample.plain_good m hm
  obtain ⟨N, hN⟩ := C105_written plain_fair (by simp [Sample.plain]) hm (s := 1.25) (by norm_num) (Mod.HardRock ||| Mod.DoubleTime)
  refine ⟨m, hm, C105_visible hm (written_moves plain_fair hm).1 ⟨_, hcs.trans (by rw [value_amount, Exact.lit, Exact.lit, Exact.clamp])⟩
    (written_moves plain_fair hm).2 _, N, hN N le_rfl⟩

end GosuPP.Props
