import Verif.Lemmas.SliderPosition
import Verif.Props.PathPositions
import Verif.Props.EndToEnd
import Verif.Props.Sample

/-!
# C83: maps with sliders, from the parsed map to the performance points
-/

namespace GosuPP.Props
open Go Fl Spec

section
variable [GoSort] [GoLibm F64]

/-- A slider path that was made from at most a million lines between points of at most 65536 in magnitude, each line
of no length or of at least 2^-48, and that is extended by at most 16384. -/
def TamePath (mc : MultiCurve F32) : Prop :=
  ∃ (fuel : ℕ) (typ : Str) (points : List (Vec F32)) (P : ℚ) (zP : Bool) (raw : List (Linear F32)),
    MultiCurve.newT fuel typ points (fin P zP : F64) = .ok mc ∧ processType (D := F64) fuel typ points = .ok raw ∧
    raw.length ≤ 2 ^ 20 ∧ (∀ p, points[0]? = some p → VBd 17 p) ∧
    (∀ l ∈ raw, (∃ x y, Spec.At l.p1 x y ∧ |x| ≤ 2 ^ 16 ∧ |y| ≤ 2 ^ 16) ∧
      ∃ x y, Spec.At l.p2 x y ∧ |x| ≤ 2 ^ 16 ∧ |y| ≤ 2 ^ 16) ∧
    (∀ l ∈ raw, l.p1.eq l.p2 = true ∨ Fl.le (fin (1 / 2 ^ 48) false) (l.getLength (D := F64)) = true) ∧
    -(2 ^ 39) ≤ P ∧ ∀ L z, MultiCurve.totalLength (D := F64) raw = fin L z → P ≤ L + 2 ^ 14

omit [GoSort] in
theorem TamePath.positions {mc : MultiCurve F32} (h : TamePath mc) :
    mc.Measured ∧ Fin mc.length ∧ ∀ t : F32, NN t → ∃ p, mc.pointAt (D := F64) t = .ok p ∧ VBd 17 p := by
  obtain ⟨fuel, typ, points, P, zP, raw, h1, h2, h3, h4, h5, h6, h7, h8⟩ := h
  have e14 : pow2 14 = 2 ^ 14 := pow2_nat 14
  obtain ⟨hf, hp⟩ := C82_positions (k := 16) (j := 14) h1 h2 h3 (by norm_num) (by norm_num) (by norm_num) h5 h6 h7
    (by rw [e14]; exact h8)
  refine ⟨newT_measured h1, hf, fun t ht => ?_⟩
  obtain ⟨p, hp1, hp2⟩ := hp t ht
  refine ⟨p, hp1, ?_⟩
  rcases hp2 with hp2 | ⟨l, hl, hp2⟩
  · exact h4 p hp2
  · obtain ⟨x, y, ⟨a, b, rfl⟩, bx, by'⟩ := nearLine_bound hp2 (h5 l hl).1 (h5 l hl).2 (by rw [e14]; norm_num)
    have e17 : pow2 17 = 2 ^ 17 := pow2_nat 17
    rw [e14] at bx by'
    exact ⟨⟨x, a, rfl, by rw [e17]; exact bx.trans (by norm_num)⟩, ⟨y, b, rfl, by rw [e17]; exact by'.trans (by norm_num)⟩⟩

omit [GoLibm F64] in
/-- The timing of a slider of a parsed map. -/
theorem parsed_slider [GoLibm F64] {fuel : Nat} {text : Str} {m : BeatMap F32 F64} (h : parseText fuel text = .ok (some m))
    {o : Obj F32 F64} (ho : o ∈ m.hitObjects) {s : SliderData F32 F64} (hk : o.kind = .slider s) :
    s.spanDuration = up s.multiCurve.length *. lit 1000 /. m.timings.getVelocity F32 s.tPoint ∧
    o.base.endTime = o.base.startTime +. up s.multiCurve.length *. lit 1000 *. ofInt s.repeatCount /. m.timings.getVelocity F32 s.tPoint ∧
    sliderPositionAt o.base s o.base.endTime = .ok o.base.endPosRaw ∧
    (1 ≤ s.repeatCount → s.scorePoints ≠ []) := by
  obtain ⟨arr, -, o0, o1, o2, h0, h1, h2, h3⟩ := parsed_from h ho
  have k2 : o2.kind = .slider s := by rw [← kind_unstack o2, ← h3, kind_unstack, hk]
  unfold Obj.setTiming at h2
  split at h2
  · rename_i s1 k1
    obtain ⟨tp, pts, pos, e1, e2, e3, rfl⟩ := Slider.setTiming_iff.mp h2
    have k0 : o0.kind = .slider s1 := by
      have : (uncombo o1).kind = (uncombo o0).kind := by rw [h1]
      rw [← k1]
      exact this.symm
    obtain ⟨-, -, -, hsp⟩ := createObject_newT h0 s1 k0
    have hs : s = { s1 with
        tPoint := tp, spanDuration := (Slider.args m.timings tp o1.base s1).spanDuration
        scorePoints := GoSort.slice (fun a b : TickPoint F64 => a.time <. b.time) (s1.scorePoints ++ pts) } := by
      simp only [Kind.slider.injEq] at k2
      exact k2.symm
    have b1 : o.base.startTime = o1.base.startTime := by
      have := congrArg (fun o : Obj F32 F64 => o.base.startTime) h3
      exact this
    have b2 : o.base.endTime = (Slider.args m.timings tp o1.base s1).endTime := congrArg (fun o : Obj F32 F64 => o.base.endTime) h3
    have b3 : o.base.endPosRaw = pos := congrArg (fun o : Obj F32 F64 => o.base.endPosRaw) h3
    have b4 : o.base.startPosRaw = o1.base.startPosRaw := by
      have := congrArg (fun o : Obj F32 F64 => o.base.startPosRaw) h3
      exact this
    subst hs
    refine ⟨rfl, ?_, ?_, ?_⟩
    · rw [b2, b1]; rfl
    · rw [b3, ← e3]
      unfold sliderPositionAt isRetarded
      rw [b1, b2, b4]
    · intro hr hnil
      have hp := (GoSort.slice_perm (fun a b : TickPoint F64 => a.time <. b.time) (s1.scorePoints ++ pts)).length_eq
      change s1.scorePoints = [] at hsp
      change GoSort.slice _ _ = [] at hnil
      rw [hnil, hsp] at hp
      simp only [List.nil_append, List.length_nil] at hp
      obtain ⟨n, hn⟩ : ∃ n, s1.repeatCount.toNat = n + 1 := ⟨s1.repeatCount.toNat - 1, by
        have : (1 : ℤ) ≤ s1.repeatCount := hr
        omega⟩
      rw [hn] at e2
      unfold Slider.spanLoop at e2
      obtain ⟨l, hl, e2⟩ := bind_ok e2
      obtain ⟨r, -, e2⟩ := bind_ok e2
      unfold Slider.spanTicks at hl
      obtain ⟨l', -, hl⟩ := bind_ok hl
      cases hl
      cases e2
      simp at hp
  · rename_i hn
    cases h2
    exact absurd k2 (hn s)

/-- A slider of a parsed map: between 1 and a million spans, at most a million score points at ordinary times, a
velocity between a millionth and a trillion, and a tame path. -/
structure TameSlider (t : Timings F64) (s : SliderData F32 F64) : Prop where
  path : TamePath s.multiCurve
  repeats : 1 ≤ s.repeatCount ∧ s.repeatCount ≤ 2 ^ 20
  points : s.scorePoints.length ≤ 2 ^ 20
  times : ∀ p ∈ s.scorePoints, Within (-2 ^ 40) (2 ^ 40) p.time
  velocity : ∃ V z, t.getVelocity F32 s.tPoint = fin V z ∧ 1 / 2 ^ 20 ≤ V ∧ V ≤ 2 ^ 40

/-- A parsed map of moderate size. -/
structure ModerateMap (m : BeatMap F32 F64) : Prop where
  sliders : ∀ o ∈ m.hitObjects, ∀ s, o.kind = .slider s → TameSlider m.timings s
  heights : ∀ o ∈ m.hitObjects, ∀ v, |(stackOf o v).1| ≤ 2 ^ 15
  count : m.hitObjects.length ≤ 2 ^ 29
  times : ∀ o ∈ m.hitObjects, ∃ (n : ℤ) (b : Bool), |n| ≤ 2 ^ 40 ∧ o.base.startTime = fin n b
  places : ∀ o ∈ m.hitObjects, VBd 17 o.base.startPosRaw
  stats : Within 0 10 m.difficulty.getCS ∧ Within 0 10 m.difficulty.getOD ∧ Within 0 10 m.difficulty.getAR
  sorted : m.hitObjects.Pairwise (fun a b => (a.base.startTime <=. b.base.startTime) = true)

/-- Where a slider of such a map is. -/
theorem tame_position {fuel : Nat} {text : Str} {m : BeatMap F32 F64} (h : parseText fuel text = .ok (some m)) (hm : ModerateMap m)
    {o : Obj F32 F64} (ho : o ∈ m.hitObjects) {s : SliderData F32 F64} (hk : o.kind = .slider s) :
    NN o.base.endTime ∧ ∀ time, NN time → ∃ p, sliderPositionAt o.base s time = .ok p ∧ VBd 17 p := by
  obtain ⟨e1, e2, -, -⟩ := parsed_slider h ho hk
  have hs := hm.sliders o ho s hk
  obtain ⟨hmeas, hf, hpos⟩ := hs.path.positions
  obtain ⟨n, b, hn, ht⟩ := hm.times o ho
  obtain ⟨V, z, hv, v1, v2⟩ := hs.velocity
  have p20 : pow2 (-20) = 1 / 2 ^ 20 := rfl
  have p40 : pow2 40 = 2 ^ 40 := pow2_nat 40
  have hn' : |(n : ℚ)| ≤ 2 ^ 40 := by exact_mod_cast hn
  obtain ⟨c1, c2⟩ := sliderPosition_cases ht (hn'.trans (by rw [← p40]; exact pow2_mono (by norm_num)))
    (Fl.rep_int (hn.trans (by decide)) (by decide)) e1 e2 hv (by rw [p20]; exact v1) (by rw [p40]; exact v2) hs.repeats.1 hs.repeats.2 hmeas hf
  refine ⟨c1, fun time htime => ?_⟩
  rcases c2 time htime with hc | ⟨t, ht, hc⟩
  · exact ⟨_, hc, hm.places o ho⟩
  · rw [hc]; exact hpos t ht

theorem tame_ordinary {fuel : Nat} {text : Str} {m : BeatMap F32 F64} (h : parseText fuel text = .ok (some m)) (hm : ModerateMap m)
    (mods : Modifier) (speed : F64) (hs : Within 0.01 100 speed) :
    OrdinaryMap ((m.difficulty.setMods mods).setCustomSpeed speed) m.hitObjects := by
  rw [fresh_of]
  obtain ⟨h1, h2, h3⟩ := C70_stats m.difficulty.getHP m.difficulty.getCS m.difficulty.getOD m.difficulty.getAR speed mods
    hm.stats.1 hm.stats.2.1 hs
  refine ⟨h1, h2, h3, hm.count, ?_, hm.sorted.isChain⟩
  intro o ho
  have n40 : Nice (2 ^ 40 : ℚ) := nice_pow 40 (by norm_num)
  obtain ⟨n, b, hn, ht⟩ := hm.times o ho
  have hplace : ∀ {p : Vec F32}, VBd 17 p → Placed (o.base.modifyPosition p mods) := fun hp =>
    placed_modified h hm.stats.1 ho mods (fun _ => hm.heights o ho _) hp
  have hstart : In (-2 ^ 40) (2 ^ 40) o.base.startTime := by
    refine ⟨n, b, ht, ?_, ?_⟩
    · exact_mod_cast (abs_le.mp hn).1
    · exact_mod_cast (abs_le.mp hn).2
  refine ⟨hstart.within n40.neg n40, hplace (hm.places o ho), ?_, ?_⟩
  · refine hplace ?_
    cases hk : o.isSlider with
    | false => rw [parsed_pathless h o ho hk]; exact hm.places o ho
    | true =>
      obtain ⟨s, hk⟩ : ∃ s, o.kind = .slider s := by
        unfold Obj.isSlider at hk
        split at hk
        · rename_i s h; exact ⟨s, h⟩
        · cases hk
      obtain ⟨c1, c2⟩ := tame_position h hm ho hk
      obtain ⟨p, hp1, hp2⟩ := c2 _ c1
      obtain ⟨-, -, e3, -⟩ := parsed_slider h ho hk
      rw [hp1] at e3
      cases e3
      exact hp2
  · intro s hk
    have hsl := hm.sliders o ho s hk
    obtain ⟨c1, c2⟩ := tame_position h hm ho hk
    refine ⟨hsl.points, hsl.repeats, hsl.times, ?_⟩
    intro t hmem v hv
    have htn : NN t := by
      unfold usedTimes at hmem
      simp only [List.mem_append, List.mem_cons, List.mem_map, Option.mem_toList, Option.mem_def, Option.map_eq_some_iff] at hmem
      rcases hmem with (rfl | ⟨p, hp, rfl⟩) | ⟨l, hl, rfl⟩
      · exact c1
      · exact (Fl.le_nn (hsl.times p hp).1).2
      · have hw := hsl.times l (List.mem_of_getLast? hl)
        have hin : In (-2 ^ 40) (2 ^ 40) l.time := In.of_le (by have := hw.1; norm_num at this ⊢; exact this) hw.2 n40.neg n40
        have n41 : Nice (2 ^ 41 : ℚ) := nice_pow 41 (by norm_num)
        obtain ⟨v1, z1, g1, -, -⟩ := hin.sub hstart n41.neg n41 (by norm_num) (by norm_num)
        rw [g1, ht]
        exact ofRat_nn _ _
    unfold Obj.getStackedPositionAtMod Obj.getPositionAt at hv
    rw [hk] at hv
    obtain ⟨p, hp1, hp2⟩ := c2 t htn
    simp only [hp1, ok_bind] at hv
    cases hv
    exact hplace hp2

/-- C83 (IEEE). A parsed map of moderate size, with sliders on tame paths: the calculations of its difficulty return under
any mods and a custom speed between a quarter and four, with finite ratings that are not negative, and every play that
has as many judgements as the map has objects gets finite performance points that are not negative. -/
theorem C83_parsed (hl : PowLaws) (ht : TrigLaws) (fuel : Nat) (text : Str) (m : BeatMap F32 F64)
    (h : parseText fuel text = .ok (some m)) (hm : ModerateMap m) (hne : m.hitObjects ≠ []) (mods : Modifier) (speed : F64)
    (hs : Within 0.25 4 speed) :
    let d := (m.difficulty.setMods mods).setCustomSpeed speed
    ∃ N, ∀ fuel' ≥ N,
      (∃ a, calculateSingle fuel' m.hitObjects d = .ok a ∧ FiniteStars a ∧
        ∀ (pp : PPv2 F64) (combo n300 n100 n50 nmiss : Int), combo ≤ 2 ^ 50 → 0 ≤ n100 → 0 ≤ n50 → 0 ≤ nmiss →
          (n300 < 0 ∧ n100 + n50 + nmiss ≤ m.hitObjects.length) ∨
            (0 ≤ n300 ∧ n300 + n100 + n50 + nmiss = m.hitObjects.length) →
          let r := (pp.ppv2x a combo n300 n100 n50 nmiss d).results
          FiniteNonneg r.aim ∧ FiniteNonneg r.speed ∧ FiniteNonneg r.acc ∧ FiniteNonneg r.flashlight ∧ FiniteNonneg r.total) ∧
      (∃ p, calculateStrainPeaks fuel' m.hitObjects d = .ok p) := by
  intro d
  have hs' : Within 0.01 100 speed := by
    refine ⟨Fl.le_trans ?_ hs.1, Fl.le_trans hs.2 ?_⟩
    · rw [go_lit, go_lit]; exact ofRat_mono (by norm_num) _ _
    · rw [go_lit, go_lit]; exact ofRat_mono (by norm_num) _ _
  have hord := tame_ordinary h hm mods speed hs'
  refine results_of_ordinary hl ht h hm.times hm.stats hord ?_ hne hs
  rintro ⟨o, ho, s, hk, hnil⟩
  exact (parsed_slider h ho hk).2.2.2 (hm.sliders o ho s hk).repeats.1 hnil

end

/-! ### A concrete map -/

namespace Sample
open GosuPP.Sample

/-- The control points of the slider of the sample file `stacked`. -/
def sliderPoints : List (Vec F32) := [⟨fin 64 false, fin 64 false⟩, ⟨fin 164 false, fin 64 false⟩]

theorem sliderPath_tame {mc : MultiCurve F32}
    (h : @MultiCurve.newT F32 F64 _ _ _ libm3 100 ['L'] sliderPoints (fin 100 false) = .ok mc) : @TamePath libm3 mc := by
  letI := libm3
  have e17 : pow2 17 = 2 ^ 17 := pow2_nat 17
  refine ⟨100, ['L'], sliderPoints, 100, false, processLinear sliderPoints, h, rfl, by decide, ?_, ?_, ?_, by norm_num, ?_⟩
  · intro p hp
    cases hp
    exact ⟨⟨64, false, rfl, by rw [e17]; norm_num⟩, ⟨64, false, rfl, by rw [e17]; norm_num⟩⟩
  · intro l hl
    have e : processLinear sliderPoints = [⟨⟨fin 64 false, fin 64 false⟩, ⟨fin 164 false, fin 64 false⟩⟩] := by decide
    rw [e, List.mem_singleton] at hl
    subst hl
    exact ⟨⟨64, 64, ⟨_, _, rfl⟩, by norm_num, by norm_num⟩, ⟨164, 64, ⟨_, _, rfl⟩, by norm_num, by norm_num⟩⟩
  · decide +kernel
  · intro L z hL
    have e : MultiCurve.totalLength (D := F64) (processLinear sliderPoints) = fin 100 false := by decide +kernel
    rw [e] at hL
    cases hL
    norm_num

/-- Whether a value is finite and within bounds. -/
def inside {f : Fmt} (lo hi : ℚ) : Fl f → Bool
  | fin v _ => decide (lo ≤ v) && decide (v ≤ hi)
  | _ => false

theorem inside_iff {f : Fmt} {lo hi : ℚ} {x : Fl f} (h : inside lo hi x = true) : ∃ v z, x = fin v z ∧ lo ≤ v ∧ v ≤ hi := by
  cases x with
  | fin v z => simp only [inside, Bool.and_eq_true, decide_eq_true_eq] at h; exact ⟨v, z, rfl, h⟩
  | _ => cases h

/-- Whether the start time of an object is a whole number of moderate size. -/
def wholeTime : F64 → Bool
  | fin v _ => decide (v.den = 1) && decide (|v.num| ≤ 2 ^ 40)
  | _ => false

/-- Whether a map is of moderate size, and all its sliders are on the path of the sample. -/
def moderate [GoLibm F64] (m : BeatMap F32 F64) : Bool :=
  m.hitObjects.all (fun o =>
    (match o.kind with
     | .slider s =>
       (match MultiCurve.newT (D := F64) 100 ['L'] sliderPoints (fin 100 false) with
        | .ok mc => mc.sections == s.multiCurve.sections && mc.lines == s.multiCurve.lines && mc.length == s.multiCurve.length &&
            mc.firstPoint == s.multiCurve.firstPoint
        | _ => false) &&
       decide (1 ≤ s.repeatCount ∧ s.repeatCount ≤ 2 ^ 20) && decide (s.scorePoints.length ≤ 2 ^ 20) &&
       s.scorePoints.all (fun p => inside (-(2 ^ 40)) (2 ^ 40) p.time) &&
       inside (1 / 2 ^ 20) (2 ^ 40) (m.timings.getVelocity F32 s.tPoint)
     | _ => true) &&
    (decide (|o.base.stackIndex| ≤ 2 ^ 15) && decide (|o.base.stackIndexEZ| ≤ 2 ^ 15) && decide (|o.base.stackIndexHR| ≤ 2 ^ 15)) &&
    wholeTime o.base.startTime && (inside (-(2 ^ 17)) (2 ^ 17) o.base.startPosRaw.x && inside (-(2 ^ 17)) (2 ^ 17) o.base.startPosRaw.y)) &&
  decide (m.hitObjects.length ≤ 2 ^ 29) &&
  (inside 0 10 m.difficulty.getCS && inside 0 10 m.difficulty.getOD && inside 0 10 m.difficulty.getAR) &&
  decide (m.hitObjects.Pairwise (fun a b => (a.base.startTime <=. b.base.startTime) = true))

theorem moderate_map {m : BeatMap F32 F64} (h : @moderate libm3 m = true) : @ModerateMap libm3 m := by
  letI := libm3
  letI := insertionGoSort
  unfold moderate at h
  simp only [Bool.and_eq_true, decide_eq_true_eq, List.all_eq_true] at h
  obtain ⟨⟨⟨h1, h2⟩, h3⟩, h4⟩ := h
  have w10 : ∀ x : F64, inside 0 10 x = true → Within 0 10 x := fun x hx => by
    obtain ⟨v, z, rfl, a, b⟩ := inside_iff hx
    exact In.within ⟨v, z, rfl, a, b⟩ (by simpa using nice_nat 0 (by norm_num)) (by simpa using nice_nat 10 (by norm_num))
  have n40 : Nice (2 ^ 40 : ℚ) := nice_pow 40 (by norm_num)
  refine ⟨?_, ?_, h2, ?_, ?_, ⟨w10 _ h3.1.1, w10 _ h3.1.2, w10 _ h3.2⟩, h4⟩
  · intro o ho s hk
    have := (h1 o ho).1.1.1
    rw [hk] at this
    simp only [Bool.and_eq_true, decide_eq_true_eq, List.all_eq_true] at this
    obtain ⟨⟨⟨⟨a1, a2⟩, a3⟩, a4⟩, a5⟩ := this
    refine ⟨?_, a2, a3, ?_, ?_⟩
    · apply sliderPath_tame
      split at a1
      · rename_i mc hmc
        rw [hmc]
        simp only [Bool.and_eq_true, beq_iff_eq] at a1
        obtain ⟨⟨⟨b1, b2⟩, b3⟩, b4⟩ := a1
        cases mc
        cases hs : s.multiCurve
        rw [hs] at b1 b2 b3 b4
        simp only at b1 b2 b3 b4
        rw [b1, b2, b3, b4]
      · cases a1
    · intro p hp
      obtain ⟨v, z, e, b1, b2⟩ := inside_iff (a4 p hp)
      have : In (-(2 ^ 40)) (2 ^ 40) p.time := ⟨v, z, e, b1, b2⟩
      have := this.within n40.neg n40
      exact this
    · obtain ⟨v, z, e, b1, b2⟩ := inside_iff a5
      exact ⟨v, z, e, b1, b2⟩
  · intro o ho v
    obtain ⟨⟨c1, c2⟩, c3⟩ := (h1 o ho).1.1.2
    cases v
    · exact c1
    · exact c2
    · exact c3
  · intro o ho
    have ht := (h1 o ho).1.2
    generalize o.base.startTime = t at *
    cases t with
    | fin v b =>
      simp only [wholeTime, Bool.and_eq_true, decide_eq_true_eq] at ht
      exact ⟨v.num, b, ht.2, by rw [Rat.coe_int_num_of_den_eq_one ht.1]⟩
    | _ => cases ht
  · intro o ho
    obtain ⟨p1, p2⟩ := (h1 o ho).2
    have e17 : pow2 17 = 2 ^ 17 := pow2_nat 17
    obtain ⟨x, a, ex, x1, x2⟩ := inside_iff p1
    obtain ⟨y, b, ey, y1, y2⟩ := inside_iff p2
    exact ⟨⟨x, a, ex, by rw [e17]; exact abs_le.mpr ⟨x1, x2⟩⟩, ⟨y, b, ey, by rw [e17]; exact abs_le.mpr ⟨y1, y2⟩⟩⟩

/-- The sample file `stacked` has six objects, among them a slider, and is of moderate size … -/
theorem stacked_moderate : ∃ m, @parseText F32 F64 _ _ _ insertionGoSort libm3 100 stacked = .ok (some m) ∧
    m.hitObjects.map (fun o => o.isSlider) = [false, false, false, false, true, false] ∧ @ModerateMap libm3 m := by
  have : (match @parseText F32 F64 _ _ _ insertionGoSort libm3 100 stacked with
    | .ok (some m) => decide (m.hitObjects.map (fun o => o.isSlider) = [false, false, false, false, true, false]) && @moderate libm3 m
    | _ => false) = true := by decide +kernel
  split at this
  · rename_i m hm
    rw [Bool.and_eq_true, decide_eq_true_eq] at this
    exact ⟨m, hm, this.1, moderate_map this.2⟩
  · cases this

/-- … so that its ratings are finite. -/
example : ∃ m, @parseText F32 F64 _ _ _ insertionGoSort libm3 100 stacked = .ok (some m) ∧
    ∃ N, ∀ fuel ≥ N, ∃ a, @calculateSingle F32 F64 _ libm3 _ _ insertionGoSort fuel m.hitObjects
      ((m.difficulty.setMods (Mod.HardRock ||| Mod.DoubleTime)).setCustomSpeed (lit 1.25)) = .ok a ∧ FiniteStars a := by
  obtain ⟨m, h1, h2, h3⟩ := stacked_moderate
  letI := libm3
  letI := insertionGoSort
  obtain ⟨N, hN⟩ := C83_parsed libm3_laws libm3_trig 100 stacked m h1 h3 (by rintro e; rw [e] at h2; cases h2)
    (Mod.HardRock ||| Mod.DoubleTime) (lit 1.25) (by unfold Within; decide +kernel)
  refine ⟨m, h1, N, fun fuel hf => ?_⟩
  obtain ⟨⟨a, h4, h5, -⟩, -⟩ := hN fuel hf
  exact ⟨a, h4, h5⟩

end Sample

end GosuPP.Props
