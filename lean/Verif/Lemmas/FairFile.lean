import Verif.Lemmas.Legible
import Verif.Lemmas.SliderFile

/-!
# Lemmas about maps that can be played, in exact arithmetic
-/

namespace GosuPP.Exactly
open Go Spec
attribute [local instance] exactLibm

theorem value_amount (d : Dec) : (d.value : Option ℝ) = some (d.amount : ℝ) := by
  unfold Dec.value Dec.amount
  split
  · rw [Exact.lit]
    show some (-_) = _
    push_cast
    rfl
  · rw [Exact.lit]

theorem simple_without {s : Str} (h : Simple s) : WithoutN s := by
  have key : ∀ c ∈ s, c ≠ 'n' ∧ c ≠ 'N' := by
    intro c hc
    rcases h c hc with h | rfl | rfl | rfl | rfl | rfl | rfl
    · rcases h with h | rfl | rfl
      · constructor <;> (rintro rfl; exact absurd h (by decide))
      · decide
      · decide
    all_goals decide
  exact ⟨fun hc => (key _ hc).1 rfl, fun hc => (key _ hc).2 rfl⟩

theorem clean_written {o : ObjectLine} (h : File.GoodObject o) : CleanRecord o.fields := by
  have key := fun s hs => simple_without (object_simple h s hs)
  refine ⟨fun i f _ hf => key f (List.mem_of_getElem? hf), fun t f _ _ hf => ?_⟩
  rcases hf with hf | hf <;> exact key f (List.mem_of_getElem? hf)

/-- Timing data with which sliders move. -/
structure SoundTiming (t : Timings (Option ℝ)) : Prop where
  mult : ∃ a : ℝ, 0 < a ∧ t.sliderMult = some a
  rate : ∃ a : ℝ, 0 < a ∧ t.tickRate = some a
  points : ∀ p ∈ t.points, (∃ b : ℝ, b ≠ 0 ∧ p.beatLengthBase = some b) ∧ ∃ b : ℝ, p.beatLength = some b

theorem ratio_exact {p : ControlPoint (Option ℝ)} (h : ∃ b : ℝ, p.beatLength = some b) :
    ∃ r : ℝ, 0 < r ∧ r ≤ 10 ∧ p.getRatio (Option ℝ) = some r := by
  obtain ⟨b, hb⟩ := h
  unfold ControlPoint.getRatio
  split
  · exact ⟨1, one_pos, by norm_num, by rw [Exact.lit]; norm_num⟩
  · rw [hb]
    have e : (fneg (some b) : Option ℝ) = some (-b) := rfl
    rw [e, Exact.lit 10, Exact.lit 1000, Exact.clamp, Exact.down, Exact.lit 100, Exact.div _ (by norm_num), Exact.up]
    refine ⟨_, ?_, ?_, rfl⟩
    · have : (0 : ℝ) < min ((1000 : ℚ) : ℝ) (max ((10 : ℚ) : ℝ) (-b)) := lt_min (by norm_num) (lt_max_of_lt_left (by norm_num))
      exact div_pos this (by norm_num)
    · have : min ((1000 : ℚ) : ℝ) (max ((10 : ℚ) : ℝ) (-b)) ≤ ((1000 : ℚ) : ℝ) := min_le_left _ _
      rw [div_le_iff₀ (by norm_num)]
      norm_num at this ⊢

theorem sound_moves {t : Timings (Option ℝ)} (h : SoundTiming t) {p : ControlPoint (Option ℝ)} (hp : p ∈ t.points) :
    (∃ v : ℝ, 0 < v ∧ t.getVelocity (Option ℝ) p = some v) ∧ ∃ d : ℝ, 0 < d ∧ t.getTickDistance (Option ℝ) p = some d := by
  obtain ⟨a, ha, ea⟩ := h.mult
  obtain ⟨b, hb, eb⟩ := h.rate
  obtain ⟨⟨c, hc, ec⟩, hl⟩ := h.points p hp
  obtain ⟨r, hr, -, er⟩ := ratio_exact hl
  have e1 : t.getScoringDistance = some (100 * a / b) := by
    unfold Timings.getScoringDistance
    rw [ea, eb, Exact.lit, Exact.mul, Exact.div _ hb.ne']
    norm_num
  constructor
  · unfold Timings.getVelocity ControlPoint.getBeatLength
    dsimp only
    rw [e1, eb, ec, er, Exact.mul, Exact.mul, Exact.lit, Exact.lit, Exact.div _ (mul_ne_zero hc hr.ne'), Exact.mul]
    split
    · rename_i h0
      simp only [Exact.le, decide_eq_true_eq] at h0
      refine ⟨_, ?_, rfl⟩
      have : 0 < c * r := lt_of_le_of_ne (by simpa using h0) (mul_ne_zero hc hr.ne').symm
      positivity
    · exact ⟨_, by positivity, rfl⟩
  · unfold Timings.getTickDistance
    rw [e1, er, Exact.div _ hr.ne']
    exact ⟨_, by positivity, rfl⟩

/-- Ticks are not arbitrarily near each other. -/
theorem sound_steps {t : Timings (Option ℝ)} (h : SoundTiming t) {p : ControlPoint (Option ℝ)} (hp : p ∈ t.points) {a b : ℝ}
    (ea : t.sliderMult = some a) (eb : t.tickRate = some b) : ∃ d : ℝ, 10 * a / b ≤ d ∧ t.getTickDistance (Option ℝ) p = some d := by
  obtain ⟨a', ha, ea'⟩ := h.mult
  obtain ⟨b', hb, eb'⟩ := h.rate
  cases Option.some.inj (ea.symm.trans ea')
  cases Option.some.inj (eb.symm.trans eb')
  obtain ⟨r, hr, hr', er⟩ := ratio_exact (h.points p hp).2
  have e1 : t.getScoringDistance = some (100 * a / b) := by
    unfold Timings.getScoringDistance
    rw [ea, eb, Exact.lit, Exact.mul, Exact.div _ hb.ne']
    norm_num
  unfold Timings.getTickDistance
  rw [e1, er, Exact.div _ hr.ne']
  refine ⟨_, ?_, rfl⟩
  rw [le_div_iff₀ hr, div_mul_eq_mul_div, div_le_div_iff_of_pos_right hb]
  nlinarith

section
variable [GoSort] {f : File}

theorem sound_written {fuel : ℕ} (hp : FairFile f) {st : ParseState (Option ℝ) (Option ℝ)}
    (hl : parseLines fuel f.lines ParseState.init = .ok st) : SoundTiming st.beatMap.timings.finalizePoints := by
  have hf := hp.good
  have h2 := difficulty_value (fun b => b.timings.sliderMult) (fun _ => rfl) "SliderMultiplier" parseFloat
    (fun k v b => (difficulty_fields k v b).2.1) hl
  have h3 := difficulty_value (fun b => b.timings.tickRate) (fun _ => rfl) "SliderTickRate" parseFloat
    (fun k v b => (difficulty_fields k v b).2.2) hl
  simp only [values_difficulty hf] at h2 h3
  simp [File.difficulty, lastOr, trimSpace_show, parseFloat_show] at h2 h3
  obtain ⟨p1, p2⟩ := points_value hl
  have hb : ∀ p ∈ st.beatMap.timings.points, p.beatLengthBase = p.beatLength := by
    intro p hp
    obtain ⟨fs, -, h⟩ := Props.forall₂_right p1 hp
    exact h.2
  obtain ⟨e1, -, e3⟩ := Props.parsed_timings p2 hb
  rw [(records_timing hf).2] at p1
  have hw := Props.points_written hf.points (p1.imp (fun _ _ h => h.1)) hb
  have hbase := Props.C16_base_beat_length st.beatMap.timings.points
  rw [e3, ← e1] at hbase
  have hmem : ∀ q ∈ GoSort.stable (fun a b : ControlPoint (Option ℝ) => a.time <. b.time) st.beatMap.timings.points,
      ∃ l ∈ f.points, q.beatLength = l.beatLength.value := by
    intro q hq
    have := (GoSort.stable_perm _ _).mem_iff.mp hq
    rw [hw] at this
    obtain ⟨l, hl, rfl⟩ := List.mem_map.mp this
    exact ⟨l, hl, rfl⟩
  refine ⟨⟨f.sliderMultiplier.amount, by exact_mod_cast hp.multiplier, ?_⟩, ⟨f.tickRate.amount, by exact_mod_cast hp.tickRate, ?_⟩, ?_⟩
  · show st.beatMap.timings.sliderMult = _
    rw [h2, value_amount]
  · show st.beatMap.timings.tickRate = _
    rw [h3, value_amount]
  · intro p hp'
    obtain ⟨i, hi, rfl⟩ := List.getElem_of_mem hp'
    have hi' := hi
    rw [hbase.1] at hi'
    obtain ⟨j, a, -, ha, -, -, hL⟩ := hbase.2 i _ (List.getElem?_eq_getElem hi')
    rw [List.getElem?_eq_getElem hi] at hL
    obtain ⟨l, hl, hl'⟩ := hmem a (List.mem_of_getElem? ha)
    obtain ⟨k, hk, hk'⟩ := hmem _ (List.getElem_mem hi')
    rw [Option.some.inj hL]
    exact ⟨⟨_, by exact_mod_cast hp.beats l hl, hl'.trans (value_amount _)⟩, _, hk'.trans (value_amount _)⟩

/-- The numbers that timing starts from, as they are written. -/
theorem rates_written {fuel : ℕ} (hp : FairFile f) (hne : f.points ≠ []) {st : ParseState (Option ℝ) (Option ℝ)}
    (hl : parseLines fuel f.lines ParseState.init = .ok st) :
    st.beatMap.timings.finalizePoints.sliderMult = some (f.sliderMultiplier.amount : ℝ) ∧
    st.beatMap.timings.finalizePoints.tickRate = some (f.tickRate.amount : ℝ) ∧ st.beatMap.timings.finalizePoints.points ≠ [] := by
  have hf := hp.good
  have h2 := difficulty_value (fun b => b.timings.sliderMult) (fun _ => rfl) "SliderMultiplier" parseFloat
    (fun k v b => (difficulty_fields k v b).2.1) hl
  have h3 := difficulty_value (fun b => b.timings.tickRate) (fun _ => rfl) "SliderTickRate" parseFloat
    (fun k v b => (difficulty_fields k v b).2.2) hl
  simp only [values_difficulty hf] at h2 h3
  simp [File.difficulty, lastOr, trimSpace_show, parseFloat_show] at h2 h3
  obtain ⟨p1, p2⟩ := points_value hl
  have hb : ∀ p ∈ st.beatMap.timings.points, p.beatLengthBase = p.beatLength := by
    intro p hp
    obtain ⟨fs, -, h⟩ := Props.forall₂_right p1 hp
    exact h.2
  obtain ⟨e1, -, e3⟩ := Props.parsed_timings p2 hb
  rw [(records_timing hf).2] at p1
  have hw := Props.points_written hf.points (p1.imp (fun _ _ h => h.1)) hb
  have hbase := Props.C16_base_beat_length st.beatMap.timings.points
  rw [e3, ← e1] at hbase
  refine ⟨?_, ?_, fun hnil => ?_⟩
  · show st.beatMap.timings.sliderMult = _
    rw [h2, value_amount]
  · show st.beatMap.timings.tickRate = _
    rw [h3, value_amount]
  · have := hbase.1
    rw [hnil, List.length_nil, (GoSort.stable_perm _ _).length_eq, hw, List.length_map] at this
    exact hne (List.length_eq_zero_iff.mp this.symm)

omit [GoSort] in
theorem pointAt_mem {t : Timings (Option ℝ)} {x : Option ℝ} {p : ControlPoint (Option ℝ)} (h : t.getPointAt x = .ok p) : p ∈ t.points := by
  unfold Timings.getPointAt Timings.pointAt index at h
  dsimp only at h
  split at h
  · cases h
  · split at h
    · rename_i hq
      cases h
      exact List.mem_of_getElem? hq
    · cases h

end

end GosuPP.Exactly
