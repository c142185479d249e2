import Verif.Lemmas.Zero
import Verif.Props.Rating

/-!
# C103: which maps are not rated
-/

namespace GosuPP.Props
open Go Spec Exactly
attribute [local instance] exactLibm

section
variable {c r w : ℝ} {x : ℕ → Note} {objs : List (Obj (Option ℝ) (Option ℝ))} {d : Difficulty (Option ℝ)}

/-- C103 (exact arithmetic). The aim rating is zero iff the cursor rests at all objects from the fourth on (and at the
objects before them) that do not come after a spinner and are none. -/
theorem C103_aim [GoSort] (hs : Shows d x objs) (hr : d.speed = some r) (hr0 : 0 < r) (hc : d.circleRadius = some c)
    (hc0 : 0 < c) (hw : d.hit300 = some w) (hw0 : 0 < w) (hn : 2 ≤ objs.length) {fuel : ℕ} {a : Attributes (Option ℝ)}
    (h : calculateSingle fuel objs d = .ok a) :
    a.aim = some 0 ↔ ∀ n, 3 ≤ n → n < objs.length → Moves x n → Rests x n ∧ Rests x (n - 1) := by
  choose isl hl using islands_exist (r := r) (x := x)
  obtain ⟨l, _, _, _, h1, -, -, -, -, h, -⟩ := C100_ratings hs hr hr0 hc hc0 hw hw0 hl hn h
  have hv : ∀ n, 0 ≤ 23.25 * aimHit c r x true n := fun n => mul_nonneg (by norm_num) (aimHit_nonneg hc0 hs.toPlayable _ n)
  obtain ⟨l', e', n0⟩ := reals_of_peaks (by norm_num) hv (fun _ => zero_le_one) h1
  obtain rfl : l = l' := List.map_injective_iff.mpr (Option.some_injective ℝ) e'
  rw [h, Option.some.injEq, rating_zero (by norm_num) (by norm_num) n0]
  constructor
  · intro h0 n h3 h4
    rw [← aimHit_zero (r := r) hc0 hs.toPlayable h3]
    have := hits_zero (by norm_num) (clock_mono hr0 hs.toPlayable) hv (fun _ => zero_le_one) h1 h0 (n := n) (by omega) (by omega)
    linarith
  · intro h0
    refine peaks_zero h1 fun n h2 h3 => ?_
    by_cases h4 : 3 ≤ n
    · rw [(aimHit_zero hc0 hs.toPlayable h4).mpr (h0 n h4 (by omega)), mul_zero]
    · unfold aimHit
      rw [if_neg (fun h => h4 h.1), mul_zero]

/-- C103. Maps of up to three objects have no aim rating, wherever the objects are. -/
theorem C103_three [GoSort] (hs : Shows d x objs) (hr : d.speed = some r) (hr0 : 0 < r) (hc : d.circleRadius = some c)
    (hc0 : 0 < c) (hw : d.hit300 = some w) (hw0 : 0 < w) (h3 : objs.length ≤ 3) {fuel : ℕ} {a : Attributes (Option ℝ)}
    (h : calculateSingle fuel objs d = .ok a) : a.aim = some 0 := by
  match objs, hs, h3, h with
  | [], _, _, h =>
    unfold calculateSingle calculateSingleCore at h
    obtain ⟨_, h, -⟩ := bind_ok h
    obtain ⟨_, -, h⟩ := bind_ok h
    obtain ⟨_, h, -⟩ := bind_ok h
    cases h
  | [o], _, _, h => exact (C100_one h).2.1
  | o :: o' :: l, hs, h3, h =>
    refine (C103_aim hs hr hr0 hc hc0 hw hw0 (by simp) h).mpr fun n h1 h2 => ?_
    omega

/-- C103. Without Relax, the speed rating is zero iff all objects after the first are spinners. -/
theorem C103_speed [GoSort] (hs : Shows d x objs) (hr : d.speed = some r) (hr0 : 0 < r) (hc : d.circleRadius = some c)
    (hc0 : 0 < c) (hw : d.hit300 = some w) (hw0 : 0 < w) (hn : 2 ≤ objs.length) (hrx : d.checkModActive Mod.Relax = false)
    {fuel : ℕ} {a : Attributes (Option ℝ)} (h : calculateSingle fuel objs d = .ok a) :
    a.speed = some 0 ↔ ∀ o ∈ objs.tail, o.isSpinner = true := by
  choose isl hl using islands_exist (r := r) (x := x)
  obtain ⟨_, _, l, _, -, -, h1, -, -, -, -, h, -⟩ := C100_ratings hs hr hr0 hc hc0 hw hw0 hl hn h
  have hv : ∀ n, 0 ≤ 1375 * speedHit r w x c n := fun n => mul_nonneg (by norm_num) (speedHit_nonneg hc0 hr0 hw0 hs.toPlayable n)
  obtain ⟨l', e', n0⟩ := reals_of_peaks (by norm_num) hv (fun _ => rhythmFactor_nonneg _ _) h1
  obtain rfl : l = l' := List.map_injective_iff.mpr (Option.some_injective ℝ) e'
  simp only [hrx, Bool.false_eq_true, if_false] at h
  rw [h, Option.some.injEq, rating_zero (by norm_num) (by norm_num) n0]
  have iff : (∀ o ∈ objs.tail, o.isSpinner = true) ↔ ∀ n, 1 ≤ n → n ≤ objs.length - 1 → (x n).spinner = true := by
    constructor
    · intro h n h1 h2
      have hlt : n < objs.length := by omega
      rw [← hs.spins n objs[n] (List.getElem?_eq_getElem hlt)]
      refine h _ ?_
      obtain ⟨m, rfl⟩ : ∃ m, n = m + 1 := ⟨n - 1, by omega⟩
      rw [← List.getElem_tail (h := by rw [List.length_tail]; omega)]
      exact List.getElem_mem _
    · intro h o ho
      obtain ⟨m, hm, rfl⟩ := List.getElem_of_mem ho
      rw [List.length_tail] at hm
      rw [List.getElem_tail, hs.spins (m + 1) _ (List.getElem?_eq_getElem (by omega))]
      exact h (m + 1) (by omega) (by omega)
  rw [iff]
  constructor
  · intro h0 n h2 h3
    by_contra h4
    have h4 : (x n).spinner = false := by simpa using h4
    have := hits_zero (by norm_num) (clock_mono hr0 hs.toPlayable) hv (fun n => rhythmFactor_nonneg n (isl n)) h1 h0 h2 h3
    have p1 := speedHit_pos hc0 hr0 hw0 hs.toPlayable h4
    have p2 := rhythmFactor_pos (w := w) hr0 hs.toPlayable (hl n) h4
    have : 0 < 1375 * speedHit r w x c n * rhythmFactor r w x n (isl n) := by positivity
    linarith
  · intro h0
    refine peaks_zero h1 fun n h2 h3 => ?_
    unfold speedHit
    rw [if_pos (h0 n h2 h3), mul_zero]

/-- C103. With Relax, the speed rating is zero. -/
theorem C103_relax [GoSort] (hrx : d.checkModActive Mod.Relax = true) {fuel : ℕ} {a : Attributes (Option ℝ)}
    (h : calculateSingle fuel objs d = .ok a) : a.speed = some 0 := by
  unfold calculateSingle calculateSingleCore at h
  obtain ⟨⟨a', sk⟩, h, e⟩ := bind_ok h
  obtain ⟨ds, -, h⟩ := bind_ok h
  obtain ⟨first, -, h⟩ := bind_ok h
  obtain ⟨⟨attr, sk'⟩, -, h⟩ := bind_ok h
  have e1 := (Prod.mk.inj (Except.ok.inj h)).1
  have e2 := Except.ok.inj e
  simp only at e1 e2
  rw [← e2, ← e1]
  unfold SkillSet.getStars getStarsFromRawValues
  simp only [hrx, if_true]
  rw [Exact.lit]
  norm_num

end

/-- C103: a slider, two circles, a spinner and a circle have no aim rating, as nothing is rated before the fourth object and
around the spinner, but a speed rating. -/
example [GoSort] : ∃ fuel a, calculateSingle fuel exactMixed exactDiff = .ok a ∧ a.aim = some 0 ∧ a.speed ≠ some 0 := by
  obtain ⟨N, hN⟩ := C97_returns mixed_shows (r := 0.75) rfl (by norm_num) (by simp [exactMixed])
  obtain ⟨p, a, -, h⟩ := hN N le_rfl
  refine ⟨N, a, h, ?_, ?_⟩
  · refine (C103_aim mixed_shows (r := 0.75) rfl (by norm_num) (c := 32) rfl (by norm_num) (w := 40) rfl (by norm_num)
      (by simp [exactMixed]) h).mpr fun n h1 h2 hm => ?_
    have : n = 3 ∨ n = 4 := by simp [exactMixed] at h2; omega
    rcases this with rfl | rfl
    · exact absurd hm.1 (by simp [mixedNotes])
    · exact absurd hm.2 (by simp [mixedNotes])
  · rw [Ne, C103_speed mixed_shows (r := 0.75) rfl (by norm_num) (c := 32) rfl (by norm_num) (w := 40) rfl (by norm_num)
      (by simp [exactMixed]) (by show Modifier.active Mod.HalfTime _ = _; decide) h]
    intro h0
    have := h0 (exactCircle 400 100 1100) (by simp [exactMixed])
    simp [exactCircle, Obj.isSpinner] at this

/-- The notes of a stream. -/
noncomputable def streamNotes (i : ℕ) : Note where
  time := 0 + i * 90
  spinner := false
  head := ⟨if i % 2 = 0 then 100 else 300, 50⟩
  tail := ⟨if i % 2 = 0 then 100 else 300, 50⟩
  slide := none

theorem stream_shows (n : ℕ) : Shows exactDiff streamNotes (exactStream 0 n) := by
  have get : ∀ (i : ℕ) o, (exactStream 0 n)[i]? = some o → o = exactCircle (if i % 2 = 0 then 100 else 300) 50 (0 + i * 90) := by
    intro i o h
    unfold exactStream at h
    rw [List.getElem?_map] at h
    obtain ⟨j, hj, rfl⟩ := Option.map_eq_some_iff.mp h
    obtain ⟨hl, e⟩ := List.getElem?_eq_some_iff.mp hj
    rw [List.getElem_range] at e
    rw [e]
  have h1 : Modifier.active Mod.HalfTime Mod.HardRock = false := by decide
  have h2 : Modifier.active Mod.HalfTime Mod.Easy = false := by decide
  refine { sorted := ?_, spinner := ?_, length := ?_, time := ?_, spins := ?_, head := ?_, tail := ?_, slider := ?_, other := ?_ }
  · intro i j h
    have : (i : ℝ) ≤ j := by exact_mod_cast h
    simp only [streamNotes]
    linarith
  · intro i h; simp [streamNotes] at h
  · intro i s h; simp [streamNotes] at h
  · intro i o h; rw [get i o h]; rfl
  · intro i o h; rw [get i o h]; rfl
  · intro i o h
    rw [get i o h]
    show HitObject.modifyPosition _ _ Mod.HalfTime = _
    unfold HitObject.modifyPosition
    rw [h1, h2]
    simp [exactCircle, Vec.add, Exact.add, streamNotes]
  · intro i o h
    rw [get i o h]
    show HitObject.modifyPosition _ _ Mod.HalfTime = _
    unfold HitObject.modifyPosition
    rw [h1, h2]
    simp [exactCircle, Vec.add, Exact.add, streamNotes]
  · intro i o s h e; rw [get i o h] at e; cases e
  · intro i o h _; rfl

/-- C103: streams of four or more circles have an aim rating, those of two or three have none. -/
example [GoSort] (n : ℕ) (hn : 2 ≤ n) : ∃ fuel a, calculateSingle fuel (exactStream 0 n) exactDiff = .ok a ∧
    (a.aim = some 0 ↔ n ≤ 3) := by
  have hs := stream_shows n
  obtain ⟨N, hN⟩ := C97_returns hs (r := 0.75) rfl (by norm_num) (by rw [← List.length_pos_iff, exactStream_length]; omega)
  obtain ⟨p, a, -, h⟩ := hN N le_rfl
  refine ⟨N, a, h, ?_⟩
  rw [C103_aim hs (r := 0.75) rfl (by norm_num) (c := 32) rfl (by norm_num) (w := 40) rfl (by norm_num)
    (by rw [exactStream_length]; exact hn) h, exactStream_length]
  constructor
  · intro h0
    by_contra h4
    have := ((h0 3 le_rfl (by omega) ⟨rfl, rfl⟩).1 ⟨rfl, rfl⟩).1
    have := congrArg Complex.re this
    norm_num [streamNotes, Note.leave] at this
  · intro h3 m h1 h2
    omega

end GosuPP.Props
