import Verif.Lemmas.Faster
import Verif.Lemmas.Rates
import Verif.Lemmas.Visible
import Verif.Props.Memory
import Verif.Props.StarInputs
import Verif.Props.Visible

/-!
# C108: playing faster never lowers the hardest aim and flashlight strain
-/

namespace GosuPP.Props
open Go Spec Exactly
attribute [local instance] exactLibm

section
variable {c r r' : ℝ} {x : ℕ → Note} {objs : List (Obj (Option ℝ) (Option ℝ))} {d d' : Difficulty (Option ℝ)} {fuel fuel' : ℕ}
  {p p' : StrainPeaks (Option ℝ)}

private theorem clock_faster (hx : Playable x) (hr : 0 < r) (hrr : r ≤ r') (i j : ℕ) (h : i ≤ j) :
    clock r' x j - clock r' x i ≤ clock r x j - clock r x i := by
  unfold clock
  rw [← sub_div, ← sub_div]
  exact div_le_div_of_nonneg_left (sub_nonneg.mpr (hx.sorted i j h)) hr hrr

/-- C108 (exact arithmetic). The same notes with circles of the same size, played at two speeds, with at least 25 ms between
them at the higher one: each aim peak at the lower speed is at most some aim peak at the higher speed. -/
theorem C108_aim (hs : Shows d x objs) (hs' : Shows d' x objs) (er : d.speed = some r) (er' : d'.speed = some r') (hr : 0 < r)
    (hrr : r ≤ r') (ec : d.circleRadius = some c) (ec' : d'.circleRadius = some c) (hc : 0 < c) (hn : 2 ≤ objs.length)
    (hap : ∀ n, 1 ≤ n → n < objs.length → Unhurried r' x n)
    (hp : calculateStrainPeaks fuel objs d = .ok p) (hp' : calculateStrainPeaks fuel' objs d' = .ok p') : Outdone p.aim p'.aim := by
  have hr' : 0 < r' := by linarith
  have hx := hs.toPlayable
  refine peaks_faster (by norm_num) (by norm_num) (fun n => mul_nonneg (by norm_num) (aimHit_nonneg hc hx true n)) ?_
    (clock_faster hx hr hrr) (clock_mono hr' hx) (C97_aim hs er hr ec hc hn hp) (C97_aim hs' er' hr' ec' hc hn hp')
  intro n n1 nk
  refine mul_le_mul_of_nonneg_left ?_ (by norm_num)
  by_cases h2 : 2 ≤ n
  · exact aimHit_faster hc hx hr hrr true (hap n n1 (by omega)) (hap (n - 1) (by omega) (by omega))
  · obtain rfl : n = 1 := by omega
    rw [aimHit_one, aimHit_one]

/-- C108 (exact arithmetic). The same notes at two speeds: each flashlight peak at the lower speed is at most some flashlight
peak at the higher one, however close the notes are. -/
theorem C108_flashlight (hs : Shows d x objs) (hs' : Shows d' x objs) (er : d.speed = some r) (er' : d'.speed = some r') (hr : 0 < r)
    (hrr : r ≤ r') (ec : d.circleRadius = some c) (ec' : d'.circleRadius = some c) (hc : 0 < c) (hn : 2 ≤ objs.length)
    (hfl : d.checkModActive Mod.Flashlight = true → d'.checkModActive Mod.Flashlight = true)
    (hp : calculateStrainPeaks fuel objs d = .ok p) (hp' : calculateStrainPeaks fuel' objs d' = .ok p') :
    Outdone p.flashlight p'.flashlight := by
  have hr' : 0 < r' := by linarith
  have hx := hs.toPlayable
  cases hd : d.checkModActive Mod.Flashlight with
  | false =>
    rw [C99_without hd hp]
    intro q hq
    cases hq
  | true =>
    refine peaks_faster (by norm_num) (by norm_num) (fun n => mul_nonneg (by norm_num) (flashHit_nonneg n)) ?_
      (clock_faster hx hr hrr) (clock_mono hr' hx) (C99_flashlight hs hd er hr ec hc hn hp) (C99_flashlight hs' (hfl hd) er' hr' ec' hc hn hp')
    intro n _ _
    exact mul_le_mul_of_nonneg_left (flashHit_faster hc hx hr hrr n) (by norm_num)

/-- C108 (exact arithmetic). A map with defined times, positions and paths, at two custom speeds: the results exist; with at least
25 ms between its objects at the higher speed, the hardest aim strain is no lower there, and neither is, whatever the times, the
hardest flashlight strain. -/
theorem C108_speed [GoSort] {cs s s' : ℝ} (hv : Visible d.mods objs) (hn : 2 ≤ objs.length) (hcs : d.cs = some cs) (hcs1 : cs ≤ 12)
    (hs : 0 < s) (hss : s ≤ s') :
    ∃ N, ∀ fuel ≥ N, ∃ p p', calculateStrainPeaks fuel objs (d.setCustomSpeed (some s)) = .ok p ∧
      calculateStrainPeaks fuel objs (d.setCustomSpeed (some s')) = .ok p' ∧
      (SpacedOut (25 * (modRate d.mods * s')) objs → Outdone p.aim p'.aim) ∧ Outdone p.flashlight p'.flashlight := by
  obtain ⟨-, y, -, ey, -, h12⟩ := Exactly.adjust_mono d.mods (k := 1.3) (by norm_num) (show (10 : ℝ) ≤ 12 by norm_num) (le_refl cs)
  have hm := modRate_pos d.mods
  have hs' : 0 < s' := by linarith
  have hne : objs ≠ [] := by rintro rfl; simp at hn
  have hc : (0 : ℝ) < 54.4 - 4.48 * y := by
    have := h12 hcs1
    norm_num
    linarith
  have er : ∀ z : ℝ, 0 < z → (d.setCustomSpeed (some z)).speed = some (modRate d.mods * z) := fun z hz => speed_exact d.mods hz
  have ec : ∀ z, (d.setCustomSpeed z).circleRadius = some (54.4 - 4.48 * y) := fun z => by
    show difficultyRate (Difficulty.adjust d.mods 1.3 d.cs) _ _ _ = _
    rw [hcs, ey, radius_exact]
  have s1 := visible_shows (d := d.setCustomSpeed (some s)) (ec _) hc hne hv
  have s2 := visible_shows (d := d.setCustomSpeed (some s')) (ec _) hc hne hv
  have e : notesOf (d.setCustomSpeed (some s')) objs = notesOf (d.setCustomSpeed (some s)) objs := by
    funext i
    unfold notesOf
    split <;> rfl
  rw [e] at s2
  have hr : 0 < modRate d.mods * s := mul_pos hm hs
  have hr' : 0 < modRate d.mods * s' := mul_pos hm hs'
  have hrr : modRate d.mods * s ≤ modRate d.mods * s' := mul_le_mul_of_nonneg_left hss hm.le
  obtain ⟨N, hN⟩ := C97_returns s1 (er s hs) hr hne
  obtain ⟨N', hN'⟩ := C97_returns s2 (er s' hs') hr' hne
  refine ⟨max N N', fun fuel hf => ?_⟩
  obtain ⟨p, -, hp, -⟩ := hN fuel (le_of_max_le_left hf)
  obtain ⟨p', -, hp', -⟩ := hN' fuel (le_of_max_le_right hf)
  refine ⟨p, p', hp, hp', fun hsp => ?_, C108_flashlight s1 s2 (er s hs) (er s' hs') hr hrr (ec _) (ec _) hc hn (fun h => h) hp hp'⟩
  refine C108_aim s1 s2 (er s hs) (er s' hs') hr hrr (ec _) (ec _) hc hn ?_ hp hp'
  intro n n1 nl
  have g1 := List.getElem?_eq_getElem (show n - 1 < objs.length by omega)
  have g2 := List.getElem?_eq_getElem nl
  have := hsp (n - 1) _ _ _ _ g1 (by rw [show n - 1 + 1 = n by omega]; exact g2) (s1.time _ _ g1) (s1.time _ _ g2)
  unfold Unhurried
  rw [← sub_div, le_div_iff₀ hr']
  exact this

/-- C108 (exact arithmetic). Playing with other mods of the same Easy, HardRock, Relax and Flashlight, such as adding DoubleTime or
taking HalfTime away, at another custom speed, if that is faster altogether. -/
theorem C108_mods [GoSort] {cs s s' : ℝ} {m m' : Modifier} (hm : AgreeOn [Mod.Easy, Mod.HardRock, Mod.Relax, Mod.Flashlight] m m')
    (hv : Visible m objs) (hn : 2 ≤ objs.length) (hcs : d.cs = some cs) (hcs1 : cs ≤ 12)
    (hs : 0 < s) (hs' : 0 < s') (hss : modRate m * s ≤ modRate m' * s') :
    ∃ N, ∀ fuel ≥ N, ∃ p p', calculateStrainPeaks fuel objs ((d.setMods m).setCustomSpeed (some s)) = .ok p ∧
      calculateStrainPeaks fuel objs ((d.setMods m').setCustomSpeed (some s')) = .ok p' ∧
      (SpacedOut (25 * (modRate m' * s')) objs → Outdone p.aim p'.aim) ∧ Outdone p.flashlight p'.flashlight := by
  have h0 := modRate_pos m
  have h0' := modRate_pos m'
  have e : modRate m * (modRate m' * s' / modRate m) = modRate m' * s' := by field_simp
  have hz : 0 < modRate m' * s' / modRate m := by positivity
  obtain ⟨N, hN⟩ := C108_speed (d := d.setMods m) (objs := objs) (s' := modRate m' * s' / modRate m) hv hn hcs hcs1 hs
    (by rw [le_div_iff₀ h0]; linarith)
  refine ⟨N, fun fuel hf => ?_⟩
  obtain ⟨p, p', hp, hp', h1, h2⟩ := hN fuel hf
  refine ⟨p, p', hp, ?_, by rw [← e]; exact h1, h2⟩
  have act : ∀ i : ℕ, i < 63 → Mod.bit i ∈ [Mod.Easy, Mod.HardRock, Mod.Relax, Mod.Flashlight] →
      Modifier.active m (Mod.bit i) = Modifier.active m' (Mod.bit i) := by
    intro i hi hmem
    rw [active_iff_has m hi, active_iff_has m' hi, decide_eq_decide]
    exact hm _ hmem
  have hez := act 1 (by decide) (by decide)
  have hhr := act 4 (by decide) (by decide)
  have ha : ∀ k (x : Option ℝ), Difficulty.adjust m k x = Difficulty.adjust m' k x := by
    intro k x
    unfold Difficulty.adjust
    rw [show Mod.Easy = Mod.bit 1 from rfl, show Mod.HardRock = Mod.bit 4 from rfl, hez, hhr]
  have same : SameForStars ((d.setMods m).setCustomSpeed (some (modRate m' * s' / modRate m))) ((d.setMods m').setCustomSpeed (some s')) := by
    refine ⟨?_, ?_, ?_, hhr, hez, act 7 (by decide) (by decide), act 10 (by decide) (by decide)⟩
    · exact congrArg (difficultyRate · _ _ _) (ha _ _)
    · exact congrArg (difficultyRate · _ _ _) (ha _ _)
    · exact (speed_exact m hz).trans ((congrArg some e).trans (speed_exact m' hs').symm)
  obtain ⟨-, -, -, -, h5⟩ := C68_inputs (S := Option ℝ) _ _ same fuel objs
  rw [← hp', h5]

/-- C108 (exact arithmetic). From the file to the strains: a map that is read from a file as in `C105_visible`, with at least two
objects, played with more speed and otherwise the same mods. -/
theorem C108_file [GoSort] {fuel : ℕ} {text : Str} {b : BeatMap (Option ℝ) (Option ℝ)} (h : parseText fuel text = .ok (some b))
    (hclean : ∀ arr ∈ records "HitObjects" (scanLines bufferSize text), CleanRecord arr)
    (hmov : ∀ o ∈ b.hitObjects, Moving b.timings o) (hn : 2 ≤ b.hitObjects.length)
    {cs s s' : ℝ} (hcs : b.difficulty.getCS = some cs) (hcs1 : cs ≤ 12) {m m' : Modifier}
    (hm : AgreeOn [Mod.Easy, Mod.HardRock, Mod.Relax, Mod.Flashlight] m m')
    (hs : 0 < s) (hs' : 0 < s') (hss : modRate m * s ≤ modRate m' * s') :
    ∃ N, ∀ fuel ≥ N, ∃ p p', calculateStrainPeaks fuel b.hitObjects ((b.difficulty.setMods m).setCustomSpeed (some s)) = .ok p ∧
      calculateStrainPeaks fuel b.hitObjects ((b.difficulty.setMods m').setCustomSpeed (some s')) = .ok p' ∧
      (SpacedOut (25 * (modRate m' * s')) b.hitObjects → Outdone p.aim p'.aim) ∧ Outdone p.flashlight p'.flashlight :=
  C108_mods hm (C105_visible h hclean ⟨_, hcs⟩ hmov m) hn hcs hcs1 hs hs' hss

end

/-- C108: a slider, two circles, a spinner and a circle with Flashlight, at 0.75 and at 1.5 of their speed. -/
example [GoSort] : ∃ fuel p p', calculateStrainPeaks fuel exactMixed exactDark = .ok p ∧
    calculateStrainPeaks fuel exactMixed { exactDark with speed := some 1.5 } = .ok p' ∧ Outdone p.aim p'.aim ∧
    Outdone p.flashlight p'.flashlight := by
  have hs : Shows exactDark mixedNotes exactMixed := mixed_shows_of (e := exactDark)
    (by show Modifier.active (Mod.HalfTime ||| Mod.Flashlight) _ = _; decide)
    (by show Modifier.active (Mod.HalfTime ||| Mod.Flashlight) _ = _; decide) rfl
  have hs' : Shows { exactDark with speed := some 1.5 } mixedNotes exactMixed := mixed_shows_of
    (by show Modifier.active (Mod.HalfTime ||| Mod.Flashlight) _ = _; decide)
    (by show Modifier.active (Mod.HalfTime ||| Mod.Flashlight) _ = _; decide) rfl
  obtain ⟨N, hN⟩ := C97_returns hs (r := 0.75) rfl (by norm_num) (by simp [exactMixed])
  obtain ⟨N', hN'⟩ := C97_returns hs' (r := 1.5) rfl (by norm_num) (by simp [exactMixed])
  obtain ⟨p, a, hp, -⟩ := hN (max N N') (le_max_left _ _)
  obtain ⟨p', a', hp', -⟩ := hN' (max N N') (le_max_right _ _)
  refine ⟨max N N', p, p', hp, hp', ?_, ?_⟩
  · refine C108_aim hs hs' (r := 0.75) (r' := 1.5) rfl rfl (by norm_num) (by norm_num) rfl rfl (by norm_num) (by simp [exactMixed]) ?_ hp hp'
    intro n n1 nl
    have nl : n < 5 := nl
    unfold Unhurried
    interval_cases n <;> norm_num [mixedNotes]
  · exact C108_flashlight hs hs' (r := 0.75) (r' := 1.5) rfl rfl (by norm_num) (by norm_num) rfl rfl (by norm_num) (by simp [exactMixed])
      (fun h => h) hp hp'

private noncomputable def strides : List (Obj (Option ℝ) (Option ℝ)) :=
  [exactCircle 10 20 0, exactCircle 300 20 100, exactCircle 40 200 220, exactCircle 400 10 300]

private theorem strides_visible : Visible (0 : Modifier) strides where
  time o ho := by
    simp only [strides, List.mem_cons, List.not_mem_nil, or_false] at ho
    rcases ho with rfl | rfl | rfl | rfl <;> exact ⟨_, rfl⟩
  sorted := by
    intro i j o o' s t hij ho ho' hs ht
    have at' : ∀ (i : ℕ) o (s : ℝ), strides[i]? = some o → o.base.startTime = some s →
        (i = 0 ∧ s = 0) ∨ (i = 1 ∧ s = 100) ∨ (i = 2 ∧ s = 220) ∨ (i = 3 ∧ s = 300) := by
      intro i o s h hs
      match i, h with
      | 0, h => cases h; exact .inl ⟨rfl, (Option.some.inj hs).symm⟩
      | 1, h => cases h; exact .inr (.inl ⟨rfl, (Option.some.inj hs).symm⟩)
      | 2, h => cases h; exact .inr (.inr (.inl ⟨rfl, (Option.some.inj hs).symm⟩))
      | 3, h => cases h; exact .inr (.inr (.inr ⟨rfl, (Option.some.inj hs).symm⟩))
      | n + 4, h => exact absurd h (by simp [strides])
    rcases at' i o s ho hs with ⟨rfl, rfl⟩ | ⟨rfl, rfl⟩ | ⟨rfl, rfl⟩ | ⟨rfl, rfl⟩ <;>
      rcases at' j o' t ho' ht with ⟨rfl, rfl⟩ | ⟨rfl, rfl⟩ | ⟨rfl, rfl⟩ | ⟨rfl, rfl⟩ <;> first | omega | norm_num
  head o ho := by
    simp only [strides, List.mem_cons, List.not_mem_nil, or_false] at ho
    have h0 : (lit 0 : Option ℝ) = some 0 := by rw [Exact.lit]; norm_num
    rcases ho with rfl | rfl | rfl | rfl <;> exact ⟨_, _, rfl⟩
  tail o ho := by
    simp only [strides, List.mem_cons, List.not_mem_nil, or_false] at ho
    rcases ho with rfl | rfl | rfl | rfl <;> exact ⟨_, _, rfl⟩
  slider o ho s hk := by
    simp only [strides, List.mem_cons, List.not_mem_nil, or_false] at ho
    rcases ho with rfl | rfl | rfl | rfl <;> cases hk

/-- C108: four circles without mods and with DoubleTime. -/
example [GoSort] : ∃ fuel p p', calculateStrainPeaks fuel strides ((exactDiff.setMods 0).setCustomSpeed (some 1)) = .ok p ∧
    calculateStrainPeaks fuel strides ((exactDiff.setMods Mod.DoubleTime).setCustomSpeed (some 1)) = .ok p' ∧ Outdone p.aim p'.aim := by
  have e1 : modRate 0 = 1 := by unfold modRate; rw [if_neg (by decide), if_neg (by decide)]
  have e2 : modRate Mod.DoubleTime = 1.5 := by unfold modRate; rw [if_pos (by decide)]
  have h5 : exactDiff.cs = some ((5 : ℚ) : ℝ) := rfl
  obtain ⟨N, hN⟩ := C108_mods (d := exactDiff) (objs := strides) (s := 1) (s' := 1) (m := 0) (m' := Mod.DoubleTime) (by decide) strides_visible
    (by simp [strides]) h5 (by norm_num) (by norm_num) (by norm_num) (by rw [e1, e2]; norm_num)
  obtain ⟨p, p', hp, hp', h, -⟩ := hN N le_rfl
  refine ⟨N, p, p', hp, hp', h ?_⟩
  rw [e2]
  intro i o o' t t' ho ho' ht ht'
  match i, ho, ho' with
  | 0, ho, ho' => cases ho; cases ho'; cases ht; cases ht'; norm_num
  | 1, ho, ho' => cases ho; cases ho'; cases ht; cases ht'; norm_num
  | 2, ho, ho' => cases ho; cases ho'; cases ht; cases ht'; norm_num
  | n + 3, ho, ho' => exact absurd ho' (by simp [strides])

end GosuPP.Props
