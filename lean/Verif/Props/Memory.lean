import Verif.Lemmas.Memory
import Verif.Props.Notes

/-!
# C99: the flashlight strain of every map
-/

namespace GosuPP.Props
open Go Spec Exactly
attribute [local instance] exactLibm

section
variable {c r : ℝ} {x : ℕ → Note} {objs : List (Obj (Option ℝ) (Option ℝ))} {d : Difficulty (Option ℝ)}

theorem flashHit_one : flashHit c r x 1 = 0 := by
  unfold flashHit
  simp

theorem flash_notes (hs : Shows d x objs) (hr : d.speed = some r) (hr0 : 0 < r)
    (hc : d.circleRadius = some c) (hc0 : 0 < c) {fuel : ℕ}
    {ds : List (DiffObject (Option ℝ) (Option ℝ))} (hd : createDifficultyObjects objs d = .ok ds)
    {sk : Skill (Option ℝ) (Option ℝ)} (h : ds.foldlM (fun s o => s.process fuel o) (Skill.newFlashlight d) = .ok sk) :
    AfterHits (Shown d c r x) 0.15 0.15 (clock r x) (fun n => 0.15 * flashHit c r x n) (fun _ => 1) (Skill.newFlashlight d)
      (objs.length - 1) sk := by
  have hlen := createDifficultyObjects_length hd
  have hset : Set (0.15 : ℝ) 0.15 (Skill.newFlashlight d : Skill (Option ℝ) (Option ℝ)) := by
    refine ⟨?_, ?_, ?_, ?_⟩
    · show (lit 0.15 : Option ℝ) = _; rw [Exact.lit]; norm_num
    · show (lit 0.15 : Option ℝ) = _; rw [Exact.lit]; norm_num
    · show (lit 400 : Option ℝ) = _; rw [Exact.lit]; norm_num
    · show 1 ≤ 10; norm_num
  have hz : (lit 0 : Option ℝ) = some 0 := by rw [Exact.lit]; norm_num
  have hP : ∀ (i : ℕ) o, ds[i]? = some o → Shown d c r x (0 + i + 1) o := fun i o ho => by
    rw [Nat.zero_add]; exact shown_objects hs hr hr0 hc hc0 hd ho
  rw [← hlen, ← Nat.zero_add ds.length]
  refine run_hits (by norm_num) (clock_mono hr0 hs.toPlayable) hset (val := flashHit c r x) (fun n => mul_comm _ _) (fun _ _ => rfl)
    (by rw [flashHit_one]; norm_num) ?_ (k := 0) hP (fun i o ho => (hP i o ho).deltaTime) (fun i o ho => (hP i o ho).start) ?_ h
  · intro k sk o hsk hp hl ho
    refine ⟨fun s h1 h2 => ?_, fun h => ?_⟩
    · unfold Skill.strainValueOf
      rw [← h1.kind, ← hsk.kind]
      show Except.ok (Flashlight.strainValue s o) = _
      rw [flashHit_exact hc0 hc (h1.diff.symm.trans hsk.diff.symm) ho (by rw [h2]; exact hp) (by rw [h2, hl]; rfl)]
    · rw [← hsk.kind] at h; cases h
  · exact ⟨⟨rfl, rfl, rfl, rfl, rfl, rfl, rfl, rfl, rfl, rfl⟩, (by intro i o ho; simp [Skill.newFlashlight, Skill.new] at ho),
      by simp [Skill.newFlashlight, Skill.new], fun _ => ⟨rfl, hz, hz⟩, fun h => absurd rfl h⟩

/-- C99 (exact arithmetic). With Flashlight, the flashlight strain peaks of every map with at least two objects, by the
positions and times of its notes. -/
theorem C99_flashlight (hs : Shows d x objs) (hfl : d.checkModActive Mod.Flashlight = true) (hr : d.speed = some r) (hr0 : 0 < r)
    (hc : d.circleRadius = some c) (hc0 : 0 < c)
    (hn : 2 ≤ objs.length) {fuel : ℕ} {p : StrainPeaks (Option ℝ)} (h : calculateStrainPeaks fuel objs d = .ok p) :
    PeakList 0.15 (clock r x) (fun n => 0.15 * flashHit c r x n) (fun _ => 1) (objs.length - 1) p.flashlight := by
  unfold calculateStrainPeaks at h
  obtain ⟨ds, hd, h⟩ := bind_ok h
  obtain ⟨sk, hsk, h⟩ := bind_ok h
  obtain ⟨f, hf, hrun⟩ := peakLoop_flash (f := Skill.newFlashlight d) (by rw [hfl]; rfl) hsk
  unfold getPeaks at h
  obtain ⟨t, -, h⟩ := bind_ok h
  have e : p.flashlight = f.getCurrentStrainPeaks := by
    rw [← Except.ok.inj h]
    simp [hf]
  rw [e]
  exact ((flash_notes hs hr hr0 hc hc0 hd hrun).curve (by omega)).list

theorem peakLoop_dark {fuel : ℕ} {ds : List (DiffObject (Option ℝ) (Option ℝ))} {sk sk' : PeakSkills (Option ℝ) (Option ℝ)}
    (h0 : sk.flashlight = none) (h : peakLoop fuel ds sk = .ok sk') : sk'.flashlight = none := by
  induction ds generalizing sk with
  | nil => cases h; exact h0
  | cons o ds ih =>
    rw [peakLoop] at h
    obtain ⟨a, -, h⟩ := bind_ok h
    obtain ⟨s, -, h⟩ := bind_ok h
    obtain ⟨g, h3, h⟩ := bind_ok h
    rw [h0] at h3
    exact ih (Except.ok.inj h3).symm h

/-- C99. Without Flashlight there are no flashlight peaks. -/
theorem C99_without (hfl : d.checkModActive Mod.Flashlight = false) {fuel : ℕ} {p : StrainPeaks (Option ℝ)}
    (h : calculateStrainPeaks fuel objs d = .ok p) : p.flashlight = [] := by
  unfold calculateStrainPeaks at h
  obtain ⟨ds, hd, h⟩ := bind_ok h
  obtain ⟨sk, hsk, h⟩ := bind_ok h
  have hf := peakLoop_dark (by rw [hfl]; rfl) hsk
  unfold getPeaks at h
  obtain ⟨t, -, h⟩ := bind_ok h
  rw [← Except.ok.inj h]
  simp [hf]

end

/-- The difficulty of `exactMixed` with Flashlight. -/
noncomputable def exactDark : Difficulty (Option ℝ) := { exactDiff with mods := Mod.HalfTime ||| Mod.Flashlight }

/-- C99: a slider, two circles, a spinner and a circle. -/
example [GoSort] : ∃ fuel p, calculateStrainPeaks fuel exactMixed exactDark = .ok p ∧
    PeakList 0.15 (clock 0.75 mixedNotes) (fun n => 0.15 * flashHit 32 0.75 mixedNotes n) (fun _ => 1) 4 p.flashlight := by
  have hs : Shows exactDark mixedNotes exactMixed := mixed_shows_of (e := exactDark)
    (by show Modifier.active (Mod.HalfTime ||| Mod.Flashlight) _ = _; decide)
    (by show Modifier.active (Mod.HalfTime ||| Mod.Flashlight) _ = _; decide) rfl
  obtain ⟨N, hN⟩ := C97_returns hs (r := 0.75) rfl (by norm_num) (by simp [exactMixed])
  obtain ⟨p, a, hp, -⟩ := hN N le_rfl
  exact ⟨N, p, hp, C99_flashlight hs (by show Modifier.active (Mod.HalfTime ||| Mod.Flashlight) _ = _; decide) rfl (by norm_num) rfl
    (by norm_num) (by simp [exactMixed]) hp⟩

end GosuPP.Props
