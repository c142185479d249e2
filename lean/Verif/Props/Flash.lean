import Verif.Lemmas.Flash
import Verif.Props.Turning

/-!
# C94: a closed form for the flashlight strain of straight steady maps
-/

namespace GosuPP.Props
open Go Spec Exactly
attribute [local instance] exactLibm

variable {t0 Δ dist r c : ℝ} {pos : ℕ → ℝ × ℝ} {objs : List (Obj (Option ℝ) (Option ℝ))} {d : Difficulty (Option ℝ)}

private theorem placed_objects (hs : Stream d.mods t0 Δ dist pos objs) (hend : ∀ o ∈ objs, o.base.endPosRaw = o.base.startPosRaw)
    {ds : List (DiffObject (Option ℝ) (Option ℝ))} (hd : createDifficultyObjects objs d = .ok ds) {T J δ : ℝ}
    (he : ∀ o ∈ ds, Even T J δ o) (i : ℕ) {o : DiffObject (Option ℝ) (Option ℝ)} (ho : ds[i]? = some o) :
    Placed d T J δ pos i o := by
  obtain ⟨a, b, ll, x, y, hx, hy, ha, hb, e⟩ := createDifficultyObjects_get hd ho
  have hb' : o.baseObject.obj = y := by
    rw [e, (newDiffObject_times b ll a d).1]
    rw [decorate_circle (hs.circle y (List.mem_of_getElem? hy))] at hb
    cases hb
    rfl
  refine ⟨he o (List.mem_of_getElem? ho), ?_, ?_⟩
  · rw [hb']; exact hs.place _ _ hy
  · rw [hb']
    unfold HitObject.getStackedEndPositionMod
    rw [hend y (List.mem_of_getElem? hy)]
    exact hs.place _ _ hy

/-- C94 (exact arithmetic). With Flashlight, the flashlight strain at the end of a steady map on a straight line, for any
interval and spacing; it is the greatest of the peaks. -/
theorem C94_flashlight (hs : Stream d.mods t0 Δ dist pos objs) (hdist : 0 ≤ dist) (hline : Straight dist pos objs.length)
    (hend : ∀ o ∈ objs, o.base.endPosRaw = o.base.startPosRaw) (hfl : d.checkModActive Mod.Flashlight = true)
    (hr : d.speed = some r) (hr0 : 0 < r) (hc : d.circleRadius = some c) (hc0 : 0 < c) {fuel : ℕ} {p : StrainPeaks (Option ℝ)}
    (h : calculateStrainPeaks fuel objs d = .ok p) {T q top : ℝ} (hT : T = max (Δ / r) 25) (hq : q = 0.15 ^ (Δ / r / 1000))
    (htop : top = decaying (fun k => 0.15 * flashValue c dist T k) q (objs.length - 1)) :
    p.flashlight.getLast? = some (some top) ∧ ∀ x ∈ p.flashlight, ∃ y, x = some y ∧ 0 ≤ y ∧ y ≤ top := by
  unfold calculateStrainPeaks at h
  obtain ⟨ds, hd, h⟩ := bind_ok h
  obtain ⟨sk, hsk, h⟩ := bind_ok h
  obtain ⟨f, hf, hrun⟩ := peakLoop_flash (f := Skill.newFlashlight d) (by rw [hfl]; rfl) hsk
  unfold getPeaks at h
  obtain ⟨t, -, h⟩ := bind_ok h
  have e : p.flashlight = f.getCurrentStrainPeaks := by
    rw [← Except.ok.inj h]
    simp [hf]
  obtain ⟨ds', hd', hlen, he, ht, -⟩ := steady_objects hs hdist hr hr0 hc hc0
  rw [hd] at hd'
  cases hd'
  rw [← hT] at he
  have hT0 : (0 : ℝ) < T := by rw [hT]; exact lt_of_lt_of_le (by norm_num) (le_max_right _ _)
  have hq0 : 0 ≤ q := by rw [hq]; exact Real.rpow_nonneg (by norm_num) _
  have hset : Set (0.15 : ℝ) 0.15 (Skill.newFlashlight d : Skill (Option ℝ) (Option ℝ)) := by
    refine ⟨?_, ?_, ?_, ?_⟩
    · show (lit 0.15 : Option ℝ) = _; rw [Exact.lit]; norm_num
    · show (lit 0.15 : Option ℝ) = _; rw [Exact.lit]; norm_num
    · show (lit 400 : Option ℝ) = _; rw [Exact.lit]; norm_num
    · show 1 ≤ 10; norm_num
  have hz : (lit 0 : Option ℝ) = some 0 := by rw [Exact.lit]; norm_num
  have hf0 : flashValue c dist T 0 = 0 := by simp [flashValue]
  have haf : AfterAt (fun i o => i + 1 < objs.length ∧ Placed d T (jumpLength c dist) (Δ / r) pos i o)
      (decaying (fun k => 0.15 * flashValue c dist T k) q) (fun k => (t0 + k * Δ) / r) (Skill.newFlashlight d) (0 + ds.length) f := by
    refine run_after_at (b := 0.15) (m := 0.15) (δ := Δ / r) (by norm_num) (by norm_num) hset (by simp [decaying])
      (val := fun k => flashValue c dist T k) (fun k => ?_) (fun k => ?_) ?_
      (k := 0) (fun i o ho => ?_) (fun o ho => (he o ho).deltaTime) (fun i o ho => ?_) ?_ hrun
    · rw [decaying_succ, ← hq, mul_comm (0.15 : ℝ)]
    · exact decaying_mono (fun n => by
        have := flashValue_mono (c := c) hT0 hc0 hdist n
        linarith) (by rw [hf0, mul_zero]) hq0 k
    · intro k sk o hsk hP hl ho
      have kind : ∀ s, SameSettings sk s → s.kind = .flashlight ∧ s.diff = d := fun s h =>
        ⟨h.kind.symm.trans hsk.kind.symm, h.diff.symm.trans hsk.diff.symm⟩
      refine ⟨fun s h1 h2 => ?_, fun h => ?_⟩
      · unfold Skill.strainValueOf
        rw [(kind s h1).1]
        simp only
        rw [flash_value hT0 hc0 hdist hc hline rfl (kind s h1).2 ho.1 ho.2 (by rw [h2]; exact fun i o hi => (hP i o hi).2)
          (by rw [h2, hl]; rfl)]
      · rw [← hsk.kind] at h; cases h
    · rw [Nat.zero_add]
      refine ⟨?_, placed_objects hs hend hd he i ho⟩
      have := (List.getElem?_eq_some_iff.mp ho).1
      omega
    · rw [ht i o ho]; congr 2; push_cast; ring
    · exact ⟨⟨rfl, rfl, rfl, rfl, rfl, rfl, rfl, rfl, rfl, rfl⟩, (by intro i o ho; simp [Skill.newFlashlight, Skill.new] at ho),
        by simp [Skill.newFlashlight, Skill.new], fun _ => ⟨rfl, hz⟩, fun h => absurd rfl h, by simp [decaying]; exact hz⟩
  rw [Nat.zero_add, hlen] at haf
  rw [e, htop]
  refine ⟨by simp [Skill.getCurrentStrainPeaks, haf.peak], ?_⟩
  by_cases hk : objs.length - 1 = 0
  · have e0 : decaying (fun k => 0.15 * flashValue c dist T k) q (objs.length - 1) = 0 := by rw [hk]; simp [decaying]
    simp only [Skill.getCurrentStrainPeaks, (haf.start hk).1, haf.peak, e0, List.nil_append, List.mem_singleton]
    rintro x rfl
    exact ⟨0, rfl, le_rfl, le_rfl⟩
  · exact (haf.holds hk).peaks

/-! ### A concrete case -/

/-- `n` circles on a line, every 75 ms, 100 pixels apart. -/
noncomputable def exactLine (n : ℕ) : List (Obj (Option ℝ) (Option ℝ)) :=
  (List.range n).map fun i : ℕ => exactCircle (0 + i * 60) (0 + i * 80) (i * 75)

noncomputable def flashDiff : Difficulty (Option ℝ) := { exactDiff with mods := Mod.Flashlight }

theorem exactLine_stream (n : ℕ) : Stream flashDiff.mods 0 75 100 (fun i => (0 + i * 60, 0 + i * 80)) (exactLine n) := by
  have get : ∀ (i : ℕ) o, (exactLine n)[i]? = some o → o = exactCircle (0 + i * 60) (0 + i * 80) (i * 75) := by
    intro i o h
    unfold exactLine at h
    rw [List.getElem?_map] at h
    obtain ⟨j, hj, rfl⟩ := Option.map_eq_some_iff.mp h
    obtain ⟨hl, e⟩ := List.getElem?_eq_some_iff.mp hj
    rw [List.getElem_range] at e
    rw [e]
  have h1 : Modifier.active Mod.Flashlight Mod.HardRock = false := by decide
  have h2 : Modifier.active Mod.Flashlight Mod.Easy = false := by decide
  refine ⟨?_, ?_, ?_, ?_⟩
  · intro o ho
    unfold exactLine at ho
    obtain ⟨i, -, rfl⟩ := List.mem_map.mp ho
    rfl
  · intro i o h
    rw [get i o h]
    show some ((i : ℝ) * 75) = some (0 + (i : ℝ) * 75)
    rw [zero_add]
  · intro i o h
    rw [get i o h]
    have h0 : (lit 0 : Option ℝ) = some 0 := by rw [Exact.lit]; norm_num
    show HitObject.modifyPosition _ _ Mod.Flashlight = _
    unfold HitObject.modifyPosition
    rw [h1, h2]
    simp [exactCircle, Vec.zero, Vec.add, h0, Exact.add]
  · intro i _
    dsimp only
    push_cast
    ring

/-- C94: circles on a line with 100 ms on the player's clock between them. -/
example [GoSort] (n : ℕ) (hn : 0 < n) : ∃ fuel p, calculateStrainPeaks fuel (exactLine n) flashDiff = .ok p ∧
    p.flashlight.getLast? = some (some (decaying (fun k => 0.15 * flashValue 32 100 100 k) (0.15 ^ (0.1 : ℝ)) (n - 1))) := by
  have hs := exactLine_stream n
  have hl : (exactLine n).length = n := by simp [exactLine]
  obtain ⟨N, hN⟩ := C90_returns hs (by rw [← List.length_pos_iff, hl]; exact hn) (by norm_num) rfl (by norm_num) rfl (by norm_num)
  obtain ⟨p, a, hp, -, -⟩ := hN N le_rfl
  refine ⟨N, p, hp, ?_⟩
  refine (C94_flashlight hs (by norm_num) ⟨60, 80, by norm_num, fun i _ => by simp⟩ ?_ (by decide) rfl (by norm_num) rfl (by norm_num) hp
    (T := 100) (q := 0.15 ^ (0.1 : ℝ)) (by norm_num) (by norm_num) (by rw [hl])).1
  intro o ho
  unfold exactLine at ho
  obtain ⟨i, -, rfl⟩ := List.mem_map.mp ho
  rfl

end GosuPP.Props
