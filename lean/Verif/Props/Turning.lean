import Verif.Lemmas.Turning
import Verif.Props.Steady

/-!
# C93: closed forms for the aim strain of maps that turn by the same angle at each circle
-/

namespace GosuPP.Props
open Go Spec Exactly
attribute [local instance] exactLibm

theorem acuteRaw_nonneg {θ T J : ℝ} (hT : 0 < T) (hJ : 0 ≤ J) : 0 ≤ acuteRaw θ T J := by
  obtain ⟨w0, w1⟩ := wideness_range θ
  unfold acuteRaw
  split
  · exact le_rfl
  · have h1 : 0 ≤ 1 - wideness θ := by linarith
    have h2 : 0 ≤ min (J / T) (125 / T) := le_min (by positivity) (by positivity)
    positivity

theorem turnBonus_nonneg {θ T J : ℝ} (hT : 0 < T) (hJ : 0 ≤ J) : 0 ≤ turnBonus θ T J := by
  obtain ⟨w0, w1⟩ := wideness_range θ
  unfold turnBonus
  apply le_max_of_le_right
  unfold wideBonus
  have h1 : wideness θ ^ 3 ≤ 1 := pow_le_one₀ w0 w1
  have h2 : 0 ≤ 1 - wideness θ ^ 3 := by linarith
  positivity

section
variable {t0 Δ dist r c θ : ℝ} {pos : ℕ → ℝ × ℝ} {objs : List (Obj (Option ℝ) (Option ℝ))} {d : Difficulty (Option ℝ)}

/-- The strain after `k` objects. -/
private noncomputable def bent (v b q : ℝ) (k : ℕ) : ℝ := decayed v q (k - 2) + decayed b q (k - 3)

private theorem aim_turned (b : Bool) (hs : Stream d.mods t0 Δ dist pos objs) (hdist : 0 < dist)
    (hθ : Turning θ dist pos objs.length) (hr : d.speed = some r) (hr0 : 0 < r)
    (hc : d.circleRadius = some c) (hc0 : 0 < c) {fuel : ℕ}
    {ds : List (DiffObject (Option ℝ) (Option ℝ))} (hd : createDifficultyObjects objs d = .ok ds)
    {sk : Skill (Option ℝ) (Option ℝ)} (h : ds.foldlM (fun s o => s.process fuel o) (Skill.newAim d b) = .ok sk) :
    AfterAt (Bent (max (Δ / r) 25) (jumpLength c dist) (Δ / r) θ)
      (bent (23.25 * (jumpLength c dist / max (Δ / r) 25)) (23.25 * turnBonus θ (max (Δ / r) 25) (jumpLength c dist))
        (0.15 ^ (Δ / r / 1000)))
      (fun k => (t0 + k * Δ) / r) (Skill.newAim d b) (objs.length - 1) sk := by
  obtain ⟨ds', hd', hlen, he, ht, -⟩ := steady_objects hs hdist.le hr hr0 hc hc0
  rw [hd] at hd'
  cases hd'
  have hT : (25 : ℝ) ≤ max (Δ / r) 25 := le_max_right _ _
  have hT0 : (0 : ℝ) < max (Δ / r) 25 := by linarith
  have hJ := jumpLength_nonneg hc0 hdist.le
  have hset : Set (0.15 : ℝ) 23.25 (Skill.newAim d b : Skill (Option ℝ) (Option ℝ)) := by
    refine ⟨?_, ?_, ?_, ?_⟩
    · show (lit 0.15 : Option ℝ) = _; rw [Exact.lit]; norm_num
    · show (lit 23.25 : Option ℝ) = _; rw [Exact.lit]; norm_num
    · show (lit 400 : Option ℝ) = _; rw [Exact.lit]; norm_num
    · show 1 ≤ 2; norm_num
  have hq : (0 : ℝ) ≤ 0.15 ^ (Δ / r / 1000) := Real.rpow_nonneg (by norm_num) _
  have hv : 0 ≤ jumpLength c dist / max (Δ / r) 25 := div_nonneg hJ hT0.le
  have htb := turnBonus_nonneg (θ := θ) hT0 hJ
  generalize jumpLength c dist = J at *
  generalize max (Δ / r) 25 = T at *
  rw [← hlen, ← Nat.zero_add ds.length]
  refine run_after_at (b := 0.15) (m := 23.25) (δ := Δ / r) (by norm_num) (by norm_num) hset (by simp [bent, decayed])
    (val := fun k => if k ≤ 1 then 0 else if k = 2 then J / T else J / T + turnBonus θ T J) (fun k => ?_) (fun k => ?_) ?_
    (k := 0) (fun i o ho => ?_) (fun o ho => (he o ho).deltaTime) (fun i o ho => ?_) ?_ h
  · rcases k with _ | _ | _ | k
    · simp [bent, decayed]
    · simp [bent, decayed]
    · simp [bent, decayed]; ring
    · rw [if_neg (by omega), if_neg (by omega)]
      simp only [bent, show k + 1 + 1 + 1 + 1 - 2 = k + 1 + 1 by omega, show k + 1 + 1 + 1 - 2 = k + 1 by omega,
        show k + 1 + 1 + 1 + 1 - 3 = k + 1 by omega, show k + 1 + 1 + 1 - 3 = k by omega, decayed]
      ring
  · unfold bent
    refine add_le_add ?_ ?_
    · rcases k with _ | _ | k
      · exact le_rfl
      · exact le_rfl
      · exact decayed_mono (by linarith) hq k
    · rcases k with _ | _ | _ | k
      · exact le_rfl
      · exact le_rfl
      · exact le_rfl
      · exact decayed_mono (by linarith) hq k
  · intro k sk c hsk hP hl hc'
    have kind : ∀ s, SameSettings sk s → s.kind = .aim b := fun s h => h.kind.symm.trans hsk.kind.symm
    refine ⟨fun s h1 h2 => ?_, fun h => ?_⟩
    · unfold Skill.strainValueOf
      rw [kind s h1]
      simp only
      exact value_turn hT hJ b hc' (by rw [h2]; exact hP) (by rw [h2, hl]; rfl)
    · rw [← hsk.kind] at h; cases h
  · rw [Nat.zero_add]
    exact ⟨he o (List.mem_of_getElem? ho), turning_angles hs hdist hθ hd i ho⟩
  · rw [ht i o ho]; congr 2; push_cast; ring
  · have hz : (lit 0 : Option ℝ) = some 0 := by rw [Exact.lit]; norm_num
    exact ⟨⟨rfl, rfl, rfl, rfl, rfl, rfl, rfl, rfl, rfl, rfl⟩, (by intro i o ho; simp [Skill.newAim, Skill.new] at ho),
      by simp [Skill.newAim, Skill.new], fun _ => ⟨rfl, hz⟩, fun h => absurd rfl h, by simp [bent, decayed]; exact hz⟩

private theorem peaks_aim {fuel : ℕ} {p : StrainPeaks (Option ℝ)} (h : calculateStrainPeaks fuel objs d = .ok p) :
    ∃ ds a, createDifficultyObjects objs d = .ok ds ∧
      ds.foldlM (fun s o => s.process fuel o) (Skill.newAim d true) = .ok a ∧ p.aim = a.getCurrentStrainPeaks := by
  unfold calculateStrainPeaks at h
  obtain ⟨ds, hd, h⟩ := bind_ok h
  obtain ⟨sk, hs, h⟩ := bind_ok h
  obtain ⟨h1, h2⟩ := peakLoop_fold hs
  unfold getPeaks at h
  simp only at h
  obtain ⟨t, -, h⟩ := bind_ok h
  cases h
  exact ⟨ds, sk.aim, hd, h1, rfl⟩

/-- C93 (exact arithmetic). The aim strain at the end of a steady map that turns by the same angle at each circle, for
every angle, interval and spacing; it is the greatest of the peaks. The first two jumps are not counted, and the third
has no bonus for its angle. -/
theorem C93_aim (hs : Stream d.mods t0 Δ dist pos objs) (hdist : 0 < dist)
    (hθ : Turning θ dist pos objs.length) (hr : d.speed = some r) (hr0 : 0 < r)
    (hc : d.circleRadius = some c) (hc0 : 0 < c) {fuel : ℕ} {p : StrainPeaks (Option ℝ)}
    (h : calculateStrainPeaks fuel objs d = .ok p) {T J q top : ℝ} (hT : T = max (Δ / r) 25) (hJ : J = jumpLength c dist)
    (hq : q = 0.15 ^ (Δ / r / 1000))
    (htop : top = decayed (23.25 * (J / T)) q (objs.length - 3) + decayed (23.25 * turnBonus θ T J) q (objs.length - 4)) :
    p.aim.getLast? = some (some top) ∧ ∀ x ∈ p.aim, ∃ y, x = some y ∧ 0 ≤ y ∧ y ≤ top := by
  obtain ⟨ds, a, hd, h1, e⟩ := peaks_aim h
  have haf := aim_turned true hs hdist hθ hr hr0 hc hc0 hd h1
  rw [← hT, ← hJ, ← hq] at haf
  have htop' : top = bent (23.25 * (J / T)) (23.25 * turnBonus θ T J) q (objs.length - 1) := by
    rw [htop, bent, show objs.length - 1 - 2 = objs.length - 3 by omega, show objs.length - 1 - 3 = objs.length - 4 by omega]
  rw [e, htop']
  refine ⟨by simp [Skill.getCurrentStrainPeaks, haf.peak], ?_⟩
  by_cases hk : objs.length - 1 = 0
  · have e0 : bent (23.25 * (J / T)) (23.25 * turnBonus θ T J) q (objs.length - 1) = 0 := by rw [hk]; simp [bent, decayed]
    simp only [Skill.getCurrentStrainPeaks, (haf.start hk).1, haf.peak, e0, List.nil_append, List.mem_singleton]
    rintro x rfl
    exact ⟨0, rfl, le_rfl, le_rfl⟩
  · exact (haf.holds hk).peaks

end

/-- C93. The bonus is never negative. At angles of at most 30° and with at least 100 ms between circles there is none;
at angles of 150° and more the bonus for wide angles has vanished, too, up to the error in Go's π. -/
theorem C93_bonus {θ T J : ℝ} (hT : 0 < T) (hJ : 0 ≤ J) :
    0 ≤ turnBonus θ T J ∧ (θ ≤ goPi / 6 → 100 ≤ T → turnBonus θ T J = 0) ∧
    (100 < T → turnBonus θ T J = 1.5 * wideBonus θ (J / T)) ∧
    (θ ≤ goPi / 6 → wideness θ = 0) ∧ (5 / 6 * goPi ≤ θ → wideness θ = Real.sin (goPi / 2) ^ 2) := by
  have hpi := goPi_pos
  have w0 : θ ≤ goPi / 6 → wideness θ = 0 := by
    intro h
    unfold wideness
    rw [max_eq_left h, min_eq_right (by linarith), sub_self, mul_zero, Real.sin_zero]
    norm_num
  refine ⟨turnBonus_nonneg hT hJ, ?_, ?_, w0, ?_⟩
  · intro h hT'
    have ha : acuteRaw θ T J = 0 := by
      unfold acuteRaw
      split
      · rfl
      · have : T = 100 := by linarith
        subst this
        norm_num
    unfold turnBonus wideBonus acuteBonus
    rw [w0 h, ha]
    norm_num
  · intro hT'
    have ha : acuteRaw θ T J = 0 := by unfold acuteRaw; rw [if_pos hT']
    have hb : acuteBonus θ T J = 0 := by unfold acuteBonus; rw [ha]; ring
    obtain ⟨v0, v1⟩ := wideness_range θ
    have h1 : wideness θ ^ 3 ≤ 1 := pow_le_one₀ v0 v1
    have h2 : 0 ≤ 1 - wideness θ ^ 3 := by linarith
    unfold turnBonus
    rw [hb, max_eq_right]
    unfold wideBonus
    have : (0 : ℝ) ≤ J / T := by positivity
    rw [mul_zero]
    positivity
  · intro h
    unfold wideness
    rw [max_eq_right (by linarith), min_eq_left h]
    congr 2
    ring

/-! ### A concrete case -/

/-- The corners of a square. -/
noncomputable def corner (i : ℕ) : ℝ × ℝ :=
  if i % 4 = 0 then (100, 100) else if i % 4 = 1 then (200, 100) else if i % 4 = 2 then (200, 200) else (100, 200)

/-- `n` circles around a square, every 60 ms. -/
noncomputable def exactSquare (n : ℕ) : List (Obj (Option ℝ) (Option ℝ)) :=
  (List.range n).map fun i : ℕ => exactCircle (corner i).1 (corner i).2 (i * 60)

theorem exactSquare_stream (n : ℕ) : Stream exactDiff.mods 0 60 100 corner (exactSquare n) := by
  have get : ∀ (i : ℕ) o, (exactSquare n)[i]? = some o → o = exactCircle (corner i).1 (corner i).2 (i * 60) := by
    intro i o h
    unfold exactSquare at h
    rw [List.getElem?_map] at h
    obtain ⟨j, hj, rfl⟩ := Option.map_eq_some_iff.mp h
    obtain ⟨hl, e⟩ := List.getElem?_eq_some_iff.mp hj
    rw [List.getElem_range] at e
    rw [e]
  have h1 : Modifier.active Mod.HalfTime Mod.HardRock = false := by decide
  have h2 : Modifier.active Mod.HalfTime Mod.Easy = false := by decide
  refine ⟨?_, ?_, ?_, ?_⟩
  · intro o ho
    unfold exactSquare at ho
    obtain ⟨i, -, rfl⟩ := List.mem_map.mp ho
    rfl
  · intro i o h
    rw [get i o h, zero_add]
    rfl
  · intro i o h
    rw [get i o h]
    have h0 : (lit 0 : Option ℝ) = some 0 := by rw [Exact.lit]; norm_num
    show HitObject.modifyPosition _ _ Mod.HalfTime = _
    unfold HitObject.modifyPosition
    rw [h1, h2]
    simp [exactCircle, Vec.zero, Vec.add, h0, Exact.add]
  · intro i _
    have : i % 4 = 0 ∨ i % 4 = 1 ∨ i % 4 = 2 ∨ i % 4 = 3 := by omega
    unfold corner
    rcases this with e | e | e | e <;> simp [e, Nat.add_mod] <;> norm_num

theorem corner_turning (n : ℕ) : Turning (Real.pi / 2) 100 corner n := by
  refine ⟨by linarith [Real.pi_pos], by linarith [Real.pi_pos], ?_⟩
  intro i _
  rw [Real.cos_pi_div_two]
  have : i % 4 = 0 ∨ i % 4 = 1 ∨ i % 4 = 2 ∨ i % 4 = 3 := by omega
  unfold corner
  rcases this with e | e | e | e <;> simp [e, Nat.add_mod]

/-- C93: around a square, with 80 ms on the player's clock between circles, for any number of circles. -/
example [GoSort] (n : ℕ) (hn : 0 < n) : ∃ fuel p, calculateStrainPeaks fuel (exactSquare n) exactDiff = .ok p ∧
    p.aim.getLast? = some (some (decayed (23.25 * (156.25 / 80)) (0.15 ^ (0.08 : ℝ)) (n - 3) +
      decayed (23.25 * turnBonus (Real.pi / 2) 80 156.25) (0.15 ^ (0.08 : ℝ)) (n - 4))) := by
  have hs := exactSquare_stream n
  have hl : (exactSquare n).length = n := by simp [exactSquare]
  obtain ⟨N, hN⟩ := C90_returns hs (by rw [← List.length_pos_iff, hl]; exact hn) (by norm_num) rfl (by norm_num) rfl (by norm_num)
  obtain ⟨p, a, hp, -, -⟩ := hN N le_rfl
  refine ⟨N, p, hp, ?_⟩
  refine (C93_aim hs (by norm_num) (corner_turning _) rfl (by norm_num) rfl (by norm_num) hp (T := 80) (J := 156.25)
    (q := 0.15 ^ (0.08 : ℝ)) (by norm_num) (by unfold jumpLength; norm_num) (by norm_num) (by rw [hl])).1

end GosuPP.Props
