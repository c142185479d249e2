import Verif.Lemmas.Drawn

/-!
# Lemmas about sliders on defined curves
-/

namespace GosuPP.Exactly
open Go Spec
attribute [local instance] exactLibm

theorem num_fmax {x y : Option ℝ} (hx : IsNumber x) (hy : IsNumber y) : IsNumber (fmax x y) := by
  obtain ⟨a, rfl⟩ := hx
  obtain ⟨b, rfl⟩ := hy
  exact ⟨_, Exact.fmax a b⟩

theorem num_clamp {x a b : Option ℝ} (hx : IsNumber x) (ha : IsNumber a) (hb : IsNumber b) : IsNumber (clampF64 x a b) := by
  obtain ⟨x, rfl⟩ := hx
  obtain ⟨a, rfl⟩ := ha
  obtain ⟨b, rfl⟩ := hb
  exact ⟨_, Exact.clamp x a b⟩

theorem num_clamp32 {x a b : Option ℝ} (hx : IsNumber x) (ha : IsNumber a) (hb : IsNumber b) : IsNumber (clampF32 x a b) :=
  num_clamp hx ha hb

theorem drawn_pointAt {mc : MultiCurve (Option ℝ)} (h : Drawn mc) {t : Option ℝ} (ht : IsNumber t) :
    ∃ v, mc.pointAt t = .ok v ∧ Somewhere v := by
  unfold MultiCurve.pointAt
  split
  · exact ⟨_, rfl, h.first⟩
  · rename_i hc
    have hpos : 0 < mc.lines.length := by
      rcases Nat.eq_zero_or_pos mc.lines.length with h0 | h0
      · simp [h0] at hc
      · exact h0
    simp only
    obtain ⟨h1, h2⟩ := mc.lineIndex_range hpos (mc.length *. clampF32 t (lit 0) (lit 1))
    have hw : IsNumber (mc.length *. clampF32 t (lit 0) (lit 1)) := by
      obtain ⟨r, -, hr⟩ := h.length
      exact num_mul ⟨r, hr⟩ (num_clamp32 ht (num_lit 0) (num_lit 1))
    generalize mc.length *. clampF32 t (lit 0) (lit 1) = w at *
    generalize mc.lineIndex w = i at *
    have hm := h.marks
    obtain ⟨a, ma, ha⟩ := index_of_lt mc.sections (i := i + 1) (by omega) (by omega)
    obtain ⟨b, mb, hb⟩ := index_of_lt mc.sections (i := i) (by omega) (by omega)
    obtain ⟨c, mc', hc⟩ := index_of_lt mc.lines (i := i) (by omega) (by omega)
    simp only [ha, hb, hc, ok_bind]
    have nd := num_sub (h.sections a ma) (h.sections b mb)
    split
    · exact ⟨_, rfl, (h.lines c mc').1⟩
    · rename_i hz
      refine ⟨_, rfl, some_lerp (h.lines c mc').1 (h.lines c mc').2 (num_div (num_sub hw (h.sections b mb)) nd fun e => hz ?_)⟩
      rw [e, Exact.lit, Exact.eq]
      simp

/-- The ball of a slider on a defined curve is somewhere at all times. -/
theorem ball_somewhere {h : HitObject (Option ℝ) (Option ℝ)} {s : SliderData (Option ℝ) (Option ℝ)} (hd : Drawn s.multiCurve)
    (hp : Somewhere h.startPosRaw) {t0 t1 d : ℝ} (h0 : h.startTime = some t0) (h1 : h.endTime = some t1) (h2 : s.spanDuration = some d)
    (hz : d = 0 → t0 = t1) {t : Option ℝ} (ht : IsNumber t) : ∃ v, sliderPositionAt h s t = .ok v ∧ Somewhere v := by
  unfold sliderPositionAt isRetarded
  rw [h0, h1, h2, Exact.eq]
  split
  · exact ⟨_, rfl, hp⟩
  · rename_i hne
    have hd0 : d ≠ 0 := fun h => hne (by simpa using hz h)
    dsimp only
    have n1 : IsNumber ((clampF64 t (some t0) (some t1) -. some t0) /. some d) :=
      num_div (num_sub (num_clamp ht ⟨_, rfl⟩ ⟨_, rfl⟩) ⟨_, rfl⟩) ⟨_, rfl⟩ (by simpa using hd0)
    obtain ⟨z, hz⟩ := n1
    rw [hz]
    have n2 : IsNumber (GoFloat.fmod (some z : Option ℝ) (lit 2)) := by
      rw [Exact.lit]
      show IsNumber (if (some ((2 : ℚ) : ℝ) : Option ℝ) = some 0 then none else some _)
      rw [if_neg (by simp)]
      exact ⟨_, rfl⟩
    refine drawn_pointAt hd ?_
    rw [Exact.down]
    split
    · exact num_sub (num_lit 2) n2
    · exact n2

theorem modify_somewhere {h : HitObject (Option ℝ) (Option ℝ)} (h1 : Somewhere h.stackOffset) (h2 : Somewhere h.stackOffsetEZ)
    (h3 : Somewhere h.stackOffsetHR) {v} (hv : Somewhere v) (m : Modifier) : Somewhere (h.modifyPosition v m) := by
  unfold HitObject.modifyPosition
  split
  · refine some_add ?_ h3
    rw [somewhere_iff] at hv ⊢
    exact ⟨hv.1, num_sub (num_lit _) hv.2⟩
  · split
    · exact some_add hv h2
    · exact some_add hv h1

/-! ### Timing -/

open Slider

theorem ticks_num {td cl md st sd : ℝ} {b n : Bool} (hcl : cl = 0 → 0 ≤ md ∧ 0 ≤ td) : ∀ (fuel : ℕ) {d : ℝ} {ts : List (TickPoint (Option ℝ))},
    (cl = 0 → 0 ≤ d) → tickLoop (some td) (some cl) (some md) (some st) (some sd) b n fuel (some d) = .ok ts → ∀ p ∈ ts, IsNumber p.time
  | 0, _, _, _, e => by cases e
  | fuel + 1, d, ts, hd, e => by
    unfold tickLoop at e
    split at e
    · split at e
      · cases e; simp
      · rename_i h1 h2
        obtain ⟨rest, hr, e⟩ := bind_ok e
        cases e
        have hc0 : cl ≠ 0 := by
          intro h0
          apply h2
          rw [Exact.sub, Exact.le, decide_eq_true_eq, h0]
          have := hcl h0
          have := hd h0
          linarith
        intro p hp
        rcases List.mem_cons.mp hp with rfl | hp
        · refine num_add ⟨_, rfl⟩ (num_mul ?_ ⟨_, rfl⟩)
          have := num_div (x := some d) (y := some cl) ⟨_, rfl⟩ ⟨_, rfl⟩ (by simpa using hc0)
          split
          · exact num_sub (num_lit 1) this
          · exact this
        · rw [Exact.add] at hr
          exact ticks_num hcl fuel (fun h => absurd h hc0) hr p hp
    · cases e; simp

/-- A slider on a defined curve gets defined score points, a defined end and a ball that is somewhere at all times. -/
theorem timed [GoSort] {fuel : ℕ} {tim : Timings (Option ℝ)} {h : HitObject (Option ℝ) (Option ℝ)} {s : SliderData (Option ℝ) (Option ℝ)}
    (hd : Drawn s.multiCurve) (hp : Somewhere h.startPosRaw) (h0 : IsNumber h.startTime) (hpx : IsNumber s.pixelLength)
    (hs : ∀ p ∈ s.scorePoints, IsNumber p.time) (hrep : 1 ≤ s.repeatCount)
    (hv : ∀ p, tim.getPointAt h.startTime = .ok p → (∃ v : ℝ, 0 < v ∧ tim.getVelocity (Option ℝ) p = some v) ∧
      ∃ t : ℝ, 0 ≤ t ∧ tim.getTickDistance (Option ℝ) p = some t)
    {o : Obj (Option ℝ) (Option ℝ)} (e : setTiming fuel tim h s = .ok o) :
    ∃ s', o.kind = .slider s' ∧ s'.scorePoints ≠ [] ∧ (∀ p ∈ s'.scorePoints, IsNumber p.time) ∧ IsNumber o.base.endTime ∧
      s'.repeatCount = s.repeatCount ∧ o.base.startTime = h.startTime ∧ Somewhere o.base.endPosRaw ∧
      ∀ t : ℝ, ∃ v, sliderPositionAt o.base s' (some t) = .ok v ∧ Somewhere v := by
  unfold setTiming at e
  obtain ⟨p, hpt, e⟩ := bind_ok e
  obtain ⟨⟨v, hv0, ev⟩, td, htd, et⟩ := hv p hpt
  obtain ⟨st, est⟩ := h0
  obtain ⟨cl, hcl, ecl⟩ := hd.length
  obtain ⟨px, epx⟩ := hpx
  have hv' : v ≠ 0 := hv0.ne'
  simp only [ev, et, est, ecl, epx, Exact.up, Exact.mul, Exact.lit 1000, Exact.lit 0.01, Exact.ofInt, Exact.div _ hv', Exact.add] at e
  obtain ⟨ps, hps, e⟩ := bind_ok e
  obtain ⟨ep, hep, e⟩ := bind_ok e
  have etd : ∃ td' : ℝ, (if ((some cl : Option ℝ) >. lit 0 && (some td : Option ℝ) >. some px) = true then (some px : Option ℝ) else some td) = some td' ∧
      (cl = 0 → 0 ≤ td') := by
    rw [Exact.lit, Exact.lt]
    by_cases hc : cl = 0
    · subst hc
      refine ⟨td, by simp, fun _ => htd⟩
    · split
      · exact ⟨px, rfl, fun h => absurd h hc⟩
      · exact ⟨td, rfl, fun h => absurd h hc⟩
  obtain ⟨td', etd, htd'⟩ := etd
  rw [etd] at hps
  have spans : ∀ (k : ℕ) (i : ℤ) {ps}, spanLoop ⟨some st, some (st + cl * ((1000 : ℚ) : ℝ) * (s.repeatCount : ℝ) / v),
      some (cl * ((1000 : ℚ) : ℝ) / v), some cl, some td', some (v * ((0.01 : ℚ) : ℝ)), GoFloat.isNaN p.beatLength, s.repeatCount⟩ fuel k i = .ok ps →
      (∀ p ∈ ps, IsNumber p.time) ∧ (0 < k → ps ≠ []) := by
    intro k
    induction k with
    | zero => intro i ps e; cases e; simp
    | succ k ih =>
      intro i ps e
      unfold spanLoop at e
      obtain ⟨ts, hts, e⟩ := bind_ok e
      obtain ⟨rest, hrest, e⟩ := bind_ok e
      cases e
      unfold spanTicks at hts
      simp only [Exact.ofInt, Exact.mul, Exact.add] at hts
      obtain ⟨ts', hts', hts⟩ := bind_ok hts
      cases hts
      refine ⟨fun q hq => ?_, by simp⟩
      rcases List.mem_append.mp hq with hq | hq
      · rcases List.mem_append.mp hq with hq | hq
        · exact ticks_num (fun h => ⟨by positivity, htd' h⟩) fuel htd' hts' q hq
        · rw [List.mem_singleton.mp hq]
          split
          · exact ⟨_, rfl⟩
          · refine num_fmax (num_add ⟨_, rfl⟩ (num_div ⟨_, rfl⟩ (num_lit 2) ?_)) ⟨_, rfl⟩
            rw [Exact.lit]; simp
      · exact (ih _ hrest).1 q hq
  obtain ⟨n1, n2⟩ := spans _ _ hps
  have perm := GoSort.slice_perm (fun a b : TickPoint (Option ℝ) => a.time <. b.time) (s.scorePoints ++ ps)
  cases e
  have ball : ∀ (h' : HitObject (Option ℝ) (Option ℝ)) (s' : SliderData (Option ℝ) (Option ℝ)), h'.startPosRaw = h.startPosRaw →
      h'.startTime = some st → h'.endTime = some (st + cl * ((1000 : ℚ) : ℝ) * (s.repeatCount : ℝ) / v) → s'.multiCurve = s.multiCurve →
      s'.spanDuration = some (cl * ((1000 : ℚ) : ℝ) / v) → ∀ t : Option ℝ, IsNumber t →
      ∃ z, sliderPositionAt h' s' t = .ok z ∧ Somewhere z := by
    intro h' s' a1 a2 a3 a4 a5 t ht
    refine ball_somewhere (by rw [a4]; exact hd) (by rw [a1]; exact hp) a2 a3 a5 (fun hz => ?_) ht
    have : cl = 0 := by
      have := (div_eq_zero_iff.mp hz).resolve_right hv'
      have h1000 : ((1000 : ℚ) : ℝ) ≠ 0 := by norm_num
      exact (mul_eq_zero.mp this).resolve_right h1000
    simp [this]
  refine ⟨_, rfl, ?_, fun q hq => ?_, ⟨_, rfl⟩, rfl, est.symm, ?_, fun t => ?_⟩
  · intro h
    have : (s.scorePoints ++ ps) = [] := by
      have := perm.length_eq
      have h' : (GoSort.slice (fun a b : TickPoint (Option ℝ) => a.time <. b.time) (s.scorePoints ++ ps)).length = 0 := by
        rw [List.length_eq_zero_iff]; exact h
      rw [h'] at this
      exact List.length_eq_zero_iff.mp this.symm
    exact n2 (by omega) (List.append_eq_nil_iff.mp this).2
  · rcases List.mem_append.mp (perm.mem_iff.mp hq) with hq | hq
    · exact hs q hq
    · exact n1 q hq
  · have found : ∀ h' s' t z, sliderPositionAt h' s' t = .ok z → (∃ z, sliderPositionAt h' s' t = .ok z ∧ Somewhere z) → Somewhere z := by
      rintro h' s' t z e1 ⟨z', e2, sz⟩
      rw [e1] at e2
      cases e2
      exact sz
    refine found _ _ _ _ hep (ball _ _ ?_ ?_ ?_ ?_ ?_ _ ⟨_, rfl⟩) <;> rfl
  · refine ball _ _ ?_ ?_ ?_ ?_ ?_ (some t) ⟨t, rfl⟩ <;> rfl

end GosuPP.Exactly
