import Verif.Lemmas.LazyCursor
import Verif.Lemmas.SliderReal
import Verif.Lemmas.PathReal
import Verif.Lemmas.Curve

/-!
# The ball moves no faster than its velocity
-/

namespace GosuPP.LazyCursor
open Go Spec

theorem dist_along (l : Linear ℝ) (u v : ℝ) : dist (planePos (along l u)) (planePos (along l v)) = |u - v| * len l := by
  rw [Complex.dist_eq_re_im, ← Real.sqrt_sq (abs_nonneg (u - v)), len, ← Real.sqrt_mul (sq_nonneg _), sq_abs]
  congr 1
  simp only [planePos, along]
  ring

theorem len_nonneg' (l : Linear ℝ) : 0 ≤ len l := Real.sqrt_nonneg _

theorem along_zero (l : Linear ℝ) : along l 0 = l.p1 := by simp [along]
theorem along_one (l : Linear ℝ) : along l 1 = l.p2 := by simp [along]

theorem along_div {l : Linear ℝ} {w w' : ℝ} (h : 0 ≤ w) (h' : w ≤ w') (hw : w' ≤ len l) :
    dist (planePos (along l (w / len l))) (planePos (along l (w' / len l))) ≤ w' - w := by
  rw [dist_along]
  rcases (len_nonneg' l).eq_or_lt with h0 | h0
  · rw [← h0, mul_zero]; linarith
  · rw [← sub_div, abs_div, abs_of_pos h0, div_mul_cancel₀ _ h0.ne', abs_of_nonpos (by linarith)]
    linarith

theorem along_end {l : Linear ℝ} {w : ℝ} (h : 0 ≤ w) (hw : w ≤ len l) :
    dist (planePos (along l (w / len l))) (planePos l.p2) ≤ len l - w := by
  rcases (len_nonneg' l).eq_or_lt with h0 | h0
  · have e : l.p2 = along l (w / len l) := by
      rw [← h0, _root_.div_zero, along_zero]
      have : (l.p2.x - l.p1.x) ^ 2 + (l.p2.y - l.p1.y) ^ 2 = 0 := by
        have := h0.symm
        unfold len at this
        exact (Real.sqrt_eq_zero (by positivity)).mp this
      have hx : l.p2.x - l.p1.x = 0 := by nlinarith [sq_nonneg (l.p2.x - l.p1.x), sq_nonneg (l.p2.y - l.p1.y)]
      have hy : l.p2.y - l.p1.y = 0 := by nlinarith [sq_nonneg (l.p2.x - l.p1.x), sq_nonneg (l.p2.y - l.p1.y)]
      exact Vec.ext (by linarith) (by linarith)
    rw [← e, dist_self]
    linarith
  · have := along_div h hw le_rfl
    rwa [div_self h0.ne', along_one] at this

theorem walk_start {start : Vec ℝ} {ls : List (Linear ℝ)} (hc : Connected start ls) {w : ℝ} (hw : 0 ≤ w) :
    dist (planePos start) (planePos (walk start ls w)) ≤ w := by
  induction ls generalizing start w with
  | nil => unfold walk; rw [dist_self]; exact hw
  | cons l ls ih =>
    unfold walk
    obtain ⟨h1, h2⟩ := hc
    split
    · rename_i hle
      have := along_div le_rfl hw hle
      rwa [_root_.zero_div, along_zero, h1, sub_zero] at this
    · rename_i hle
      push Not at hle
      have k1 := ih h2 (w := w - len l) (by linarith)
      have k2 := along_end le_rfl (len_nonneg' l)
      rw [_root_.zero_div, along_zero, h1, sub_zero] at k2
      have := dist_triangle (planePos start) (planePos l.p2) (planePos (walk l.p2 ls (w - len l)))
      linarith

theorem walk_lip {start : Vec ℝ} {ls : List (Linear ℝ)} (hc : Connected start ls) {w w' : ℝ} (hw : 0 ≤ w) (h : w ≤ w') :
    dist (planePos (walk start ls w)) (planePos (walk start ls w')) ≤ w' - w := by
  induction ls generalizing start w w' with
  | nil => unfold walk; rw [dist_self]; linarith
  | cons l ls ih =>
    obtain ⟨h1, h2⟩ := hc
    unfold walk
    by_cases ha : w ≤ len l
    · rw [if_pos ha]
      by_cases hb : w' ≤ len l
      · rw [if_pos hb]
        exact along_div hw h hb
      · rw [if_neg hb]
        push Not at hb
        have k1 := along_end hw ha
        have k2 := walk_start h2 (w := w' - len l) (by linarith)
        have := dist_triangle (planePos (along l (w / len l))) (planePos l.p2) (planePos (walk l.p2 ls (w' - len l)))
        linarith
    · rw [if_neg ha]
      push Not at ha
      rw [if_neg (by linarith)]
      have := ih h2 (w := w - len l) (w' := w' - len l) (by linarith) (by linarith)
      linarith

theorem walk_abs {start : Vec ℝ} {ls : List (Linear ℝ)} (hc : Connected start ls) {w w' : ℝ} (hw : 0 ≤ w) (hw' : 0 ≤ w') :
    dist (planePos (walk start ls w)) (planePos (walk start ls w')) ≤ |w - w'| := by
  rcases le_total w w' with h | h
  · rw [abs_of_nonpos (by linarith)]
    have := walk_lip hc hw h
    linarith
  · rw [abs_of_nonneg (by linarith), dist_comm]
    exact walk_lip hc hw' h

/-- There and back again: the fraction of the path after `p` spans. -/
noncomputable def zig (p : ℝ) : ℝ :=
  if 1 ≤ GoFloat.fmod p (lit 2 : ℝ) then (lit 2 : ℝ) - GoFloat.fmod p (lit 2 : ℝ) else GoFloat.fmod p (lit 2 : ℝ)

theorem zig_spec {p : ℝ} (hp : 0 ≤ p) : (∃ k : ℤ, zig p = |p - 2 * k|) ∧ ∀ k : ℤ, zig p ≤ |p - 2 * k| := by
  have e2 : (lit 2 : ℝ) = 2 := by show ((2 : ℚ) : ℝ) = 2; norm_num
  have hf : GoFloat.fmod p (lit 2 : ℝ) = p - 2 * (⌊p / 2⌋ : ℝ) := by
    rw [e2]
    show (if p < 0 then (-1 : ℝ) else 1) * (|p| - |2| * (⌊|p| / |2|⌋ : ℝ)) = _
    rw [if_neg (not_lt.mpr hp), abs_of_nonneg hp, abs_of_pos (by norm_num : (0 : ℝ) < 2), one_mul]
  have h1 := Int.floor_le (p / 2)
  have h2 := Int.lt_floor_add_one (p / 2)
  unfold zig
  rw [hf, e2]
  set f := ⌊p / 2⌋
  have hle : ∀ k : ℤ, k ≤ f ∨ f + 1 ≤ k := fun k => by omega
  split
  · rename_i h
    refine ⟨⟨f + 1, ?_⟩, fun k => ?_⟩
    · push_cast
      rw [abs_of_nonpos (by linarith)]
      ring
    · rcases hle k with hk | hk
      · have hk' : (k : ℝ) ≤ f := by exact_mod_cast hk
        exact le_trans (by linarith) (le_abs_self _)
      · have hk' : (f : ℝ) + 1 ≤ k := by exact_mod_cast hk
        exact le_trans (by linarith) (neg_le_abs _)
  · rename_i h
    push Not at h
    refine ⟨⟨f, ?_⟩, fun k => ?_⟩
    · rw [abs_of_nonneg (by linarith)]
    · rcases hle k with hk | hk
      · have hk' : (k : ℝ) ≤ f := by exact_mod_cast hk
        exact le_trans (by linarith) (le_abs_self _)
      · have hk' : (f : ℝ) + 1 ≤ k := by exact_mod_cast hk
        exact le_trans (by linarith) (neg_le_abs _)

theorem zig_lip {p q : ℝ} (hp : 0 ≤ p) (hq : 0 ≤ q) : |zig p - zig q| ≤ |p - q| := by
  have half : ∀ {p q : ℝ}, 0 ≤ p → 0 ≤ q → zig p - zig q ≤ |p - q| := by
    intro p q hp hq
    obtain ⟨k, hk⟩ := (zig_spec hq).1
    have := (zig_spec hp).2 k
    have h3 := abs_add_le (p - q) (q - 2 * k)
    rw [sub_add_sub_cancel] at h3
    linarith
  rw [abs_le]
  have h1 := half hp hq
  have h2 := half hq hp
  rw [abs_sub_comm] at h2
  constructor <;> linarith

theorem zig_range {p : ℝ} (hp : 0 ≤ p) : 0 ≤ zig p ∧ zig p ≤ 1 := by
  obtain ⟨⟨k, hk⟩, h⟩ := zig_spec hp
  refine ⟨hk ▸ abs_nonneg _, ?_⟩
  have h1 := Int.floor_le (p / 2)
  have h2 := Int.lt_floor_add_one (p / 2)
  rcases le_total (p / 2 - ⌊p / 2⌋) (1 / 2) with hle | hle
  · refine (h ⌊p / 2⌋).trans ?_
    rw [abs_of_nonneg (by linarith)]
    linarith
  · refine (h (⌊p / 2⌋ + 1)).trans ?_
    push_cast
    rw [abs_of_nonpos (by linarith)]
    linarith

/-- Mods and stacking move a slider as a whole. -/
theorem modify_dist (h : HitObject ℝ ℝ) (m : Modifier) (v w : Vec ℝ) :
    dist (planePos (h.modifyPosition v m)) (planePos (h.modifyPosition w m)) = dist (planePos v) (planePos w) := by
  unfold HitObject.modifyPosition
  simp only [Complex.dist_eq_re_im]
  split
  · congr 1
    simp only [planePos, Vec.add, RealArith.add, RealArith.sub]
    ring
  · split
    · congr 1
      simp only [planePos, Vec.add, RealArith.add, RealArith.sub]
      ring
    · congr 1
      simp only [planePos, Vec.add, RealArith.add, RealArith.sub]
      ring

/-- The place of the ball at each time. -/
theorem ball_walk {h : HitObject ℝ ℝ} {s : SliderData ℝ ℝ} {pf : Nat} {typ : Str} {l : List (Vec ℝ)} {len : ℝ}
    (hmc : MultiCurve.newT pf typ (h.startPosRaw :: l) len = .ok s.multiCurve) (hpos : 0 < s.multiCurve.length)
    (hle : h.startTime < h.endTime) (hsd : 0 < s.spanDuration) (t : ℝ) :
    sliderPositionAt h s t = .ok (walk h.startPosRaw s.multiCurve.lines
      (zig ((min h.endTime (max h.startTime t) - h.startTime) / s.spanDuration) * s.multiCurve.length)) := by
  have hm := newT_measuredR hmc
  unfold sliderPositionAt
  have hne : ¬ isRetarded h = true := by
    unfold isRetarded
    rw [RealArith.eq]
    exact hle.ne
  rw [if_neg hne]
  have hz : 0 ≤ (min h.endTime (max h.startTime t) - h.startTime) / s.spanDuration :=
    div_nonneg (sub_nonneg.mpr (le_min hle.le (le_max_left _ _))) hsd.le
  obtain ⟨r0, r1⟩ := zig_range hz
  dsimp only
  rw [Slider.clampF64_real]
  have e : (if GoFloat.fmod ((min h.endTime (max h.startTime t) -. h.startTime) /. s.spanDuration) (lit 2) >=. lit 1 then
      lit 2 -. GoFloat.fmod ((min h.endTime (max h.startTime t) -. h.startTime) /. s.spanDuration) (lit 2)
      else GoFloat.fmod ((min h.endTime (max h.startTime t) -. h.startTime) /. s.spanDuration) (lit 2) : ℝ) =
      zig ((min h.endTime (max h.startTime t) - h.startTime) / s.spanDuration) := by
    unfold zig
    have e1 : (lit 1 : ℝ) = 1 := by show ((1 : ℚ) : ℝ) = 1; norm_num
    simp only [RealArith.le, RealArith.sub, RealArith.div, e1]
  rw [e]
  show s.multiCurve.pointAt (D := ℝ) (zig _) = _
  rw [pointAt_walk hm hpos, MultiCurve.newT_firstPoint hmc, max_eq_right r0, min_eq_right r1]

/-- The ball has a place at each time. -/
theorem ball_exists {h : HitObject ℝ ℝ} {s : SliderData ℝ ℝ} {pf : Nat} {typ : Str} {l : List (Vec ℝ)} {len : ℝ}
    (hmc : MultiCurve.newT pf typ (h.startPosRaw :: l) len = .ok s.multiCurve) (hpos : 0 < s.multiCurve.length)
    (hle : h.startTime < h.endTime) (hsd : 0 < s.spanDuration) (mods : Modifier) (t : ℝ) :
    ∃ v, (⟨h, .slider s⟩ : Obj ℝ ℝ).getStackedPositionAtMod t mods = .ok v := by
  unfold Obj.getStackedPositionAtMod Obj.getPositionAt
  simp only
  rw [ball_walk hmc hpos hle hsd]
  exact ⟨_, rfl⟩

/-- It starts at the start of the slider. -/
theorem ball_start {h : HitObject ℝ ℝ} {s : SliderData ℝ ℝ} {pf : Nat} {typ : Str} {l : List (Vec ℝ)} {len : ℝ}
    (hmc : MultiCurve.newT pf typ (h.startPosRaw :: l) len = .ok s.multiCurve) (hpos : 0 < s.multiCurve.length)
    (hle : h.startTime < h.endTime) (hsd : 0 < s.spanDuration) (mods : Modifier) :
    BallAt ⟨h, .slider s⟩ mods h.startTime (planePos (h.getStackedStartPositionMod mods)) := by
  obtain ⟨v, hv⟩ := ball_exists hmc hpos hle hsd mods h.startTime
  refine ⟨v, hv, ?_⟩
  unfold Obj.getStackedPositionAtMod Obj.getPositionAt at hv
  simp only at hv
  rw [ball_walk hmc hpos hle hsd] at hv
  rw [← Except.ok.inj hv]
  refine dist_eq_zero.mp (le_antisymm ?_ dist_nonneg)
  unfold HitObject.getStackedStartPositionMod
  rw [modify_dist, max_self, min_eq_right hle.le, sub_self, _root_.zero_div, dist_comm]
  refine (walk_start (newT_connected hmc) (mul_nonneg (zig_range le_rfl).1 hpos.le)).trans ?_
  have : zig 0 ≤ 0 := by simpa using (zig_spec (le_refl (0 : ℝ))).2 0
  nlinarith

/-- It is never farther from the start than the path is long. -/
theorem ball_near {h : HitObject ℝ ℝ} {s : SliderData ℝ ℝ} {pf : Nat} {typ : Str} {l : List (Vec ℝ)} {len : ℝ}
    (hmc : MultiCurve.newT pf typ (h.startPosRaw :: l) len = .ok s.multiCurve) (hpos : 0 < s.multiCurve.length)
    (hle : h.startTime < h.endTime) (hsd : 0 < s.spanDuration) {mods : Modifier} {t : ℝ} {p : ℂ}
    (hp : BallAt ⟨h, .slider s⟩ mods t p) : dist p (planePos (h.getStackedStartPositionMod mods)) ≤ s.multiCurve.length := by
  obtain ⟨v, hv, rfl⟩ := hp
  unfold Obj.getStackedPositionAtMod Obj.getPositionAt at hv
  simp only at hv
  rw [ball_walk hmc hpos hle hsd] at hv
  rw [← Except.ok.inj hv]
  have hz : 0 ≤ (min h.endTime (max h.startTime t) - h.startTime) / s.spanDuration :=
    div_nonneg (sub_nonneg.mpr (le_min hle.le (le_max_left _ _))) hsd.le
  obtain ⟨r0, r1⟩ := zig_range hz
  unfold HitObject.getStackedStartPositionMod
  rw [modify_dist, dist_comm]
  refine (walk_start (newT_connected hmc) (mul_nonneg r0 hpos.le)).trans ?_
  nlinarith

private theorem clamp_lip (a b t t' : ℝ) : |min b (max a t) - min b (max a t')| ≤ |t - t'| :=
  (abs_min_sub_min_le_max b _ b _).trans (by
    rw [sub_self, abs_zero, max_eq_right (abs_nonneg _)]
    refine (abs_max_sub_max_le_max a t a t').trans ?_
    rw [sub_self, abs_zero, max_eq_right (abs_nonneg _)])

/-- The ball moves no faster than its velocity. -/
theorem ball_speed {h : HitObject ℝ ℝ} {s : SliderData ℝ ℝ} {pf : Nat} {typ : Str} {l : List (Vec ℝ)} {len : ℝ}
    (hmc : MultiCurve.newT pf typ (h.startPosRaw :: l) len = .ok s.multiCurve) (hpos : 0 < s.multiCurve.length)
    (hle : h.startTime < h.endTime) (hsd : 0 < s.spanDuration) {mods : Modifier} {t t' : ℝ} {p p' : ℂ}
    (hp : BallAt ⟨h, .slider s⟩ mods t p) (hp' : BallAt ⟨h, .slider s⟩ mods t' p') :
    dist p p' ≤ |t - t'| / s.spanDuration * s.multiCurve.length := by
  have e : ∀ {t p}, BallAt ⟨h, .slider s⟩ mods t p → p = planePos (h.modifyPosition (walk h.startPosRaw s.multiCurve.lines
      (zig ((min h.endTime (max h.startTime t) - h.startTime) / s.spanDuration) * s.multiCurve.length)) mods) := by
    rintro t p ⟨v, hv, rfl⟩
    unfold Obj.getStackedPositionAtMod Obj.getPositionAt at hv
    simp only at hv
    rw [ball_walk hmc hpos hle hsd] at hv
    rw [← Except.ok.inj hv]
  rw [e hp, e hp', modify_dist]
  have hz : ∀ t, 0 ≤ (min h.endTime (max h.startTime t) - h.startTime) / s.spanDuration := fun t =>
    div_nonneg (sub_nonneg.mpr (le_min hle.le (le_max_left _ _))) hsd.le
  refine (walk_abs (newT_connected hmc) (mul_nonneg (zig_range (hz t)).1 hpos.le) (mul_nonneg (zig_range (hz t')).1 hpos.le)).trans ?_
  rw [← sub_mul, abs_mul, abs_of_pos hpos]
  refine mul_le_mul_of_nonneg_right ((zig_lip (hz t) (hz t')).trans ?_) hpos.le
  rw [← sub_div, abs_div, abs_of_pos hsd, sub_sub_sub_cancel_right]
  exact div_le_div_of_nonneg_right (clamp_lip _ _ _ _) hsd.le

/-- The way of the ball through score points in the order of their times is no longer than its whole way. -/
theorem ball_way {h : HitObject ℝ ℝ} {s : SliderData ℝ ℝ} {pf : Nat} {typ : Str} {l : List (Vec ℝ)} {len : ℝ}
    (hmc : MultiCurve.newT pf typ (h.startPosRaw :: l) len = .ok s.multiCurve) (hpos : 0 < s.multiCurve.length)
    (hle : h.startTime < h.endTime) (hsd : 0 < s.spanDuration) {mods : Modifier} {pts : List (TickPoint ℝ)}
    (hne : pts ≠ []) (hsort : pts.Pairwise (fun a b => a.time ≤ b.time)) {t : ℝ} {c : ℂ}
    (hin : ∀ p ∈ pts, t ≤ p.time ∧ p.time ≤ h.endTime) (hc : BallAt ⟨h, .slider s⟩ mods t c) :
    ∃ w, BallWay ⟨h, .slider s⟩ mods pts c w ∧ w ≤ (h.endTime - t) / s.spanDuration * s.multiCurve.length := by
  induction pts generalizing t c with
  | nil => exact absurd rfl hne
  | cons p pts ih =>
    obtain ⟨k1, k2⟩ := hin p (List.mem_cons_self ..)
    cases pts with
    | nil =>
      obtain ⟨v, hv⟩ := ball_exists hmc hpos hle hsd mods h.endTime
      refine ⟨_, .last ⟨v, hv, rfl⟩, ?_⟩
      have := ball_speed hmc hpos hle hsd hc ⟨v, hv, rfl⟩
      rwa [abs_sub_comm, abs_of_nonneg (by linarith)] at this
    | cons q pts =>
      obtain ⟨v, hv⟩ := ball_exists hmc hpos hle hsd mods p.time
      rw [List.pairwise_cons] at hsort
      obtain ⟨w, hw, hle'⟩ := ih (List.cons_ne_nil _ _) hsort.2 (t := p.time)
        (fun x hx => ⟨hsort.1 x hx, (hin x (List.mem_cons_of_mem _ hx)).2⟩) ⟨v, hv, rfl⟩
      refine ⟨_, .step ⟨v, hv, rfl⟩ hw, ?_⟩
      have := ball_speed hmc hpos hle hsd hc ⟨v, hv, rfl⟩
      rw [abs_sub_comm, abs_of_nonneg (by linarith)] at this
      have e : (h.endTime - t) / s.spanDuration * s.multiCurve.length = (p.time - t) / s.spanDuration * s.multiCurve.length +
        (h.endTime - p.time) / s.spanDuration * s.multiCurve.length := by ring
      linarith

/-- The way of a cursor that is as lazy as possible is no longer than the way through the places of the ball. -/
theorem lazy_le {o : Obj ℝ ℝ} {mods : Modifier} {radius t : ℝ} (hr : 0 ≤ radius) {pts : List (TickPoint ℝ)} {c c' b : ℂ} {w w' : ℝ}
    (h : LazyWay o mods radius t pts c c' w) (h' : BallWay o mods pts b w') : w ≤ dist c b + w' := by
  have same : ∀ {t p q}, BallAt o mods t p → BallAt o mods t q → p = q := by
    rintro t p q ⟨v, hv, rfl⟩ ⟨v', hv', rfl⟩
    rw [hv] at hv'
    cases hv'
    rfl
  induction h generalizing b w' with
  | @last point c p e target c' hp he ht hn =>
    cases h' with
    | last he' =>
      obtain rfl := same he he'
      have hle : dist target c ≤ dist e c := by
        rw [ht]
        split
        · rename_i hlt; exact hlt.le
        · exact le_rfl
      have e2 := nearest_unique (by positivity) hn
      obtain ⟨m1, m2, -⟩ := towards_move (p := target) (c := c) (R := 1.8 * radius) (by positivity)
      rw [← e2] at m2
      have := dist_nonneg (x := c') (y := target)
      have k := dist_triangle c b e
      rw [dist_comm c target] at m2
      rw [dist_comm e c] at hle
      linarith
  | @step point q rest c p c' c'' way hp hn hw ih =>
    cases h' with
    | step hp' hw' =>
      obtain rfl := same hp hp'
      have k1 := ih hw'
      have hR : 0 ≤ (if point.isReverse then radius else 1.8 * radius) := by split <;> positivity
      have e2 := nearest_unique hR hn
      obtain ⟨m1, m2, -⟩ := towards_move (p := p) (c := c) hR
      rw [← e2] at m2
      have := dist_triangle c b p
      linarith

end GosuPP.LazyCursor
