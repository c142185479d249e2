import Verif.Lemmas.PathMotion
import Verif.Props.Paths

/-!
# C118: moving the control points of a slider moves its path
-/

namespace GosuPP
open Go

namespace Spec

/-- The path `mc'` is the path `mc`, moved by `f`: it has the same length, the same sections and the moved lines, and
every position on it is the moved position on `mc`. -/
structure MovedPath {S : Type} (D : Type) [GoFloat S] [GoFloat D] [GoConv S D] (f : Vec S → Vec S) (mc mc' : MultiCurve S) : Prop where
  length : mc'.length = mc.length
  sections : mc'.sections = mc.sections
  lines : mc'.lines = mc.lines.map fun l => ⟨f l.p1, f l.p2⟩
  positions : ∀ t p, mc.pointAt (D := D) t = .ok p → mc'.pointAt (D := D) t = .ok (f p)

/-- The path of the moved control points is the moved path, whenever the construction of the first path ends. -/
def MovesPath {S : Type} (D : Type) [GoFloat S] [GoFloat D] [GoConv S D] [GoLibm D] (f : Vec S → Vec S) (typ : Str)
    (points : List (Vec S)) (len : D) : Prop :=
  ∀ fuel mc, MultiCurve.newT fuel typ points len = .ok mc →
    ∃ mc', MovedPath D f mc mc' ∧ ∃ n, ∀ m, n ≤ m → MultiCurve.newT m typ (points.map f) len = .ok mc'

/-- A map of the complex plane, on positions. -/
def onVec (g : ℂ → ℂ) (v : Vec ℝ) : Vec ℝ := ⟨(g ⟨v.x, v.y⟩).re, (g ⟨v.x, v.y⟩).im⟩

end Spec

theorem movesPath_fits {S D : Type} [GoFloat S] [GoFloat D] [GoConv S D] [GoLibm D] {g : Vec S → Vec S} (hg : Fits D g)
    {typ : Str} {points : List (Vec S)} {len : D}
    (hP : ∀ fuel ls p q r, typ = ['P'] → points = [p, q, r] → Vec.isStraightLine (D := D) p q r = false →
      ∀ m, fuel ≤ m → approximateCircularArc (D := D) fuel p q r (lit 0.125) = .ok ls →
        approximateCircularArc (D := D) m (g p) (g q) (g r) (lit 0.125) = .ok (ls.map (lineOf g))) :
    Spec.MovesPath D g typ points len := by
  intro fuel mc h
  refine ⟨mc.moved g, ⟨rfl, rfl, rfl, fun t p hp => pointAt_fits hg mc t hp⟩, ?_⟩
  have h' := h
  unfold MultiCurve.newT at h'
  obtain ⟨ls, e, -⟩ := bind_ok h'
  obtain ⟨n, hn⟩ := processType_fits hg (hP fuel ls) e
  refine ⟨n, fun m hm => newT_fits hg h fun ls' e' => ?_⟩
  rw [e] at e'
  cases e'
  exact hn m hm

/-- C118 (exact arithmetic). Rotating, reflecting and translating the control points of a slider that is not a
circular arc rotates, reflects and translates its path: the length and the lengths of the parts stay the same, and every
position on the path is moved along. -/
theorem C118_congruent {g : ℂ → ℂ} (hg : Isometry g) (typ : Str) (points : List (Vec ℝ)) (len : ℝ)
    (hP : typ = ['P'] → points.length ≠ 3) : Spec.MovesPath ℝ (Spec.onVec g) typ points len := by
  obtain ⟨a, b, s, t, u, h1, hs, form⟩ := isometry_form hg
  have e : Spec.onVec g = turned a b s t u := by
    funext v
    unfold Spec.onVec turned
    rw [(form _ _).1, (form _ _).2, Vec.mk.injEq]
    constructor <;> ring
  rw [e]
  refine movesPath_fits (fits_turned h1 (by rcases hs with rfl | rfl <;> norm_num)) fun _ _ p q r c1 c2 => ?_
  exact absurd (by rw [c2]; rfl) (hP c1)

/-- A Catmull slider, turned by a quarter. -/
example : ∃ mc mc' : MultiCurve ℝ, MultiCurve.newT (D := ℝ) 0 ['C'] [⟨0, 0⟩, ⟨60, 30⟩, ⟨90, -30⟩] (100 : ℝ) = .ok mc ∧
    Spec.MovedPath ℝ (Spec.onVec (Complex.I * ·)) mc mc' ∧
    ∃ n, ∀ m, n ≤ m → MultiCurve.newT (D := ℝ) m ['C'] [⟨0, 0⟩, ⟨-30, 60⟩, ⟨30, 90⟩] (100 : ℝ) = .ok mc' := by
  have hi : Isometry (Complex.I * · : ℂ → ℂ) := Isometry.of_dist_eq fun z w => by
    rw [Complex.dist_eq, Complex.dist_eq, ← mul_sub, norm_mul, Complex.norm_I, one_mul]
  obtain ⟨mc, h⟩ : ∃ mc, MultiCurve.newT (S := ℝ) (D := ℝ) 0 ['C'] [⟨0, 0⟩, ⟨60, 30⟩, ⟨90, -30⟩] (100 : ℝ) = .ok mc := ⟨_, rfl⟩
  obtain ⟨mc', h1, h2⟩ := C118_congruent hi ['C'] [⟨0, 0⟩, ⟨60, 30⟩, ⟨90, -30⟩] 100 (by decide) 0 mc h
  refine ⟨mc, mc', h, h1, ?_⟩
  have e : [(⟨0, 0⟩ : Vec ℝ), ⟨60, 30⟩, ⟨90, -30⟩].map (Spec.onVec (Complex.I * ·)) = [⟨0, 0⟩, ⟨-30, 60⟩, ⟨30, 90⟩] := by
    simp [Spec.onVec]
  rwa [e] at h2

/-- C118 (exact arithmetic). Adding a vector to the control points of a slider of any type, circular arcs included,
adds it to every position on its path, and changes no length. -/
theorem C118_translated (dx dy : ℝ) (typ : Str) (points : List (Vec ℝ)) (len : ℝ) :
    Spec.MovesPath ℝ (fun v => ⟨v.x + dx, v.y + dy⟩) typ points len := by
  have e : (fun v : Vec ℝ => (⟨v.x + dx, v.y + dy⟩ : Vec ℝ)) = turned 1 0 1 dx dy := by
    funext v
    exact shift_ext rfl rfl
  rw [e]
  exact movesPath_fits (fits_turned (by norm_num) (by norm_num)) fun _ _ p q r _ _ c3 m hm h => approximateArc_shift hm c3 h

/-- The half circle through (50, 0), (0, 50) and (-50, 0), moved to the middle of the playfield. -/
example (len : ℝ) : ∃ mc mc' : MultiCurve ℝ, MultiCurve.newT (D := ℝ) 3 ['P'] [⟨50, 0⟩, ⟨0, 50⟩, ⟨-50, 0⟩] len = .ok mc ∧
    Spec.MovedPath ℝ (fun v => ⟨v.x + 256, v.y + 192⟩) mc mc' ∧
    ∃ n, ∀ m, n ≤ m → MultiCurve.newT (D := ℝ) m ['P'] [⟨306, 192⟩, ⟨256, 242⟩, ⟨206, 192⟩] len = .ok mc' := by
  have hp1 := Real.pi_gt_d2
  have hp2 := Real.pi_lt_d2
  have hb : |Real.pi| = Real.pi := abs_of_pos (by linarith)
  have harc : Spec.Arc ⟨0, 0⟩ 50 0 (Real.pi / 2) Real.pi ⟨50, 0⟩ ⟨0, 50⟩ ⟨-50, 0⟩ := by
    refine ⟨by norm_num, ?_, ?_, ?_, .inl ⟨by linarith, by linarith, by linarith⟩⟩
    · unfold Spec.circle; simp
    · unfold Spec.circle; simp
    · unfold Spec.circle; simp
  obtain ⟨lines, hl, -⟩ := arc_lines harc (by rw [hb]; norm_num at hp1 ⊢; linarith)
    (by rw [hb]; norm_num at hp1 ⊢; linarith) (by unfold Spec.area2; norm_num) (by rw [hb]; norm_num at hp2 ⊢; linarith) 0
  obtain ⟨mc, h⟩ : ∃ mc, MultiCurve.newT (S := ℝ) (D := ℝ) 3 ['P'] [⟨50, 0⟩, ⟨0, 50⟩, ⟨-50, 0⟩] len = .ok mc := by
    unfold MultiCurve.newT
    rw [hl]
    exact ⟨_, rfl⟩
  obtain ⟨mc', h1, h2⟩ := C118_translated 256 192 ['P'] [⟨50, 0⟩, ⟨0, 50⟩, ⟨-50, 0⟩] len 3 mc h
  refine ⟨mc, mc', h, h1, ?_⟩
  have e : [(⟨50, 0⟩ : Vec ℝ), ⟨0, 50⟩, ⟨-50, 0⟩].map (fun v => (⟨v.x + 256, v.y + 192⟩ : Vec ℝ)) =
      [⟨306, 192⟩, ⟨256, 242⟩, ⟨206, 192⟩] := by
    norm_num
  rwa [e] at h2

/-- C118 (IEEE). Exchanging the two coordinates of the control points of a slider that is not a circular arc exchanges
the coordinates of every position on its path; the length is the same to the last bit. -/
theorem C118_swapped [GoLibm F64] (typ : Str) (points : List (Vec F32)) (len : F64) (hP : typ = ['P'] → points.length ≠ 3) :
    Spec.MovesPath F64 Spec.swap typ points len := by
  refine movesPath_fits fits_swap fun _ _ p q r c1 c2 => ?_
  exact absurd (by rw [c2]; rfl) (hP c1)

/-- A Bezier slider. -/
def bentCurve : List (Vec F32) := [⟨lit 0, lit 0⟩, ⟨lit 60, lit 30⟩, ⟨lit 90, lit (-30)⟩]

example [GoLibm F64] (len : F64) : ∃ mc mc' : MultiCurve F32, MultiCurve.newT (D := F64) 100 ['B'] bentCurve len = .ok mc ∧
    Spec.MovedPath F64 Spec.swap mc mc' ∧
    ∃ n, ∀ m, n ≤ m → MultiCurve.newT (D := F64) m ['B'] [⟨lit 0, lit 0⟩, ⟨lit 30, lit 60⟩, ⟨lit (-30), lit 90⟩] len = .ok mc' := by
  have hb : (processBezier 100 bentCurve).toOption.isSome = true := by decide +kernel
  obtain ⟨mc, h⟩ : ∃ mc, MultiCurve.newT (D := F64) 100 ['B'] bentCurve len = .ok mc := by
    unfold MultiCurve.newT processType
    rw [if_neg (by decide), if_neg (by decide), if_pos rfl]
    cases hl : processBezier 100 bentCurve with
    | error e => rw [hl] at hb; cases hb
    | ok ls => exact ⟨_, rfl⟩
  obtain ⟨mc', h1, h2⟩ := C118_swapped ['B'] bentCurve len (by decide) 100 mc h
  exact ⟨mc, mc', h, h1, h2⟩

end GosuPP
