import Verif.Lemmas.StrainSigns
import Verif.Props.Peaks

/-!
# C67: signs of strains, in IEEE arithmetic
-/

namespace GosuPP.Props
open Go Fl Spec

section
variable [GoLibm F64]

/-- C67 (IEEE, any library functions with the signs of powers). No strain peak that
`CalculateStrainPeaks` reports for aim, speed or flashlight is negative. -/
theorem C67_nonneg (hl : LibmSigns) (fuel : Nat) (objs : List (Obj F32 F64)) (diff : Difficulty F64)
    (p : StrainPeaks F64) (h : calculateStrainPeaks fuel objs diff = .ok p) :
    ∀ x ∈ p.aim ++ p.speed ++ p.flashlight, AtLeast (lit 0) x := by
  unfold calculateStrainPeaks at h
  obtain ⟨ds, hd, h⟩ := bind_ok h
  obtain ⟨sk, hs, h⟩ := bind_ok h
  obtain ⟨h1, h2, h3⟩ := peakLoop_signed hl (createDifficultyObjects_signed hl hd) hs
    (fresh_signed (d := diff) (by simp [freshSkills])) (fresh_signed (d := diff) (by simp [freshSkills])) (by
      intro f hf
      simp only at hf
      split at hf
      · cases hf; exact fresh_signed (d := diff) (by simp [freshSkills])
      · cases hf)
  unfold getPeaks at h
  obtain ⟨total, -, h⟩ := bind_ok h
  rw [← Except.ok.inj h]
  intro x hx
  rw [atLeast_zero]
  simp only [List.mem_append] at hx
  rcases hx with (hx | hx) | hx
  · exact h1.peaks x hx
  · exact h2.peaks x hx
  · cases hf : sk.flashlight with
    | none => rw [hf] at hx; exact absurd hx (List.not_mem_nil (a := x))
    | some f => rw [hf] at hx; exact (h3 f hf).peaks x hx

/-- C67 (IEEE, any library functions). The rhythm multiplier of a speed skill is at least one for every
object other than a spinner, whatever the history of the skill. -/
theorem C67_rhythm {S : Type} (sk : Skill S F64) (current : DiffObject S F64) (v : F64)
    (h : Speed.rhythm sk current = .ok v) (hs : current.baseObject.obj.isSpinner = false) : AtLeast (lit 1) v :=
  rhythm_ge_one h hs

/-- C51 (IEEE, any library functions with the signs of powers and `0 ≤ log10 ≤ 1` on `[1, 10]`). If the
strain peaks of every beginning of the map are finite, the aim, speed and flashlight ratings of
`CalculateStep` never decrease. -/
theorem C51_finite [GoSort] (hlog : LogBounds) (hl : LibmSigns) (fuel : Nat) (objs : List (Obj F32 F64))
    (diff : Difficulty F64) (stars : List (Attributes F64)) (h : calculateStep fuel objs diff = .ok stars)
    (hp : ∀ n p, calculateStrainPeaks fuel (objs.take n) diff = .ok p →
      ∀ x ∈ p.aim ++ p.speed ++ p.flashlight, Fl.Fin x) :
    stars.IsChain RatingsLE := by
  refine C51_nondecreasing hlog fuel objs diff stars h (fun n p hn x hx => ⟨hp n p hn x hx, ?_⟩)
  exact atLeast_iff.mp (C67_nonneg hl fuel _ diff p hn x hx) (hp n p hn x hx).nn

end

/-! ### Concrete cases -/

/-- C67: the sample library meets the hypothesis. -/
example : @LibmSigns Sample.libm := by
  letI := Sample.libm
  refine ⟨?_, ?_, ?_, ?_, ?_, ?_⟩
  · exact fun _ => atLeast_zero.mpr nn0_zero
  · exact fun _ => .inr (by show Fl.le (GoFloat.lit 0 : F64) (GoFloat.lit 1) = true; decide +kernel)
  · exact fun _ _ _ _ => atLeast_zero.mpr nn0_zero
  · exact fun _ _ _ => .inr (by show Fl.le (GoFloat.lit 0 : F64) (GoFloat.lit 1) = true; decide +kernel)
  · exact fun _ _ _ => atLeast_zero.mpr nn0_zero
  · exact fun _ => atLeast_zero.mpr nn0_zero

/-- Library functions with nonzero results: every power is one half, every sine is one. -/
def Sample.libm2 : GoLibm F64 where
  pow _ _ := fin (1 / 2) false
  sin _ := fin 1 false
  cos _ := fin 0 false
  acos _ := fin 0 false
  atan2 _ _ := fin 1 false
  log10 _ := fin (1 / 2) false
  cbrt x := x

theorem Sample.libm2_signs : @LibmSigns Sample.libm2 := by
  letI := Sample.libm2
  refine ⟨?_, ?_, ?_, ?_, ?_, ?_⟩
  · exact fun _ => .inr (by show Fl.le (GoFloat.lit 0 : F64) (fin (1 / 2) false) = true; decide +kernel)
  · exact fun _ => .inr (by show Fl.le (fin (1 / 2) false : F64) (GoFloat.lit 1) = true; decide +kernel)
  · exact fun _ _ _ _ => .inr (by show Fl.le (GoFloat.lit 0 : F64) (fin (1 / 2) false) = true; decide +kernel)
  · exact fun _ _ _ => .inr (by show Fl.le (fin (1 / 2) false : F64) (GoFloat.lit 1) = true; decide +kernel)
  · exact fun _ _ _ => .inr (by show Fl.le (GoFloat.lit 0 : F64) (fin (1 / 2) false) = true; decide +kernel)
  · exact fun _ => .inr (by show Fl.le (GoFloat.lit 0 : F64) (fin (1 / 2) false) = true; decide +kernel)

/-- The peaks of the sample with these functions, compared with zero. -/
def Sample.positivePeaks (mods : Modifier) : Option (List Bool × List Bool × List Bool) :=
  (Sample.observe Sample.stacked (fun m =>
    ((@calculateStrainPeaks F32 F64 _ Sample.libm2 _ _ 100 m.hitObjects (m.difficulty.setMods mods)).toOption).map
      (fun p => (p.aim.map (Fl.lt (GoFloat.lit 0)), p.speed.map (Fl.lt (GoFloat.lit 0)),
        p.flashlight.map (Fl.lt (GoFloat.lit 0)))))).join

/-- C67: three lists of eleven peaks, many of them positive; the speed strain vanishes after the spinner. -/
example : Sample.positivePeaks Mod.Flashlight = some
    ([false, false, false, false, false, false, false, false, false, false, true],
     [true, true, true, true, false, false, false, false, true, true, true],
     [true, true, true, true, true, true, true, true, true, true, true]) := by decide +kernel

/-- C67, C51: on the sample these functions give finite peaks for every beginning of the map. -/
example : Sample.observe Sample.stacked (fun m => (List.range 7).all fun n =>
    match @calculateStrainPeaks F32 F64 _ Sample.libm2 _ _ 100 (m.hitObjects.take n)
      (m.difficulty.setMods Mod.Flashlight) with
    | .ok p => (p.aim ++ p.speed ++ p.flashlight).all isFin
    | .error _ => true) = some true := by decide +kernel

/-- C67: the rhythm multiplier is computed, for a circle with no history it is one. -/
example : (Sample.observe Sample.stacked (fun m =>
    ((@createDifficultyObjects F32 F64 _ _ _ Sample.libm2 m.hitObjects m.difficulty).toOption).map
      (fun ds => ds.map (fun o => (o.baseObject.obj.isSpinner,
        (@Speed.rhythm F32 F64 _ Sample.libm2 (Skill.newSpeed m.difficulty) o).toOption))))).join =
    some [(false, some (fin 1 false)), (false, some (fin 1 false)), (true, some (fin 0 false)),
      (false, some (fin 1 false)), (false, some (fin 1 false))] := by decide +kernel

end GosuPP.Props
