import Verif.Lemmas.CatmullIEEE
import Verif.Props.ArcFiles

/-!
# C117: written maps with sliders of every type, from the file to the performance points
-/

namespace GosuPP.Props
open Go Fl Spec

/-- A Catmull slider through points with whole coordinates of at most 1023 in magnitude, of a length from 1 to below 16384, where the number
of spans times the length (and 64 px for each span, and 80 more for each span by the square of the number of its parts) is at most 131072. -/
def CatmullLine (h : Head) (c : Char) (ps : List (Dec × Dec)) (r : ℤ) (len : Dec) : Prop :=
  c = 'C' ∧ (∀ p ∈ (h.x, h.y) :: ps, p.1.frac = [] ∧ p.2.frac = [] ∧ p.1.whole < 2 ^ 10 ∧ p.2.whole < 2 ^ 10) ∧
    len.neg = false ∧ 1 ≤ len.whole ∧ len.whole < 2 ^ 14 ∧ 1 ≤ r ∧ r * (len.whole + 64 + 80 * ps.length ^ 2) ≤ 2 ^ 17

/-- A written map of ordinary size with straight sliders, Bézier sliders, arcs and Catmull curves. -/
structure AnyFile (f : File) : Prop extends SizedFile f where
  sliders : ∀ h c ps r len, ObjectLine.slider h c ps r len ∈ f.objects →
    StraightLine h c ps r len ∨ CurvedLine h c ps r len ∨ ArcLine h c ps r len ∨ CatmullLine h c ps r len

section
variable [GoLibm F64]

/-- The path of a Catmull slider is made. -/
theorem laid_catmull {h : Head} {c : Char} {ps : List (Dec × Dec)} {r : ℤ} {len : Dec} (hs : CatmullLine h c ps r len) (fuel : ℕ) :
    Laid fuel (.slider h c ps r len) := by
  obtain ⟨rfl, hw, hneg, hl1, hl2, hr1, hrw⟩ := hs
  obtain ⟨P, zP, hP, P1, P2, P3⟩ := len_in hneg hl1 hl2
  have hpt : ∀ v ∈ (⟨h.x.value, h.y.value⟩ :: ps.map (fun p => ⟨p.1.value, p.2.value⟩) : List (Vec F32)), WhPoint v := by
    have key : ∀ p ∈ (h.x, h.y) :: ps, WhPoint (⟨p.1.value, p.2.value⟩ : Vec F32) := fun p hp =>
      ⟨⟨_, dec_wh (hw p hp).1 (hw p hp).2.2.1⟩, ⟨_, dec_wh (hw p hp).2.1 (hw p hp).2.2.2⟩⟩
    intro v hv
    rcases List.mem_cons.mp hv with rfl | hv
    · exact key (h.x, h.y) List.mem_cons_self
    · obtain ⟨p, hp, rfl⟩ := List.mem_map.mp hv
      exact key p (List.mem_cons_of_mem _ hp)
  have hm : ps.length ≤ 64 := by
    by_contra hc
    have h1 : (65 : ℤ) ≤ ps.length := by exact_mod_cast (by omega : 65 ≤ ps.length)
    have h2 : (0 : ℤ) ≤ len.whole := by positivity
    nlinarith
  rcases newT_cases (S := F32) (D := F64) fuel ['C'] ⟨h.x.value, h.y.value⟩ (ps.map (fun p => ⟨p.1.value, p.2.value⟩)) len.value with
    ⟨e, h1, -⟩ | ⟨-, mc, -, hmc⟩
  · cases h1
  · have hmc' := hmc
    rw [hP] at hmc'
    obtain ⟨hpath, C, zC, hC, C0, C1⟩ := catmull_path hpt (m := ps.length) (by simp) hm P1 P3 hmc'
    exact ⟨len.whole + 64 + 80 * ps.length ^ 2, mc, P, C, zP, zC, by omega, hr1, by exact_mod_cast hrw, P1, C0, by push_cast; linarith, hP, hC,
      hpath, hmc⟩

theorem AnyFile.laid (ha : ArcLaws) {f : File} (hf : AnyFile f) : ∃ N, ∀ fuel ≥ N, ∀ l ∈ f.objects, Laid fuel l := by
  refine Exactly.uniform fun l hl => ?_
  cases l with
  | circle h => exact ⟨0, fun _ _ => trivial⟩
  | spinner h e => exact ⟨0, fun _ _ => trivial⟩
  | slider h c ps r len =>
    rcases hf.sliders _ _ _ _ _ hl with hs | hs | hs | hs
    · exact laid_slider (Or.inl hs)
    · exact laid_slider (Or.inr hs)
    · exact laid_arc ha hs
    · exact ⟨0, fun fuel _ => laid_catmull hs fuel⟩

variable [GoSort]

/-- C117 (IEEE). A written map with sliders of every type is read: the parser ends, without a panic and without an error. -/
theorem C117_parses (ha : ArcLaws) (f : File) (hf : AnyFile f) :
    ∃ N, ∀ fuel ≥ N, ∃ m : BeatMap F32 F64, parseText fuel f.text = .ok (some m) ∧ m.hitObjects.length = f.objects.length :=
  hf.toSizedFile.parses (hf.laid ha)

/-- C117 (IEEE). Such a map is parsed, and if no stack of the parsed map is higher than 32768, then under any mods and a custom speed between
a quarter and four the difficulty calculation returns with finite ratings that are not negative, and every play that has as many judgements as
the map has objects gets finite performance points that are not negative. -/
theorem C117_written (hl : PowLaws) (ht : TrigLaws) (ha : ArcLaws) (f : File) (hf : AnyFile f) (hne : f.objects ≠ []) :
    ∃ N0, ∀ fuel ≥ N0, ∃ m : BeatMap F32 F64, parseText fuel f.text = .ok (some m) ∧ m.hitObjects.length = f.objects.length ∧
      ((∀ o ∈ m.hitObjects, ∀ v, |(stackOf o v).1| ≤ 2 ^ 15) →
        ∀ (mods : Modifier) (speed : F64), Within 0.25 4 speed →
        let d := (m.difficulty.setMods mods).setCustomSpeed speed
        ∃ N, ∀ fuel' ≥ N,
          (∃ a, calculateSingle fuel' m.hitObjects d = .ok a ∧ FiniteStars a ∧
            ∀ (pp : PPv2 F64) (combo n300 n100 n50 nmiss : Int), combo ≤ 2 ^ 50 → 0 ≤ n100 → 0 ≤ n50 → 0 ≤ nmiss →
              (n300 < 0 ∧ n100 + n50 + nmiss ≤ f.objects.length) ∨
                (0 ≤ n300 ∧ n300 + n100 + n50 + nmiss = f.objects.length) →
              let r := (pp.ppv2x a combo n300 n100 n50 nmiss d).results
              FiniteNonneg r.aim ∧ FiniteNonneg r.speed ∧ FiniteNonneg r.acc ∧ FiniteNonneg r.flashlight ∧ FiniteNonneg r.total) ∧
          (∃ p, calculateStrainPeaks fuel' m.hitObjects d = .ok p)) :=
  hf.toSizedFile.written hl ht (hf.laid ha) hne

end

/-! ### Concrete cases -/

namespace Sample

/-- A file with a Catmull slider of five points (one of them given twice, one with a negative coordinate), an arc, a Bézier slider, a
straight slider and a circle. -/
def allTypes : File :=
  { Sample.file with
    objects := [.slider ⟨dec 100 [], dec 100 [], 400, false, 0, 2⟩ 'C'
        [(dec 200 [], dec 50 []), (dec 200 [], dec 50 []), (dec 0 [], dec 300 []), (⟨true, 20, []⟩, dec 30 [])] 2 (dec 520 [5]),
      .slider ⟨dec 100 [], dec 100 [], 4400, false, 0, 2⟩ 'P' [(dec 200 [], dec 50 []), (dec 300 [], dec 100 [])] 2 (dec 220 [5]),
      .slider ⟨dec 10 [], dec 20 [], 6400, false, 0, 2⟩ 'B' [(dec 50 [5], dec 20 []), (dec 90 [], dec 120 []), (dec 10 [], dec 200 [])] 2
        (dec 190 [5]),
      .slider ⟨dec 0 [], dec 20 [], 8000, false, 0, 2⟩ 'L' [(dec 50 [], dec 20 []), (dec 50 [], dec 80 [])] 3 (dec 90 [5]),
      .circle (head 100 50 12000 true 3)] }

theorem allTypes_good : allTypes.Good := by
  obtain ⟨h1, h2, h3, h4, h5, h6, h7, h8, h9, h10, h11, h12, h13, h14, h15, -, -⟩ := file_good
  refine ⟨h1, h2, h3, h4, h5, h6, h7, h8, h9, h10, h11, h12, h13, h14, h15, ?_, by decide +kernel⟩
  intro o ho
  simp only [allTypes, List.mem_cons, List.not_mem_nil, or_false] at ho
  rcases ho with rfl | rfl | rfl | rfl | rfl <;> (unfold File.GoodObject File.Int64; decide)

theorem allTypes_file : AnyFile allTypes := by
  refine ⟨⟨allTypes_good, by simp [allTypes, file], by simp [allTypes, file], by simp [allTypes], ?_, ?_, ?_, ?_, ?_⟩, ?_⟩
  · intro o ho
    simp only [allTypes, List.mem_cons, List.not_mem_nil, or_false] at ho
    rcases ho with rfl | rfl | rfl | rfl | rfl <;> decide
  · intro o ho
    simp only [allTypes, List.mem_cons, List.not_mem_nil, or_false] at ho
    rcases ho with rfl | rfl | rfl | rfl | rfl <;> decide
  · intro p hp
    simp only [allTypes, file, List.mem_cons, List.not_mem_nil, or_false] at hp
    rcases hp with rfl | rfl <;> decide
  · decide +kernel
  · decide +kernel
  · intro h c ps r len hm
    simp only [allTypes, List.mem_cons, List.not_mem_nil, or_false, reduceCtorEq] at hm
    rcases hm with hm | hm | hm | hm <;> cases hm
    · exact .inr (.inr (.inr ⟨rfl, by decide, by decide, by decide, by decide, by decide, by decide⟩))
    · refine .inr (.inr (.inl ⟨rfl, ⟨_, _, rfl, Or.inr ⟨by decide, by decide, by decide, by decide, 200, 175, ?_⟩⟩, by decide, by decide, by decide,
        by decide, by decide, by decide⟩))
      decide +kernel
    · refine .inr (.inl ⟨by decide, by decide, .inl ?_, by decide, by decide, by decide, by decide, by decide, by decide⟩)
      intro p hp
      simp only [List.mem_cons, List.not_mem_nil, or_false] at hp
      rcases hp with rfl | rfl | rfl | rfl <;> decide
    · refine .inl ⟨rfl, ?_, by decide, by decide, by decide, by decide, by decide, by decide⟩
      intro p hp
      simp only [List.mem_cons, List.not_mem_nil, or_false] at hp
      rcases hp with rfl | rfl | rfl <;> (unfold Spec.WholePoint; decide)

example [GoSort] : ∃ fuel, ∃ m : BeatMap F32 F64, letI := libm4; parseText fuel allTypes.text = .ok (some m) ∧ m.hitObjects.length = 5 := by
  letI := libm4
  obtain ⟨N, hN⟩ := C117_parses libm4_laws.2.2 allTypes allTypes_file
  exact ⟨N, hN N le_rfl⟩

end Sample

end GosuPP.Props
