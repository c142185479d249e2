import Verif.Lemmas.FileLines
import Verif.Props.AnyFiles
import Verif.Props.Motion

/-!
# C119: the same map with the coordinates exchanged in the file
-/

namespace GosuPP.Props
open Go Fl Spec

section
variable [GoLibm F64] [GoSort]

/-- C119 (IEEE). If a written map without arcs of three points is read, then the map in whose file the two coordinates of every object and of
every point of a slider are exchanged is read as well, and differs only in that the coordinates of its objects are exchanged: times, combos,
the ends, lengths and ticks of sliders, the stacks and all else are the same. -/
theorem C119_flipped (f : File) (hf : f.Good) (ha : ∀ o ∈ f.objects, o.NoArc) {fuel : ℕ} {m : BeatMap F32 F64}
    (h : parseText fuel f.text = .ok (some m)) :
    ∃ n, ∀ k, n ≤ k → parseText k f.flipped.text = .ok (some { m with hitObjects := m.hitObjects.map (place swap swap) }) :=
  parse_flipped hf ha h

/-- C119 (IEEE). The exchanged map is refused as corrupted if the map is. -/
theorem C119_corrupted (f : File) (hf : f.Good) (ha : ∀ o ∈ f.objects, o.NoArc) {fuel : ℕ}
    (h : parseText fuel f.text = .ok (none : Option (BeatMap F32 F64))) :
    ∃ n, ∀ k, n ≤ k → parseText k f.flipped.text = .ok (none : Option (BeatMap F32 F64)) :=
  parse_flipped hf ha h

/-- C119 (IEEE). Without HardRock, all difficulty calculations are the same for the exchanged file, to the last bit. -/
theorem C119_ratings (hl : EvenAtan F64) (f : File) (hf : f.Good) (ha : ∀ o ∈ f.objects, o.NoArc) {fuel : ℕ} {m : BeatMap F32 F64}
    (h : parseText fuel f.text = .ok (some m)) :
    ∃ n, ∃ m' : BeatMap F32 F64, (∀ k, n ≤ k → parseText k f.flipped.text = .ok (some m')) ∧ m'.difficulty = m.difficulty ∧
      ∀ d : Difficulty F64, Modifier.active d.mods Mod.HardRock = false → SameRatings d m.hitObjects m'.hitObjects := by
  obtain ⟨n, hn⟩ := C119_flipped f hf ha h
  exact ⟨n, _, hn, rfl, fun d hd => C86_swapped hl d hd m.hitObjects⟩

end

/-! ### Concrete cases -/

namespace Sample

/-- A file with a Catmull slider, a Bézier slider, a straight slider and two circles, one upon the other. -/
def turning : File :=
  { Sample.file with
    objects := [.slider ⟨dec 100 [], dec 100 [], 400, false, 0, 2⟩ 'C'
        [(dec 200 [], dec 50 []), (dec 200 [], dec 50 []), (dec 0 [], dec 300 []), (⟨true, 20, []⟩, dec 30 [])] 2 (dec 520 [5]),
      .slider ⟨dec 10 [], dec 20 [], 6400, false, 0, 2⟩ 'B' [(dec 50 [5], dec 20 []), (dec 90 [], dec 120 []), (dec 10 [], dec 200 [])] 2
        (dec 190 [5]),
      .slider ⟨dec 0 [], dec 20 [], 8000, false, 0, 2⟩ 'L' [(dec 50 [], dec 20 []), (dec 50 [], dec 80 [])] 3 (dec 90 [5]),
      .circle (head 100 50 12000 true 3), .circle (head 100 50 12200 false 0)] }

theorem turning_good : turning.Good := by
  obtain ⟨h1, h2, h3, h4, h5, h6, h7, h8, h9, h10, h11, h12, h13, h14, h15, -, -⟩ := file_good
  refine ⟨h1, h2, h3, h4, h5, h6, h7, h8, h9, h10, h11, h12, h13, h14, h15, ?_, by decide +kernel⟩
  intro o ho
  simp only [turning, List.mem_cons, List.not_mem_nil, or_false] at ho
  rcases ho with rfl | rfl | rfl | rfl | rfl <;> (unfold File.GoodObject File.Int64; decide)

theorem turning_file : AnyFile turning := by
  refine ⟨⟨turning_good, by simp [turning, file], by simp [turning, file], by simp [turning], ?_, ?_, ?_, ?_, ?_⟩, ?_⟩
  · intro o ho
    simp only [turning, List.mem_cons, List.not_mem_nil, or_false] at ho
    rcases ho with rfl | rfl | rfl | rfl | rfl <;> decide
  · intro o ho
    simp only [turning, List.mem_cons, List.not_mem_nil, or_false] at ho
    rcases ho with rfl | rfl | rfl | rfl | rfl <;> decide
  · intro p hp
    simp only [turning, file, List.mem_cons, List.not_mem_nil, or_false] at hp
    rcases hp with rfl | rfl <;> decide
  · decide +kernel
  · decide +kernel
  · intro h c ps r len hm
    simp only [turning, List.mem_cons, List.not_mem_nil, or_false, reduceCtorEq] at hm
    rcases hm with hm | hm | hm <;> cases hm
    · exact .inr (.inr (.inr ⟨rfl, by decide, by decide, by decide, by decide, by decide, by decide⟩))
    · refine .inr (.inl ⟨by decide, by decide, .inl ?_, by decide, by decide, by decide, by decide, by decide, by decide⟩)
      intro p hp
      simp only [List.mem_cons, List.not_mem_nil, or_false] at hp
      rcases hp with rfl | rfl | rfl | rfl <;> decide
    · refine .inl ⟨rfl, ?_, by decide, by decide, by decide, by decide, by decide, by decide⟩
      intro p hp
      simp only [List.mem_cons, List.not_mem_nil, or_false] at hp
      rcases hp with rfl | rfl | rfl <;> (unfold Spec.WholePoint; decide)

theorem turning_arcs : ∀ o ∈ turning.objects, o.NoArc := by
  intro o ho
  simp only [turning, List.mem_cons, List.not_mem_nil, or_false] at ho
  rcases ho with rfl | rfl | rfl | rfl | rfl <;> (unfold ObjectLine.NoArc; first | trivial | decide)

example [GoSort] : ∃ fuel, ∃ m : BeatMap F32 F64, letI := libm4; parseText fuel turning.text = .ok (some m) ∧ m.hitObjects.length = 5 ∧
    ∃ n, ∀ k, n ≤ k → parseText k turning.flipped.text = .ok (some { m with hitObjects := m.hitObjects.map (place swap swap) }) := by
  letI := libm4
  obtain ⟨N, hN⟩ := C117_parses libm4_laws.2.2 turning turning_file
  obtain ⟨m, h1, h2⟩ := hN N le_rfl
  exact ⟨N, m, h1, h2, C119_flipped turning turning_good turning_arcs h1⟩

example : @EvenAtan F64 _ libm4 := fun _ _ => rfl

/-- The fields of the second slider of the exchanged file. -/
example : (turning.flipped.objects[1]?).map (fun o => String.ofList (join ',' o.fields)) =
    some "20,10,6400,2,2,B|20:50.5|120:90|200:10,2,190.5" := by decide +kernel

end Sample

end GosuPP.Props
