import Verif.Lemmas.LineOrder
import Verif.Lemmas.Written
import Verif.Props.Sample

/-!
# C120: the order of the lines of the objects does not matter
-/

namespace GosuPP
open Go Spec

section
variable [GoSort] [GoLibm F64]

/-- C120 (IEEE). Two files that differ in the order of the lines of their objects only, where lines with the same time are in the same order,
give the same result: the same map, or the error `corrupted file`. If one of them makes the parser panic or hang so does the other. -/
theorem C120_lines (fuel : ℕ) {a b : List Str} (h : Reordered a b) (r : Option (BeatMap F32 F64)) :
    parseFromLines fuel a = .ok r ↔ parseFromLines fuel b = .ok r :=
  ⟨reordered_parse h, reordered_parse h.symm⟩

/-- C120 (IEEE). The same for the texts of files. -/
theorem C120_text (fuel : ℕ) {a b : Str} (h : Reordered (scanLines bufferSize a) (scanLines bufferSize b)) (r : Option (BeatMap F32 F64)) :
    parseText fuel a = .ok r ↔ parseText fuel b = .ok r :=
  C120_lines fuel h r

end

/-- Two lines give the same time. -/
def Spec.AtOnce (x y : Str) : Bool :=
  match timeOn x with
  | some t => givesTime t y
  | none => false

theorem sectioned_append (pre rest : List Str) : ∀ cur : Str,
    sectioned cur (pre ++ rest) = sectioned cur pre ++ sectioned (((pre.filterMap header).getLast?).getD cur) rest := by
  induction pre with
  | nil => intro cur; rfl
  | cons l ls ih =>
    intro cur
    rw [List.cons_append, sectioned, sectioned, List.filterMap_cons]
    cases header l with
    | none => dsimp only; rw [ih]; rfl
    | some s =>
      dsimp only
      rw [ih, List.getLast?_cons]
      rfl

theorem lone {α : Type} {p : α → Bool} {l l' : List α} (h : l.Perm l') (hp : l.Pairwise fun x y => ¬ (p x = true ∧ p y = true)) :
    l.filter p = l'.filter p := by
  have h1 : (l.filter p).Perm (l'.filter p) := h.filter p
  have h2 : (l.filter p).Pairwise fun x y => False := by
    refine (hp.sublist List.filter_sublist).imp_of_mem fun hx hy hc => ?_
    exact hc ⟨(List.mem_filter.mp hx).2, (List.mem_filter.mp hy).2⟩
  generalize l.filter p = k at h1 h2
  match k, h1, h2 with
  | [], h1, _ => exact (List.Perm.nil_eq h1)
  | [x], h1, _ => exact (List.perm_singleton.mp h1.symm).symm
  | x :: y :: k, _, h2 => exact ((List.pairwise_cons.mp h2).1 y (List.mem_cons_self ..)).elim

theorem reordered_part {pre os os' post : List Str} (hs : sectionAfter pre = "HitObjects".toList) (hp : os.Perm os')
    (hh : ∀ l ∈ os, header l = none ∧ isFormatLine l = false) (hd : os.Pairwise fun x y => AtOnce x y = false)
    (hn : ∀ l ∈ objectLines (pre ++ os ++ post), timeOn l ≠ some .nan) : Reordered (pre ++ os ++ post) (pre ++ os' ++ post) := by
  have hh' : ∀ l ∈ os', header l = none ∧ isFormatLine l = false := fun l hl => hh l (hp.mem_iff.mpr hl)
  have e : ∀ k : List Str, (∀ l ∈ k, header l = none) → sectioned [] (pre ++ k ++ post) =
      sectioned [] pre ++ (k.map ("HitObjects".toList, ·) ++ sectioned "HitObjects".toList post) := by
    intro k hk
    rw [List.append_assoc, sectioned_append, show ((pre.filterMap header).getLast?).getD [] = "HitObjects".toList from hs,
      sectioned_body' _ _ _ hk]
  have e1 := e os fun l hl => (hh l hl).1
  have e2 := e os' fun l hl => (hh' l hl).1
  have o : ∀ k : List Str, (∀ l ∈ k, header l = none) → objectLines (pre ++ k ++ post) =
      objectLines pre ++ (k ++ ((sectioned "HitObjects".toList post).filter (·.1 == "HitObjects".toList)).map (·.2)) := by
    intro k hk
    unfold objectLines sectionLines
    rw [e k hk, List.filter_append, List.filter_append, List.map_append, List.map_append]
    congr 2
    rw [List.filter_eq_self.mpr, List.map_map]
    · exact List.map_id _
    · intro p hp
      obtain ⟨l, -, rfl⟩ := List.mem_map.mp hp
      exact beq_self_eq_true _
  have o1 := o os fun l hl => (hh l hl).1
  have o2 := o os' fun l hl => (hh' l hl).1
  refine ⟨?_, ?_, ?_, ?_, hn⟩
  · intro sec _ hne
    unfold sectionLines
    rw [e1, e2]
    simp only [List.filter_append]
    have hf : ∀ k : List Str, (k.map ("HitObjects".toList, ·)).filter (·.1 == sec) = [] := by
      intro k
      rw [List.filter_eq_nil_iff]
      intro p hp
      obtain ⟨l, -, rfl⟩ := List.mem_map.mp hp
      simp only [beq_iff_eq]
      exact fun hc => hne hc.symm
    rw [hf, hf]
  · have hf : ∀ k : List Str, (∀ l ∈ k, isFormatLine l = false) → k.filter isFormatLine = [] := by
      intro k hk
      rw [List.filter_eq_nil_iff]
      intro l hl
      rw [hk l hl]
      decide
    rw [List.filter_append, List.filter_append, List.filter_append, List.filter_append, hf os fun l hl => (hh l hl).2,
      hf os' fun l hl => (hh' l hl).2]
  · rw [o1, o2]
    exact (hp.append_right _).append_left _
  · intro t
    rw [o1, o2]
    simp only [List.filter_append]
    have := lone (p := givesTime t) hp (hd.imp fun {x y} hxy hc => ?_)
    · rw [this]
    · obtain ⟨h1, h2⟩ := hc
      unfold AtOnce givesTime at hxy
      unfold givesTime at h1 h2
      cases hx : timeOn x with
      | none => rw [hx] at h1; cases h1
      | some u =>
        cases hy : timeOn y with
        | none => rw [hy] at h2; cases h2
        | some v =>
          rw [hx] at h1 hxy
          rw [hy] at h2 hxy
          have h1 := Fl.eq_iff_le.mp h1
          have h2 := Fl.eq_iff_le.mp h2
          have h3 : Fl.eq v u = true := Fl.eq_iff_le.mpr ⟨Fl.le_trans h2.1 h1.2, Fl.le_trans h1.1 h2.2⟩
          rw [show Fl.eq v u = false from hxy] at h3
          cases h3

/-- C120 (IEEE). Lines of objects at different times can be put in any order, wherever the section is. -/
theorem C120_any_order [GoSort] [GoLibm F64] (fuel : ℕ) (pre os os' post : List Str) (hs : sectionAfter pre = "HitObjects".toList) (hp : os.Perm os')
    (hh : ∀ l ∈ os, header l = none ∧ isFormatLine l = false) (hd : os.Pairwise fun x y => AtOnce x y = false)
    (hn : ∀ l ∈ objectLines (pre ++ os ++ post), timeOn l ≠ some .nan) (r : Option (BeatMap F32 F64)) :
    parseFromLines fuel (pre ++ os ++ post) = .ok r ↔ parseFromLines fuel (pre ++ os' ++ post) = .ok r :=
  C120_lines fuel (reordered_part hs hp hh hd hn) r

/-! ### Concrete cases -/

namespace Sample.Order

def before : List Str := ["osu file format v14", "[Metadata]", "Title:a", "[Difficulty]", "SliderMultiplier:1", "SliderTickRate:1", "[TimingPoints]",
  "0,500", "[HitObjects]", "9,9,100,1,0"].map String.toList

def circles : List Str := ["64,64,1000,1,0", "64,64,2000,1,0", "128,64,1500.5,5,0"].map String.toList

def moved : List Str := ["128,64,1500.5,5,0", "64,64,2000,1,0", "64,64,1000,1,0"].map String.toList

def after : List Str := ["64,64,1000,1,0", "[Metadata]", "Artist:b"].map String.toList

/-- C120: three circles in another order; a circle at the time of one of them comes later. -/
example : sectionAfter before = "HitObjects".toList ∧ circles.Perm moved ∧ (∀ l ∈ circles, header l = none ∧ isFormatLine l = false) ∧
    (circles.Pairwise fun x y => AtOnce x y = false) ∧ (∀ l ∈ objectLines (before ++ circles ++ after), timeOn l ≠ some .nan) := by
  refine ⟨by decide +kernel, by decide +kernel, by decide +kernel, by decide +kernel, by decide +kernel⟩

/-- C120: both are maps, with the objects in the order of time. -/
example : Sample.observe ((before ++ circles ++ after).flatMap (· ++ ['\n'])) (fun m => m.hitObjects.map fun o => o.base.startTime) =
      some [lit 100, lit 1000, lit 1000, lit 1500.5, lit 2000] ∧
    Sample.observe ((before ++ moved ++ after).flatMap (· ++ ['\n'])) (fun m => m.hitObjects.map fun o => o.base.startTime) =
      some [lit 100, lit 1000, lit 1000, lit 1500.5, lit 2000] := by
  constructor <;> decide +kernel

/-- C120: the order of lines with the same time matters, the maps are different. -/
example : Sample.observe ((before ++ ["64,64,1000,1,0", "128,64,1000,1,0"].map String.toList).flatMap (· ++ ['\n']))
      (fun m => m.hitObjects.map fun o => o.base.startPosRaw.x) = some [lit 9, lit 64, lit 128] ∧
    Sample.observe ((before ++ ["128,64,1000,1,0", "64,64,1000,1,0"].map String.toList).flatMap (· ++ ['\n']))
      (fun m => m.hitObjects.map fun o => o.base.startPosRaw.x) = some [lit 9, lit 128, lit 64] := by
  constructor <;> decide +kernel

end Sample.Order

end GosuPP
