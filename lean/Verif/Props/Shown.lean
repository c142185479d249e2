import Verif.Model.Placement
import Verif.Spec.Shown
import Verif.Props.Derived
import Verif.Props.StackBounds

/-!
# Where objects are shown: C111
-/

namespace GosuPP.Props
open Go GosuPP Spec

theorem variant_radius (hp cs od ar : ℝ) (m : Modifier) :
    ((Difficulty.new hp cs od ar).setMods m).circleRadius = radiusOf (statOf m 1.3 cs) := by
  have h := (C110_values hp cs od ar 1 m one_pos).2.1
  rw [← h, fresh_eq]
  rfl

/-- What the mods do to a place. -/
theorem modify_real (b : HitObject ℝ ℝ) (k : Kind ℝ ℝ) (p : Vec ℝ) (m : Modifier) : b.modifyPosition p m =
    let off := (stackOf ⟨b, k⟩ (variantOf m)).2
    ⟨p.x + off.x, (if has m Mod.HardRock then 384 - p.y else p.y) + off.y⟩ := by
  have a4 := active_iff_has m (by decide : 4 < 63)
  have a1 := active_iff_has m (by decide : 1 < 63)
  unfold HitObject.modifyPosition variantOf
  rw [show Mod.HardRock = Mod.bit 4 from rfl, show Mod.Easy = Mod.bit 1 from rfl, a4, a1]
  by_cases h4 : has m (Mod.bit 4)
  · simp only [h4, decide_true, if_true]
    show (⟨p.x + _, ((384 : ℚ) : ℝ) - p.y + _⟩ : Vec ℝ) = _
    norm_num
    exact ⟨rfl, rfl⟩
  · by_cases h1 : has m (Mod.bit 1)
    · simp only [h4, h1, decide_true, decide_false, if_true, if_false, Bool.false_eq_true]; rfl
    · simp only [h4, h1, decide_false, if_false, Bool.false_eq_true]; rfl

variable [GoSort]

/-- C111. In exact arithmetic: where every object of a parsed map, its end, and its place at any time are shown under
any mods. -/
theorem C111_shown (fuel : ℕ) (text : Str) (m : BeatMap ℝ ℝ) (h : parseText fuel text = .ok (some m))
    (o : Obj ℝ ℝ) (ho : o ∈ m.hitObjects) (mods : Modifier) :
    let place := shown mods m.difficulty.getCS (stackOf o (variantOf mods)).1
    o.base.getStackedStartPositionMod mods = place o.base.startPosRaw ∧
    o.base.getStackedEndPositionMod mods = place o.base.endPosRaw ∧
    ∀ t, o.getStackedPositionAtMod t mods = (o.getPositionAt t).map place := by
  have key : ∀ p, o.base.modifyPosition p mods = shown mods m.difficulty.getCS (stackOf o (variantOf mods)).1 p := by
    intro p
    rw [modify_real o.base o.kind]
    unfold shown
    cases hsp : o.isSpinner with
    | true =>
      obtain ⟨h0, h1, h2, h3⟩ := C29_spinners fuel text m h o ho hsp
      have e0 : (stackOf o (variantOf mods)).1 = 0 := by rw [Stacking.stackOf_index, h0]
      have e1 : (stackOf o (variantOf mods)).2 = ⟨0, 0⟩ := by
        have z : (Vec.zero : Vec ℝ) = ⟨0, 0⟩ := by
          show (⟨((0 : ℚ) : ℝ), ((0 : ℚ) : ℝ)⟩ : Vec ℝ) = _
          norm_num
        cases variantOf mods
        · exact h1.trans z
        · exact h2.trans z
        · exact h3.trans z
      simp only [e0, e1]
      norm_num
    | false =>
      have := C79_offset fuel text m h o ho hsp (variantOf mods)
      simp only at this ⊢
      rw [this, variant_radius]
      have e : ∀ (k : ℤ) (r : ℝ), (lit 1 : ℝ) *. (fneg (ofInt k) *. down r /. lit 10) = -(k * (r / 10)) := by
        intro k r
        show ((1 : ℚ) : ℝ) * (-(k : ℝ) * r / ((10 : ℚ) : ℝ)) = _
        push_cast; ring
      rw [e]
      simp only [← sub_eq_add_neg]
  refine ⟨key _, key _, fun t => ?_⟩
  unfold Obj.getStackedPositionAtMod
  cases o.getPositionAt t with
  | error e => rfl
  | ok p => exact congrArg Except.ok (key p)

omit [GoSort] in
/-- C111. The positions that are reported without mods are those under no mods, in any arithmetic. -/
theorem C111_no_mods {S D : Type} [GoFloat S] [GoFloat D] [GoConv S D] [GoLibm D] (o : Obj S D) :
    o.base.getStackedStartPosition = o.base.getStackedStartPositionMod Mod.None ∧
    o.base.getStackedEndPosition = o.base.getStackedEndPositionMod Mod.None ∧
    ∀ t, o.getStackedPositionAt t = o.getStackedPositionAtMod t Mod.None := by
  have e : ∀ p, o.base.modifyPosition p Mod.None = p.add o.base.stackOffset := fun p => by
    unfold HitObject.modifyPosition
    rw [show Modifier.active Mod.None Mod.HardRock = false by decide, show Modifier.active Mod.None Mod.Easy = false by decide]
    rfl
  refine ⟨(e _).symm, (e _).symm, fun t => ?_⟩
  unfold Obj.getStackedPositionAt Obj.getStackedPositionAtMod
  simp only [e]

omit [GoSort] in
/-- The lower of two circles at (300, 100), at circle size 5 under HardRock. -/
example : shown Mod.HardRock 5 1 ⟨300, 100⟩ = ⟨297.472, 281.472⟩ := by
  unfold shown radiusOf statOf variantOf
  have h1 : has Mod.HardRock Mod.HardRock := by decide
  have h2 : ¬ has Mod.HardRock Mod.Easy := by decide
  simp only [h1, h2, Variant.mods, if_true, if_false]
  rw [min_eq_left (by norm_num)]
  norm_num

omit [GoSort] in
/-- A map that parses, as the model computes in IEEE arithmetic: the first circle is not stacked under HardRock. -/
example : Sample.observe Sample.circles (fun m => (m.hitObjects.map fun o =>
      ((o.base.getStackedStartPositionMod Mod.HardRock).x, (o.base.getStackedStartPositionMod Mod.HardRock).y)).head?) =
    some (some (lit 100, lit 284)) := by decide +kernel

end GosuPP.Props
