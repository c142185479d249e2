import Verif.Lemmas.CurveIEEE
import Verif.Props.Sample

/-!
# Properties of slider paths
-/

namespace GosuPP
open Go

/-! ## C32 -/

/-- `PointAt` on any path that `NewMultiCurveT` builds returns a point for every `t`, whatever the
arithmetic does. -/
theorem C32_total {S D : Type} [GoFloat S] [GoFloat D] [GoConv S D] [GoLibm D] {fuel : Nat} {typ : Str}
    {points : List (Vec S)} {len : D} {mc : MultiCurve S}
    (h : MultiCurve.newT fuel typ points len = .ok mc) (t : S) : ∃ p, mc.pointAt (D := D) t = .ok p :=
  MultiCurve.pointAt_ok mc (MultiCurve.newT_shaped h) t

/-- The position of every object of a parsed map is defined at every time, under every mod. -/
theorem C32_objects {S D : Type} [GoFloat S] [GoFloat D] [GoConv S D] [GoSort] [GoLibm D] {fuel : Nat}
    {text : Str} {m : BeatMap S D} (h : parseText fuel text = .ok (some m)) (o : Obj S D)
    (ho : o ∈ m.hitObjects) (t : D) (mods : Modifier) :
    ∃ p, o.getStackedPositionAtMod t mods = .ok p :=
  getStackedPositionAtMod_ok o (parsed_shaped h o ho) t mods

/-- In IEEE arithmetic all `t ≤ 0` give the same point, and so do all `t ≥ 1`. -/
theorem C32_clamp (mc : MultiCurve F32) (t : F32) :
    (Fl.le t (lit 0) = true → mc.pointAt (D := F64) t = mc.pointAt (D := F64) (lit 0)) ∧
    (Fl.le (lit 1) t = true → mc.pointAt (D := F64) t = mc.pointAt (D := F64) (lit 1)) := by
  have h0 : (lit 0 : F32) = .fin 0 false := Fl.ofRat_zero _
  have h1 : (lit 1 : F32) = .fin 1 false := by decide +kernel
  constructor
  · intro h
    rw [h0] at h
    have e1 := clampF32_of_nonpos h
    have e2 := clampF32_of_nonpos (t := lit 0) (by rw [h0]; exact Fl.le_refl (by simp))
    unfold MultiCurve.pointAt
    rw [e1, e2]
  · intro h
    rw [h1] at h
    have e1 := clampF32_of_ge_one h
    have e2 := clampF32_of_ge_one (t := lit 1) (by rw [h1]; exact Fl.le_refl (by simp))
    unfold MultiCurve.pointAt
    rw [e1, e2]

/-- In IEEE arithmetic a linear or Bezier path of finite length is, for every `t ≤ 0`, numerically at
its first control point. -/
theorem C32_start [GoLibm F64] {fuel : Nat} {typ : Str} {p : Vec F32} {ps : List (Vec F32)} {len : F64}
    {mc : MultiCurve F32} (h : MultiCurve.newT fuel typ (p :: ps) len = .ok mc)
    (htyp : typ = ['L'] ∨ typ = ['B']) (hfin : Fl.Fin mc.length)
    (hp : Fl.NN p.x ∧ Fl.NN p.y) (hw : ∀ q ∈ p :: ps, Fl.WF q.x ∧ Fl.WF q.y)
    {t : F32} (ht : Fl.le t (lit 0) = true) :
    ∃ q, mc.pointAt (D := F64) t = .ok q ∧ q.eq p = true := by
  have h0 : (lit 0 : F32) = .fin 0 false := Fl.ofRat_zero _
  rw [h0] at ht
  obtain ⟨lines, hl, hhead⟩ := newT_head h
  have hfirst : ∀ l, mc.lines.head? = some l → l.p1 ∈ p :: ps ∧ l.p1.eq p = true := by
    intro l hl'
    rcases hhead with he | he
    · rw [he] at hl'; cases hl'
    · rw [hl', Option.map_some] at he
      rcases htyp with rfl | rfl
      · have e : lines = processLinear (p :: ps) := by
          unfold processType at hl
          simp only [List.cons.injEq, Char.reduceEq, and_true, if_false, if_true] at hl
          cases hl
          rfl
        rw [e] at he
        rcases processLinear_head p ps l.p1 he.symm with h | ⟨h1, h2⟩
        · rw [h]; exact ⟨by simp, Vec.eq_self hp.1 hp.2⟩
        · exact ⟨by simp [h1], h2⟩
      · have e : processBezier fuel (p :: ps) = .ok lines := by
          unfold processType at hl
          simpa only [List.cons.injEq, Char.reduceEq, and_true, if_false, if_true] using hl
        have := processBezierLoop_head _ 0 (by simp) (by simp) e
        rw [this] at he
        cases he
        exact ⟨by simp, Vec.eq_self hp.1 hp.2⟩
  have hstart := pointAt_start (newT_measured h) hfin ht (fun l hl' => hw _ (hfirst l hl').1)
  rcases hstart with he | ⟨l, ls, q, hll, hq, heq⟩
  · rw [MultiCurve.newT_firstPoint h] at he
    exact ⟨p, he, Vec.eq_self hp.1 hp.2⟩
  · refine ⟨q, hq, Vec.eq_trans heq (hfirst l (by rw [hll]; rfl)).2⟩

/-- A path as in the theorems. -/
def Sample.path : Result (MultiCurve F32) :=
  @MultiCurve.newT F32 F64 _ _ _ Sample.libm 100 ['L']
    [⟨lit 10, lit 20⟩, ⟨lit 10, lit 20⟩, ⟨lit 13, lit 24⟩, ⟨lit 40, lit 24⟩] (lit 20)

set_option maxRecDepth 20000 in
example : (match Sample.path with
    | .ok mc => (match mc.pointAt (D := F64) (lit (-3)), mc.pointAt (D := F64) (lit 1), mc.pointAt (D := F64) .nan with
      | .ok p, .ok q, .ok r => decide (p = ⟨lit 10, lit 20⟩ ∧ q = ⟨lit 28, lit 24⟩ ∧ r = ⟨.nan, .nan⟩)
      | _, _, _ => false) && decide (mc.length = lit 20)
    | .error _ => false) = true := by decide +kernel

end GosuPP
