import Verif.Lemmas.StackGroup
import Verif.Lemmas.Curve

/-! Stack indices of maps without sliders. -/

namespace GosuPP
open Go
variable {S D : Type} [GoFloat S] [GoFloat D] [GoConv S D]

namespace Stacking

/-- An index for every place, not negative and at most the number of places behind. -/
def Bounded (N : Nat) (v : Nat → Int) : Prop := ∀ j, j < N → 0 ≤ v j ∧ v j + j < N

theorem Bounded.update {N : Nat} {v : Nat → Int} (h : Bounded N v) {i : Nat} {x : Int} (hx : i < N → 0 ≤ x ∧ x + i < N) :
    Bounded N (Function.update v i x) := by
  intro j hj
  by_cases he : j = i
  · subst he
    rw [Function.update_self]
    exact hx hj
  · rw [Function.update_of_ne he]
    exact h j hj

/-- Objects without a path: they end where they start. -/
def Pathless (st : List (Obj S D)) : Prop :=
  ∀ (j : Nat) (o : Obj S D), st[j]? = some o → o.isSlider = false ∧ o.base.endPosRaw = o.base.startPosRaw

section
variable {m : Modifier} {thr : D} {st : List (Obj S D)}

theorem baseLoop_bounded (k n base : Nat) (v : Nat → Int) (hb : Bounded st.length v) :
    ∃ v', (baseLoop m thr k n base (put m st v)).1 = put m st v' ∧ Bounded st.length v' := by
  induction k generalizing n base v with
  | zero => exact ⟨v, rfl, hb⟩
  | succ k ih =>
    rw [baseLoop, put_getElem?, put_getElem?]
    cases hc : st[base]? with
    | none => exact ⟨v, rfl, hb⟩
    | some oB =>
    cases hn : st[n]? with
    | none => exact ⟨v, rfl, hb⟩
    | some oN =>
    simp only [Option.map_some]
    split
    · exact ⟨v, rfl, hb⟩
    split
    · exact ih _ _ _ hb
    split
    · exact ⟨v, rfl, hb⟩
    split
    · rw [setIdx_put]
      exact ih _ _ _ (hb.update fun h => ⟨Int.le_refl _, by omega⟩)
    · exact ih _ _ _ hb

theorem extendLoop_bounded (i : Nat) (ext : Int) (v : Nat → Int) (hb : Bounded st.length v) :
    ∃ v', (extendLoop m thr i ext (put m st v)).1 = put m st v' ∧ Bounded st.length v' := by
  induction i generalizing ext v with
  | zero => exact ⟨v, rfl, hb⟩
  | succ i ih =>
    rw [extendLoop]
    obtain ⟨v', h1, h2⟩ := baseLoop_bounded (m := m) (thr := thr) ((put m st v).length - (i + 1)) (i + 1) i v hb
    generalize hq : baseLoop m thr ((put m st v).length - (i + 1)) (i + 1) i (put m st v) = q at h1
    obtain ⟨q1, q2⟩ := q
    simp only at h1
    subst h1
    simp only
    split
    · split
      · exact ⟨v', rfl, h2⟩
      · exact ih _ _ h2
    · exact ih _ _ h2

theorem circleLoop_bounded (hst : Pathless st) (i n cur es : Nat) (v : Nat → Int) (hb : Bounded st.length v)
    (hle : n ≤ cur) :
    ∃ v', (circleLoop m thr i n cur es (put m st v)).1 = put m st v' ∧ Bounded st.length v' := by
  induction n generalizing cur es v with
  | zero => exact ⟨v, rfl, hb⟩
  | succ n ih =>
    rw [circleLoop, put_getElem?, put_getElem?]
    cases hc : st[cur]? with
    | none => exact ⟨v, rfl, hb⟩
    | some oI =>
    cases hn : st[n]? with
    | none => exact ⟨v, rfl, hb⟩
    | some oN =>
    have hcl := lt_length hc
    have hs : oN.isSlider = false := (hst n oN hn).1
    simp only [Option.map_some, (setStackIndex_static m _ _).2.1, hs, Bool.false_and]
    split
    · exact ih _ _ _ hb (by omega)
    split
    · exact ⟨v, rfl, hb⟩
    -- the part after the start of the range has been moved
    have rest : ∀ (w : Nat → Int) (es : Nat), Bounded st.length w →
        ∃ v', (if (false : Bool) = true then
            (shift m (oN.setStackIndex (v n) m).base.endPosRaw (n + 1) i
              (getIdx (put m st w) cur m - getIdx (put m st w) n m + 1) (put m st w), es)
          else if near (D := D) (oN.setStackIndex (v n) m).base.startPosRaw (oI.setStackIndex (v cur) m).base.startPosRaw = true then
            circleLoop m thr i n n es (setIdx (put m st w) n (getIdx (put m st w) cur m + 1) m)
          else circleLoop m thr i n cur es (put m st w)).1 = put m st v' ∧ Bounded st.length v' := by
      intro w es hw
      rw [if_neg (by decide)]
      split
      · rw [setIdx_put, getIdx_put m st w hcl]
        have := hw cur hcl
        exact ih _ _ _ (hw.update fun _ => ⟨by omega, by omega⟩) (Nat.le_refl _)
      · exact ih _ _ _ hw (by omega)
    by_cases hes : n < es
    · simp only [if_pos hes]
      rw [setIdx_put]
      exact rest _ _ (hb.update fun h => ⟨Int.le_refl _, by omega⟩)
    · simp only [if_neg hes]
      exact rest _ _ hb

theorem mainLoop_bounded (hst : Pathless st) (i es : Nat) (v : Nat → Int) (hb : Bounded st.length v) :
    ∃ v', mainLoop m thr i es (put m st v) = put m st v' ∧ Bounded st.length v' := by
  induction i generalizing es v with
  | zero => exact ⟨v, rfl, hb⟩
  | succ i ih =>
    rw [mainLoop, put_getElem?]
    cases hc : st[i + 1]? with
    | none => exact ⟨v, rfl, hb⟩
    | some oI =>
    have hs : oI.isSlider = false := (hst _ oI hc).1
    simp only [Option.map_some, (setStackIndex_static m _ _).2.1, hs]
    split
    · exact ih _ _ hb
    split
    · obtain ⟨v', h1, h2⟩ := circleLoop_bounded (m := m) (thr := thr) hst (i + 1) (i + 1) (i + 1) es v hb (Nat.le_refl _)
      generalize circleLoop m thr (i + 1) (i + 1) (i + 1) es (put m st v) = q at h1
      obtain ⟨q1, q2⟩ := q
      simp only at h1
      subst h1
      exact ih _ _ h2
    split
    · rename_i h; cases h
    · exact ih _ _ hb

theorem oldInner_bounded (hst : Pathless st) (i k n : Nat) (t : D) (ss : Int) (v : Nat → Int)
    (hb : Bounded st.length v) (hroom : v i + i + k < st.length) :
    ∃ v', oldInner m thr i k n t ss (put m st v) = put m st v' ∧ Bounded st.length v' := by
  induction k generalizing n t ss v with
  | zero => exact ⟨v, rfl, hb⟩
  | succ k ih =>
    rw [oldInner, put_getElem?, put_getElem?]
    cases hc : st[i]? with
    | none => exact ⟨v, rfl, hb⟩
    | some oI =>
    cases hn : st[n]? with
    | none => exact ⟨v, rfl, hb⟩
    | some oN =>
    have hcl := lt_length hc
    simp only [Option.map_some, (setStackIndex_static m _ _).2.2.1, (setStackIndex_static m _ _).2.2.2.1, (hst i oI hc).2]
    split
    · exact ⟨v, rfl, hb⟩
    split
    · rw [setIdx_put, getIdx_put m st v hcl]
      have := hb i hcl
      refine ih _ _ _ _ (hb.update fun _ => ⟨by omega, by omega⟩) ?_
      rw [Function.update_self]
      omega
    exact ih _ _ _ _ hb (by omega)

theorem oldLoop_bounded (hst : Pathless st) (k i : Nat) (v : Nat → Int) (hb : Bounded st.length v) :
    ∃ v', oldLoop m thr k i (put m st v) = put m st v' ∧ Bounded st.length v' := by
  induction k generalizing i v with
  | zero => exact ⟨v, rfl, hb⟩
  | succ k ih =>
    rw [oldLoop, put_getElem?]
    cases hc : st[i]? with
    | none => exact ⟨v, rfl, hb⟩
    | some oI =>
    have hcl := lt_length hc
    simp only [Option.map_some, (setStackIndex_static m _ _).2.1, (hst i oI hc).1, get_set, put_length]
    split
    · rename_i h0
      rcases h0 with h0 | h0
      · obtain ⟨v', h1, h2⟩ := oldInner_bounded (m := m) (thr := thr) hst i (st.length - (i + 1)) (i + 1)
          (oI.setStackIndex (v i) m).base.endTime 0 v hb (by omega)
        rw [h1]
        exact ih _ _ h2
      · cases h0
    · exact ih _ _ hb

theorem core_bounded (hst : Pathless st) (version : Int) :
    ∃ v', (if version ≥ 6 then applyNew m thr (put m st fun _ => 0) else applyOld m thr (put m st fun _ => 0)) =
      put m st v' ∧ Bounded st.length v' := by
  have h0 : Bounded st.length fun _ => 0 := fun j hj => ⟨Int.le_refl _, by simpa using hj⟩
  split
  · unfold applyNew
    obtain ⟨v', h1, h2⟩ := extendLoop_bounded (m := m) (thr := thr) (put m st fun _ => 0).length
      (((put m st fun _ => 0).length : Int) - 1) (fun _ => 0) h0
    generalize extendLoop m thr (put m st fun _ => 0).length (((put m st fun _ => 0).length : Int) - 1)
      (put m st fun _ => 0) = q at h1
    obtain ⟨q1, q2⟩ := q
    simp only at h1
    subst h1
    exact mainLoop_bounded hst _ _ _ h2
  · exact oldLoop_bounded hst _ _ _ h0

end

theorem finish_offset {d : Difficulty D} {v : Spec.Variant} {o : Obj S D} (hs : o.isSpinner = false) :
    let r := Spec.stackOf (finish ((Difficulty.new d.getHP d.getCS d.getOD d.getAR).setMods v.mods) o) v
    r.2 = Vec.scl ⟨lit 1, lit 1⟩ (fneg (ofInt r.1) *.
        down ((Difficulty.new d.getHP d.getCS d.getOD d.getAR).setMods v.mods).circleRadius /. lit 10) := by
  unfold finish
  rw [hs, if_neg (by simp), variantMods]
  cases v <;> rfl

theorem finish_spinner (d : Difficulty D) (o : Obj S D) : (finish d o).isSpinner = o.isSpinner := by
  unfold finish
  split <;> rfl

end Stacking

/-- A created object without a path ends where it starts. -/
theorem createObject_pathless [GoLibm D] {fuel : Nat} {arr : List Str} {o : Obj S D}
    (h : createObject fuel arr = .ok (some o)) (hs : o.isSlider = false) : o.base.endPosRaw = o.base.startPosRaw := by
  unfold createObject at h
  obtain ⟨ty, -, h⟩ := bind_ok h
  simp only at h
  have hb : ∀ {b : HitObject S D}, commonParse arr = .ok b → b.endPosRaw = b.startPosRaw := by
    intro b hb
    unfold commonParse at hb
    obtain ⟨_, -, hb⟩ := bind_ok hb
    obtain ⟨_, -, hb⟩ := bind_ok hb
    obtain ⟨_, -, hb⟩ := bind_ok hb
    obtain ⟨_, -, hb⟩ := bind_ok hb
    obtain ⟨_, -, hb⟩ := bind_ok hb
    cases hb
    rfl
  split at h
  · obtain ⟨x, hx, h⟩ := bind_ok h
    cases h
    unfold newCircle at hx
    obtain ⟨b, hb', hx⟩ := bind_ok hx
    cases hx
    exact hb hb'
  split at h
  · obtain ⟨x, hx, h⟩ := bind_ok h
    cases h
    unfold newSpinner at hx
    obtain ⟨b, hb', hx⟩ := bind_ok hx
    obtain ⟨_, -, hx⟩ := bind_ok hx
    cases hx
    exact hb (b := b) hb'
  split at h
  · obtain ⟨x, hx, h⟩ := bind_ok h
    cases h
    unfold newSlider at hx
    obtain ⟨b, -, hx⟩ := bind_ok hx
    obtain ⟨_, -, hx⟩ := bind_ok hx
    obtain ⟨_, -, hx⟩ := bind_ok hx
    obtain ⟨_, -, hx⟩ := bind_ok hx
    obtain ⟨_, -, hx⟩ := bind_ok hx
    obtain ⟨_, -, hx⟩ := bind_ok hx
    obtain ⟨_, -, hx⟩ := bind_ok hx
    obtain ⟨_, -, hx⟩ := bind_ok hx
    obtain ⟨_, -, hx⟩ := bind_ok hx
    obtain ⟨_, -, hx⟩ := bind_ok hx
    obtain ⟨_, -, hx⟩ := bind_ok hx
    cases hx
    cases hs
  · cases h

theorem parsed_pathless [GoSort] [GoLibm D] {fuel : Nat} {text : Str} {m : BeatMap S D}
    (h : parseText fuel text = .ok (some m)) : ∀ o ∈ m.hitObjects, o.isSlider = false →
      o.base.endPosRaw = o.base.startPosRaw := by
  intro o ho hs
  obtain ⟨arr, -, o0, o1, o2, h0, h1, h2, h3⟩ := parsed_from h ho
  have k3 : o.isSlider = o2.isSlider := congrArg (fun o => o.isSlider) h3
  have e3 : o.base.endPosRaw = o2.base.endPosRaw := congrArg (fun o => o.base.endPosRaw) h3
  have s3 : o.base.startPosRaw = o2.base.startPosRaw := congrArg (fun o => o.base.startPosRaw) h3
  have k1 : o1.isSlider = o0.isSlider := congrArg (fun o => o.isSlider) h1
  have e1 : o1.base.endPosRaw = o0.base.endPosRaw := congrArg (fun o => o.base.endPosRaw) h1
  have s1 : o1.base.startPosRaw = o0.base.startPosRaw := congrArg (fun o => o.base.startPosRaw) h1
  have h12 := (setTiming_frame h2).2.2.1
  have heq : o2 = o1 := by
    unfold Obj.setTiming at h2
    split at h2
    · rename_i s hk
      have : o1.isSlider = true := by unfold Obj.isSlider; rw [hk]
      rw [k3, h12, this] at hs
      cases hs
    · cases h2
      rfl
  subst heq
  rw [e3, s3, e1, s1]
  exact createObject_pathless h0 (by rw [← k1, ← k3]; exact hs)

end GosuPP
