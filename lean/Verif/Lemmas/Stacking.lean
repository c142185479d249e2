import Verif.Lemmas.StackSim
import Verif.Lemmas.Difficulty
import Verif.Lemmas.ParserObjects

/-! The stacking variants; spinners. -/

namespace GosuPP
open Go
variable {S D : Type} [GoFloat S] [GoFloat D] [GoConv S D]

theorem only_finish (diff : Difficulty D) (v : Spec.Variant) (hm : diff.mods = v.mods) (o : Obj S D) :
    Spec.only v (Stacking.finish diff o) = Stacking.finish diff (Spec.only v o) := by
  unfold Stacking.finish
  rw [(Spec.Variant.sim v).spinner, hm]
  split
  · cases v <;> rfl
  · rw [Spec.Variant.only_offset, Spec.Variant.only_index]

/-- Only the variant that is run changes, up to the indices of spinners, which are set to 0. -/
theorem only_finish_ne (diff : Difficulty D) {v w : Spec.Variant} (hm : diff.mods = w.mods)
    (hne : v ≠ w) (o : Obj S D) (h0 : o.isSpinner = true → (Spec.stackOf o v).1 = 0) :
    Spec.only v (Stacking.finish diff o) = Spec.only v o := by
  unfold Stacking.finish
  rw [hm]
  split
  · rename_i hs
    have := h0 hs
    obtain ⟨b, k⟩ := o
    cases b
    cases v <;> simp only [Spec.stackOf] at this <;> subst this <;> rfl
  · rw [Spec.Variant.only_offset_ne hne]

/-- Spinners have zero indices. -/
def SpinZero (o : Obj S D) : Prop := o.isSpinner = true → ∀ v, (Spec.stackOf o v).1 = 0

theorem process_only (version : Int) (diff : Difficulty D) (sl : D) (v : Spec.Variant)
    (hm : diff.mods = v.mods) (objs : List (Obj S D)) :
    (Stacking.process version diff sl objs).map (Spec.only v) =
      Stacking.process version diff sl (objs.map (Spec.only v)) := by
  have hf : Spec.only v ∘ Stacking.finish (S := S) diff = Stacking.finish diff ∘ Spec.only v :=
    funext (only_finish diff v hm)
  have hs : (Spec.only v ∘ fun o : Obj S D => o.setStackIndex 0 v.mods) =
      (fun o => o.setStackIndex 0 v.mods) ∘ Spec.only v := funext fun o => Spec.Variant.only_set v o 0
  rw [Stacking.process_eq, Stacking.process_eq, List.map_map, hf, ← List.map_map, hm,
    ← Stacking.core_map (Spec.Variant.sim v), List.map_map, List.map_map, hs]

theorem stackOf_set_ne {v w : Spec.Variant} (h : v ≠ w) (o : Obj S D) (x : Int) :
    Spec.stackOf (o.setStackIndex x w.mods) v = Spec.stackOf o v := by
  cases v <;> cases w <;> first | exact absurd rfl h | rfl

theorem process_only_ne (version : Int) (diff : Difficulty D) (sl : D) {v w : Spec.Variant}
    (hm : diff.mods = w.mods) (hne : v ≠ w) (objs : List (Obj S D)) (h0 : ∀ o ∈ objs, SpinZero o) :
    (Stacking.process version diff sl objs).map (Spec.only v) = objs.map (Spec.only v) := by
  rw [Stacking.process_eq, List.map_map, hm]
  have hcore := Stacking.core_frame (g := fun o => (Spec.only v o, o.isSpinner, Spec.stackOf o v))
    (m := w.mods) (fun o x => by
      rw [Spec.Variant.mods_ne hne, stackOf_set_ne hne]; rfl) version
      (GoFloat.floor (diff.preempt *. sl)) (objs.map (fun o => o.setStackIndex 0 w.mods))
  rw [List.map_map] at hcore
  have h1 : (objs.map ((fun o => (Spec.only v o, o.isSpinner, Spec.stackOf o v)) ∘
      fun o : Obj S D => o.setStackIndex 0 w.mods)) =
      objs.map (fun o => (Spec.only v o, o.isSpinner, Spec.stackOf o v)) := by
    apply List.map_congr_left
    intro o _
    show (_, _, _) = _
    rw [Spec.Variant.mods_ne hne, stackOf_set_ne hne]; rfl
  rw [h1] at hcore
  generalize Stacking.core version w.mods (GoFloat.floor (diff.preempt *. sl))
    (objs.map (fun o => o.setStackIndex 0 w.mods)) = r at hcore ⊢
  apply List.ext_getElem?
  intro j
  have hj := congrArg (fun l => l[j]?) hcore
  simp only [List.getElem?_map] at hj ⊢
  cases hr : r[j]? with
  | none =>
    rw [hr] at hj
    cases ho : objs[j]? with
    | none => rfl
    | some o => rw [ho] at hj; cases hj
  | some x =>
    rw [hr] at hj
    cases ho : objs[j]? with
    | none => rw [ho] at hj; cases hj
    | some o =>
      rw [ho] at hj
      simp only [Option.map_some, Option.some.injEq, Prod.mk.injEq, Function.comp_apply] at hj ⊢
      obtain ⟨e1, e2, e3⟩ := hj
      rw [only_finish_ne diff hm hne x, e1]
      intro hs
      rw [e3]
      exact h0 o (List.mem_of_getElem? ho) (e2 ▸ hs) v

theorem finish_spin (diff : Difficulty D) (o : Obj S D) : SpinZero (Stacking.finish diff o) := by
  intro hs v
  unfold Stacking.finish at hs ⊢
  split
  · cases v <;> rfl
  · rename_i h
    rw [if_neg h] at hs
    unfold Obj.setStackOffset Obj.isSpinner at hs
    exact absurd hs h

theorem process_spin (version : Int) (diff : Difficulty D) (sl : D) (objs : List (Obj S D)) :
    ∀ o ∈ Stacking.process version diff sl objs, SpinZero o := by
  intro o ho
  rw [Stacking.process_eq, List.mem_map] at ho
  obtain ⟨x, -, rfl⟩ := ho
  exact finish_spin _ _

omit [GoConv S D] in
theorem fresh_spin {objs : List (Obj S D)} (h : ∀ o ∈ objs, Spec.unstack o = o) :
    ∀ o ∈ objs, SpinZero o := by
  intro o ho hs v
  rw [← h o ho]
  cases v <;> rfl

/-- Kind and, for a spinner, the three offsets. -/
def spinOffsets (o : Obj S D) : Bool × Option (Vec S × Vec S × Vec S) :=
  (o.isSpinner, if o.isSpinner then
    some (o.base.stackOffset, o.base.stackOffsetEZ, o.base.stackOffsetHR) else none)

theorem finish_offsets (diff : Difficulty D) (o : Obj S D) :
    spinOffsets (Stacking.finish diff o) = spinOffsets o := by
  unfold Stacking.finish
  split
  · rfl
  · rename_i h
    have h' : (o.setStackOffset (fneg (ofInt (o.base.getStackIndex diff.mods)) *.
      down diff.circleRadius /. lit 10) diff.mods).isSpinner = o.isSpinner := rfl
    unfold spinOffsets
    rw [h', if_neg h, if_neg h]

theorem process_offsets (version : Int) (diff : Difficulty D) (sl : D) (objs : List (Obj S D)) :
    (Stacking.process version diff sl objs).map spinOffsets = objs.map spinOffsets := by
  have hset : ∀ (o : Obj S D) v, spinOffsets (o.setStackIndex v diff.mods) = spinOffsets o := by
    intro o v
    unfold Obj.setStackIndex HitObject.setStackIndex spinOffsets
    split
    · rfl
    split <;> rfl
  rw [Stacking.process_eq, List.map_map,
    show spinOffsets ∘ Stacking.finish (S := S) diff = spinOffsets from funext (finish_offsets diff),
    Stacking.core_frame hset, List.map_map]
  exact List.map_congr_left fun o _ => hset o 0

theorem offsets_spin (version : Int) (d : Difficulty D) (sl : D) (objs : List (Obj S D)) :
    (Stacking.calculate version d sl objs).map spinOffsets = objs.map spinOffsets := by
  unfold Stacking.calculate
  simp only
  rw [process_offsets, process_offsets, process_offsets]

section
variable [GoLibm D]

omit [GoFloat S] [GoFloat D] [GoConv S D] [GoLibm D] in
theorem mapM_mem {α β : Type} {f : α → Result β} {l : List α} {os : List β} (h : l.mapM f = .ok os)
    {o : β} (ho : o ∈ os) : ∃ a, a ∈ l ∧ f a = .ok o := by
  induction l generalizing os with
  | nil => cases h; cases ho
  | cons a l ih =>
    rw [List.mapM_cons] at h
    obtain ⟨x, hx, h⟩ := bind_ok h
    obtain ⟨xs, hxs, h⟩ := bind_ok h
    cases h
    rcases List.mem_cons.mp ho with h | h
    · exact ⟨a, List.mem_cons_self, h ▸ hx⟩
    · obtain ⟨b, hb, hf⟩ := ih hxs h
      exact ⟨b, List.mem_cons_of_mem _ hb, hf⟩

theorem createObject_fresh {fuel : Nat} {arr : List Str} {o : Obj S D}
    (h : createObject fuel arr = .ok (some o)) : Spec.unstack o = o := by
  have key : ∀ b : HitObject S D, commonParse arr = .ok b → ∀ x e ss k,
      Spec.unstack (S := S) (D := D) ⟨{ b with endTime := x, endPosRaw := e, sounds := ss }, k⟩ =
        ⟨{ b with endTime := x, endPosRaw := e, sounds := ss }, k⟩ := by
    intro b hb
    unfold commonParse at hb
    obtain ⟨x, -, hb⟩ := bind_ok hb
    obtain ⟨y, -, hb⟩ := bind_ok hb
    obtain ⟨t, -, hb⟩ := bind_ok hb
    obtain ⟨ty, -, hb⟩ := bind_ok hb
    obtain ⟨s, -, hb⟩ := bind_ok hb
    cases hb
    intros
    rfl
  unfold createObject at h
  obtain ⟨ty, -, h⟩ := bind_ok h
  simp only at h
  split at h
  · obtain ⟨x, hx, h⟩ := bind_ok h
    cases h
    unfold newCircle at hx
    obtain ⟨bs, hb, hx⟩ := bind_ok hx
    cases hx
    exact key bs hb bs.endTime bs.endPosRaw bs.sounds _
  split at h
  · obtain ⟨x, hx, h⟩ := bind_ok h
    cases h
    unfold newSpinner at hx
    obtain ⟨bs, hb, hx⟩ := bind_ok hx
    obtain ⟨e, -, hx⟩ := bind_ok hx
    cases hx
    exact key bs hb _ bs.endPosRaw bs.sounds _
  split at h
  · obtain ⟨x, hx, h⟩ := bind_ok h
    cases h
    unfold newSlider at hx
    obtain ⟨bs, hb, hx⟩ := bind_ok hx
    obtain ⟨_, -, hx⟩ := bind_ok hx
    obtain ⟨_, -, hx⟩ := bind_ok hx
    obtain ⟨_, -, hx⟩ := bind_ok hx
    obtain ⟨_, -, hx⟩ := bind_ok hx
    obtain ⟨_, -, hx⟩ := bind_ok hx
    obtain ⟨_, -, hx⟩ := bind_ok hx
    obtain ⟨_, -, hx⟩ := bind_ok hx
    obtain ⟨_, -, hx⟩ := bind_ok hx
    obtain ⟨_, -, hx⟩ := bind_ok hx
    obtain ⟨_, -, hx⟩ := bind_ok hx
    cases hx
    exact key bs hb _ _ _ _
  · cases h

theorem comboOut_fresh {c : ComboState} {o : Obj S D} (h : Spec.unstack o = o) :
    Spec.unstack (comboOut c o) = comboOut c o := by
  conv_rhs => rw [← h]
  rfl

theorem setTiming_fresh [GoSort] {fuel : Nat} {t : Timings D} {o o' : Obj S D}
    (h : o.setTiming fuel t = .ok o') (hf : Spec.unstack o = o) : Spec.unstack o' = o' := by
  obtain ⟨-, -, -, et, ep, hb⟩ := setTiming_frame h
  obtain ⟨b', k'⟩ := o'
  simp only at hb
  rw [hb, ← hf]
  rfl

/-- The objects that reach stacking have no stack data. -/
theorem parsed_fresh [GoSort] {fuel : Nat} {lines : List Str} {st : ParseState S D}
    {objs : List (Obj S D)} (hl : parseLines fuel lines ParseState.init = .ok st)
    (ho : setTimings fuel st.beatMap.timings.finalizePoints
      (comboLoop {} (GoSort.stable (fun x y : Obj S D => x.base.startTime <. y.base.startTime)
        st.beatMap.hitObjects)) = .ok objs) :
    ∀ o ∈ objs, Spec.unstack o = o := by
  obtain ⟨os, h1, h2, -⟩ := parseLines_objects hl
  have hcreated : ∀ o ∈ st.beatMap.hitObjects, Spec.unstack o = o := by
    intro o ho
    rw [h2] at ho
    have ho : some o ∈ os := by simpa [List.reduceOption] using ho
    obtain ⟨arr, -, h⟩ := mapM_mem h1 ho
    exact createObject_fresh h
  generalize hlst : GoSort.stable (fun x y : Obj S D => x.base.startTime <. y.base.startTime)
    st.beatMap.hitObjects = l at *
  have hsorted : ∀ o ∈ l, Spec.unstack o = o := by
    intro o ho
    apply hcreated
    rw [← hlst] at ho
    exact (GoSort.stable_perm _ _).mem_iff.mp ho
  have hcombo : ∀ o ∈ comboLoop {} l, Spec.unstack o = o := by
    intro o ho
    obtain ⟨i, hi⟩ := List.getElem?_of_mem ho
    rw [comboLoop_getElem] at hi
    cases hr : l[i]? with
    | none => rw [hr] at hi; cases hi
    | some x =>
      rw [hr] at hi
      cases hi
      exact comboOut_fresh (hsorted x (List.mem_of_getElem? hr))
  have hf := setTimings_forall ho
  clear ho hlst hsorted
  generalize comboLoop {} l = cl at hf hcombo
  intro o ho
  induction hf with
  | nil => cases ho
  | cons hab _ ih =>
    rcases List.mem_cons.mp ho with h | h
    · rw [h]
      exact setTiming_fresh hab (hcombo _ List.mem_cons_self)
    · exact ih (fun o h => hcombo o (List.mem_cons_of_mem _ h)) h
end

omit [GoFloat D] [GoConv S D] in
theorem only_ext {o o' : Obj S D} (h : ∀ v, Spec.only v o = Spec.only v o') : o = o' := by
  have h1 := h .nm
  have h2 := h .ez
  have h3 := h .hr
  obtain ⟨b, k⟩ := o
  obtain ⟨b', k'⟩ := o'
  cases b; cases b'
  simp only [Spec.only, Obj.mk.injEq, HitObject.mk.injEq] at h1 h2 h3 ⊢
  tauto

theorem map_only_ext {l l' : List (Obj S D)} (h : ∀ v, l.map (Spec.only v) = l'.map (Spec.only v)) :
    l = l' := by
  have hlen : l.length = l'.length := by
    have := congrArg List.length (h .nm); simpa using this
  apply List.ext_getElem hlen
  intro i h1 h2
  apply only_ext
  intro v
  have := congrArg (fun l => l[i]?) (h v)
  simpa [List.getElem?_map, h1, h2] using this

omit [GoFloat S] [GoConv S D] in
theorem variantMods (d : Difficulty D) (v : Spec.Variant) :
    ((Difficulty.new d.getHP d.getCS d.getOD d.getAR).setMods v.mods).mods = v.mods := rfl

/-- Running a list of variants one after the other: each variant's data is what that variant
alone produces, if it is in the list (once), and unchanged otherwise. -/
theorem runAll_only (version : Int) (d : Difficulty D) (sl : D) (v : Spec.Variant)
    (vs : List Spec.Variant) (hnd : vs.Nodup) (objs : List (Obj S D)) (h0 : ∀ o ∈ objs, SpinZero o) :
    (vs.foldl (fun l w => Spec.runVariant version d sl w l) objs).map (Spec.only v) =
      if v ∈ vs then Spec.runVariant version d sl v (objs.map (Spec.only v))
      else objs.map (Spec.only v) := by
  induction vs generalizing objs with
  | nil => rfl
  | cons w vs ih =>
    rw [List.foldl_cons, ih (List.nodup_cons.mp hnd).2 (Spec.runVariant version d sl w objs)
      (process_spin _ _ _ _)]
    by_cases hvw : v = w
    · subst hvw
      rw [if_neg (List.nodup_cons.mp hnd).1, if_pos List.mem_cons_self]
      exact process_only _ _ _ _ (variantMods d v) _
    · have : (Spec.runVariant version d sl w objs).map (Spec.only v) = objs.map (Spec.only v) :=
        process_only_ne _ _ _ (variantMods d w) hvw _ h0
      rw [this]
      have : (v ∈ w :: vs) ↔ v ∈ vs := by simp [hvw]
      simp only [this]

omit [GoFloat S] [GoConv S D] in
theorem new_setMods (d : Difficulty D) :
    (Difficulty.new d.getHP d.getCS d.getOD d.getAR).setMods Mod.None =
      Difficulty.new d.getHP d.getCS d.getOD d.getAR :=
  calculate_congr rfl rfl rfl rfl rfl rfl

theorem calculate_eq_runs (version : Int) (d : Difficulty D) (sl : D) (objs : List (Obj S D)) :
    Stacking.calculate version d sl objs =
      [Spec.Variant.nm, .ez, .hr].foldl (fun l w => Spec.runVariant version d sl w l) objs := by
  unfold Stacking.calculate Spec.runVariant
  simp only [List.foldl_cons, List.foldl_nil, Spec.Variant.mods, new_setMods]

/-- Stacking a fresh list of objects leaves spinners alone. -/
theorem calculate_spin (version : Int) (d : Difficulty D) (sl : D) (objs : List (Obj S D))
    (h0 : ∀ o ∈ objs, Spec.unstack o = o) :
    ∀ o ∈ Stacking.calculate version d sl objs, o.isSpinner = true → Spec.unstack o = o := by
  intro o ho hs
  have hz := process_spin version _ sl _ o ho hs
  have hf : ∀ v, Spec.stackOf (Spec.unstack o) v = Spec.stackOf o v := by
    intro v
    obtain ⟨i, hi⟩ := List.getElem?_of_mem ho
    have h1 := congrArg (fun l => l[i]?) (offsets_spin version d sl objs)
    have h2 := congrArg (fun l => l[i]?) (Stacking.calculate_frame version d sl objs)
    simp only [List.getElem?_map, hi, Option.map_some] at h1 h2
    cases hr : objs[i]? with
    | none => rw [hr] at h1; cases h1
    | some x =>
      rw [hr] at h1 h2
      have hx := h0 x (List.mem_of_getElem? hr)
      simp only [Option.map_some, Option.some.injEq, spinOffsets, Prod.mk.injEq] at h1 h2
      have e : (fun w => (Spec.stackOf o w).2) = fun w => (Spec.stackOf x w).2 := by
        have := h1.2
        rw [if_pos hs, if_pos (h1.1 ▸ hs)] at this
        simp only [Option.some.injEq, Prod.mk.injEq] at this
        obtain ⟨a1, a2, a3⟩ := this
        funext w
        cases w
        · exact a1
        · exact a2
        · exact a3
      have e1 := congrFun e v
      rw [← hx] at e1
      have e2 : Spec.stackOf o v = (0, Vec.zero) := by
        rw [Prod.ext_iff]
        exact ⟨hz v, by rw [e1]; cases v <;> rfl⟩
      rw [e2]
      cases v <;> rfl
  apply only_ext
  intro v
  have := hf v
  obtain ⟨b, k⟩ := o
  cases b
  cases v <;> simp only [Spec.stackOf, Spec.unstack, Spec.only, Prod.mk.injEq] at this ⊢ <;>
    rw [← this.1, ← this.2]

end GosuPP
