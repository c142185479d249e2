import Verif.Lemmas.StackGroup
import Verif.Lemmas.SliderIEEE
import Verif.Props.Stacking
import Verif.Props.Difficulty

/-! # Properties of stacks -/

namespace GosuPP.Props
open Go Stacking

section
variable {S D : Type} [GoFloat S] [GoFloat D] [GoConv S D]

/-! ## C30 -/

/-- C30. The circles of a stack get the indices `n - 1, n - 2, …, 0`, in any map, in any arithmetic, for
every variant, under the new and the old algorithm. -/
theorem C30_stack (version : Int) (d : Difficulty D) (sl : D) (objs : List (Obj S D))
    (h0 : ∀ o ∈ objs, Spec.unstack o = o) (v : Spec.Variant) (g : List Nat)
    (hg : Spec.StackGroup version (Spec.threshold d sl v) objs g) (p : Nat) (hp : p < g.length) :
    ((Stacking.calculate version d sl objs)[g[p]]?).map (fun o => (Spec.stackOf o v).1) =
      some ((g.length : Int) - 1 - p) := by
  have h1 := congrArg (fun l => l[g[p]]?) (C28_each_alone version d sl objs h0 v)
  simp only [List.getElem?_map] at h1
  obtain ⟨w, hw, hval⟩ : ∃ w, (if version ≥ 6 then applyNew v.mods (Spec.threshold d sl v) (put v.mods objs fun _ => 0)
      else applyOld v.mods (Spec.threshold d sl v) (put v.mods objs fun _ => 0)) = put v.mods objs w ∧
      ∀ l ∈ g, w l = rank g l := by
    split
    · rename_i hv
      exact applyNew_group hv hg
    · rename_i hv
      exact applyOld_group (by omega) hg
  obtain ⟨o, ho, hoc, -⟩ := hg.circle _ (List.getElem_mem hp)
  rw [runVariant_get hw ho] at h1
  have h2 := congrArg (Option.map Prod.fst) h1
  simp only [Option.map_map, Option.map_some, finish_index (isCircle_not hoc).2] at h2
  rw [hval _ (List.getElem_mem hp), rank_getElem hg.sorted hp] at h2
  have e : ((g.length - 1 - p : Nat) : Int) = (g.length : Int) - 1 - p := by omega
  rw [← e]
  exact h2

theorem StackGroup_unstack {version : Int} {thr : D} {objs : List (Obj S D)} {g : List Nat}
    (h : Spec.StackGroup version thr objs g) : Spec.StackGroup version thr (objs.map Spec.unstack) g := by
  have key : ∀ {j : Nat} {a : Obj S D}, (objs.map Spec.unstack)[j]? = some a → ∃ b, objs[j]? = some b ∧ a = Spec.unstack b := by
    intro j a ha
    rw [List.getElem?_map] at ha
    cases hb : objs[j]? with
    | none => rw [hb] at ha; cases ha
    | some b => rw [hb] at ha; cases ha; exact ⟨b, rfl, rfl⟩
  refine ⟨h.sorted, ?_, ?_, ?_, ?_, ?_⟩
  · intro j hj
    obtain ⟨o, h1, h2, h3⟩ := h.circle j hj
    exact ⟨Spec.unstack o, by rw [List.getElem?_map, h1]; rfl, h2, h3⟩
  · intro j hj k hk hne a b ha hb
    obtain ⟨a', ha', rfl⟩ := key ha
    obtain ⟨b', hb', rfl⟩ := key hb
    exact h.close j hj k hk hne a' b' ha' hb'
  · intro j hj k hk a b ha hb hs
    obtain ⟨a', ha', rfl⟩ := key ha
    obtain ⟨b', hb', rfl⟩ := key hb
    exact h.apart j hj k hk a' b' ha' hb' hs
  · intro hv j k hn i h1 h2 x y hx hy hs
    obtain ⟨a', ha', rfl⟩ := key hx
    obtain ⟨b', hb', rfl⟩ := key hy
    exact h.timesNew hv j k hn i h1 h2 a' b' ha' hb' hs
  · intro hv j k hn i h1 h2 x y hx hy
    obtain ⟨a', ha', rfl⟩ := key hx
    obtain ⟨b', hb', rfl⟩ := key hy
    exact h.timesOld hv j k hn i h1 h2 a' b' ha' hb'

/-- C30 for a parsed map. -/
theorem C30_parsed [GoSort] [GoLibm D] (fuel : Nat) (text : Str) (m : BeatMap S D)
    (h : parseText fuel text = .ok (some m)) (v : Spec.Variant) (g : List Nat)
    (hg : Spec.StackGroup m.fileVersion (Spec.threshold m.difficulty m.stackLeniency v) m.hitObjects g)
    (p : Nat) (hp : p < g.length) :
    (m.hitObjects[g[p]]?).map (fun o => (Spec.stackOf o v).1) = some ((g.length : Int) - 1 - p) := by
  have h1 := C30_stack m.fileVersion m.difficulty m.stackLeniency (m.hitObjects.map Spec.unstack)
    (by intro o ho; obtain ⟨x, -, rfl⟩ := List.mem_map.mp ho; rfl) v g (StackGroup_unstack hg) p hp
  have h2 := C28_parsed fuel text m h v
  have h3 := C28_each_alone m.fileVersion m.difficulty m.stackLeniency (m.hitObjects.map Spec.unstack)
    (by intro o ho; obtain ⟨x, -, rfl⟩ := List.mem_map.mp ho; rfl) v
  have h4 := congrArg (fun l => l[g[p]]?) (h2.trans h3.symm)
  simp only [List.getElem?_map] at h4
  have h5 := congrArg (Option.map Prod.fst) h4
  simp only [Option.map_map] at h5
  exact h5.trans h1

end

/-- A circle at a place and a time. -/
def circleAt (p : Vec F32) (t : F64) : Obj F32 F64 :=
  { base := { startPosRaw := p, endPosRaw := p, startTime := t, endTime := t, stackOffset := Vec.zero
              stackOffsetEZ := Vec.zero, stackOffsetHR := Vec.zero, stackIndex := 0, stackIndexEZ := 0
              stackIndexHR := 0, hitObjectID := 0, sounds := [], newCombo := false, comboNumber := 0, comboSet := 0
              comboSetHax := 0, colorOffset := 0 }
    kind := .circle }

theorem close_self {p : Vec F32} (hx : Fl.Fin p.x) (hy : Fl.Fin p.y) : Spec.close (D := F64) p p = true := by
  obtain ⟨x, a, hx⟩ := hx
  obtain ⟨y, b, hy⟩ := hy
  have key : ∀ (x : ℚ) (a : Bool), ∃ c, ((Fl.fin x a : F32) -. Fl.fin x a) = Fl.fin 0 c := by
    intro x a
    refine ⟨Fl.signbit (Fl.fin x a : F32) && Fl.signbit (Fl.neg (Fl.fin x a : F32)), ?_⟩
    show Fl.ofRat fmt32 (x + -x) _ = _
    rw [add_neg_cancel]
    exact Fl.ofRat_zero _
  obtain ⟨c, hc⟩ := key x a
  obtain ⟨e, he⟩ := key y b
  unfold Spec.close Vec.dst
  simp only
  rw [hx, hy, hc, he]
  cases c <;> cases e <;> decide +kernel

/-- C30 in IEEE arithmetic for a map that consists of circles at the same place, each within the
threshold of the previous one: under both algorithms the indices count down from `n - 1` to `0`. -/
theorem C30_same_place (version : Int) (d : Difficulty F64) (sl : F64) (v : Spec.Variant) (place : Vec F32)
    (hx : Fl.Fin place.x) (hy : Fl.Fin place.y) (times : List F64)
    (hnew : times.IsChain (fun t u => (u -. t >. Spec.threshold d sl v) = false))
    (hold : times.IsChain (fun t u => (u -. Spec.threshold d sl v >. t) = false)) :
    (Stacking.calculate version d sl (times.map (circleAt place))).map (fun o => (Spec.stackOf o v).1) =
      (List.range times.length).map (fun (p : Nat) => (times.length : Int) - 1 - p) := by
  have chain : ∀ {R : F64 → F64 → Prop}, times.IsChain R → ∀ (i : Nat) (t u : F64), times[i]? = some t →
      times[i + 1]? = some u → R t u := by
    intro R h i t u ht hu
    have hi : i + 1 < times.length := by
      by_contra hn
      rw [List.getElem?_eq_none (by omega)] at hu
      cases hu
    rw [List.getElem?_eq_getElem hi] at hu
    rw [List.getElem?_eq_getElem (by omega)] at ht
    cases ht
    cases hu
    exact List.isChain_iff_getElem.mp h i hi
  have hget : ∀ {j : Nat} {a : Obj F32 F64}, (times.map (circleAt place))[j]? = some a →
      ∃ t, times[j]? = some t ∧ a = circleAt place t := by
    intro j a ha
    rw [List.getElem?_map] at ha
    cases hb : times[j]? with
    | none => rw [hb] at ha; cases ha
    | some b => rw [hb] at ha; cases ha; exact ⟨b, rfl, rfl⟩
  have hnext : ∀ {j k : Nat}, Spec.Next (List.range times.length) j k → k = j + 1 := by
    intro j k ⟨h1, h2, h3, h4⟩
    rw [List.mem_range] at h1 h2
    by_contra hne
    exact h4 (j + 1) (by rw [List.mem_range]; omega) ⟨by omega, by omega⟩
  have hg : Spec.StackGroup version (Spec.threshold d sl v) (times.map (circleAt place)) (List.range times.length) := by
    refine ⟨List.pairwise_lt_range, ?_, ?_, ?_, ?_, ?_⟩
    · intro j hj
      rw [List.mem_range] at hj
      exact ⟨circleAt place times[j], by rw [List.getElem?_map, List.getElem?_eq_getElem hj]; rfl, rfl, rfl⟩
    · intro j hj k hk hne a b ha hb
      obtain ⟨t, -, rfl⟩ := hget ha
      obtain ⟨u, -, rfl⟩ := hget hb
      exact close_self hx hy
    · intro j hj k hk a b ha hb
      exfalso
      obtain ⟨u, hu, -⟩ := hget hb
      rw [List.mem_range] at hk
      rw [List.getElem?_eq_none (by omega)] at hu
      cases hu
    · intro hv j k hn i h1 h2 x y hx hy _
      obtain ⟨t, ht, rfl⟩ := hget hx
      obtain ⟨u, hu, rfl⟩ := hget hy
      have := hnext hn
      have : i = j := by omega
      subst this
      rw [hnext hn] at hu
      exact chain hnew i t u ht hu
    · intro hv j k hn i h1 h2 x y hx hy
      obtain ⟨t, ht, rfl⟩ := hget hx
      obtain ⟨u, hu, rfl⟩ := hget hy
      have := hnext hn
      have : i = j + 1 := by omega
      subst this
      exact chain hold j t u ht hu
  have hlen : (Stacking.calculate version d sl (times.map (circleAt place))).length = times.length := by
    have := congrArg List.length (C29_frame version d sl (times.map (circleAt place)))
    simpa using this
  apply List.ext_getElem?
  intro i
  rw [List.getElem?_map, List.getElem?_map]
  rcases Nat.lt_or_ge i times.length with hi | hi
  · have := C30_stack version d sl _ (by intro o ho; obtain ⟨x, -, rfl⟩ := List.mem_map.mp ho; rfl) v _ hg i
      (by rw [List.length_range]; exact hi)
    rw [List.getElem_range, List.length_range] at this
    rw [this, List.getElem?_range hi]
    rfl
  · rw [List.getElem?_eq_none (by omega), List.getElem?_eq_none (by rw [List.length_range]; exact hi)]
    rfl

/-- Four circles 100 ms apart. -/
example (v : Spec.Variant) (version : Int) :
    (Stacking.calculate version (Difficulty.new (lit 5) (lit 5) (lit 5) (lit 5)) (lit 0.7)
      ([lit 0, lit 100, lit 200, lit 300].map (circleAt ⟨lit 100, lit 50⟩))).map (fun o => (Spec.stackOf o v).1) =
      [3, 2, 1, 0] := by
  refine C30_same_place version _ _ v ⟨lit 100, lit 50⟩ ((isFin_iff _).mp (by decide +kernel))
    ((isFin_iff _).mp (by decide +kernel)) _ ?_ ?_
  · cases v <;> decide +kernel
  · cases v <;> decide +kernel

/-! ## C31 -/

section
variable {S D : Type} [GoFloat S] [GoFloat D] [GoConv S D]

/-- C31. In any arithmetic: if no two objects are close, all stack indices are 0, and the offsets are the
radius times minus zero. -/
theorem C31_isolated (version : Int) (d : Difficulty D) (sl : D) (objs : List (Obj S D))
    (h0 : ∀ o ∈ objs, Spec.unstack o = o) (hs : Spec.Isolated version objs) (v : Spec.Variant) :
    ∀ o ∈ Stacking.calculate version d sl objs, (Spec.stackOf o v).1 = 0 ∧
      ((Spec.stackOf o v).2 = Vec.zero ∨ (Spec.stackOf o v).2 = Vec.scl ⟨lit 1, lit 1⟩ (fneg (ofInt 0) *.
        down ((Difficulty.new d.getHP d.getCS d.getOD d.getAR).setMods v.mods).circleRadius /. lit 10)) := by
  intro o ho
  by_cases hsp : o.isSpinner = true
  · have := calculate_spin version d sl objs h0 o ho hsp
    rw [← this]
    exact ⟨by cases v <;> rfl, .inl (by cases v <;> rfl)⟩
  have hw : (if version ≥ 6 then applyNew v.mods (Spec.threshold d sl v) (put v.mods objs fun _ => 0)
      else applyOld v.mods (Spec.threshold d sl v) (put v.mods objs fun _ => 0)) = put v.mods objs fun _ => 0 := by
    split
    · unfold applyNew
      rw [put_length, extendLoop_zero _ (Nat.le_refl _)]
      exact mainLoop_isolated hs _ _
    · exact oldLoop_isolated (by omega) hs _ _ _
  obtain ⟨i, hi⟩ := List.getElem?_of_mem ho
  have h1 := congrArg (fun l => l[i]?) (C28_each_alone version d sl objs h0 v)
  have h2 := congrArg (fun l => l[i]?) (C29_frame version d sl objs)
  simp only [List.getElem?_map, hi, Option.map_some] at h1 h2
  cases hx : objs[i]? with
  | none => rw [hx] at h2; cases h2
  | some x =>
    rw [hx, Option.map_some, Option.some.injEq] at h2
    have hxs : x.isSpinner = false := by
      have : (Spec.unstack o).isSpinner = (Spec.unstack x).isSpinner := by rw [h2]
      have : o.isSpinner = x.isSpinner := this
      rw [← this]
      simpa using hsp
    rw [runVariant_get hw hx, Option.map_some, Option.some.injEq, finish_index hxs] at h1
    rw [h1]
    exact ⟨rfl, .inr rfl⟩

end

theorem setMods_fresh {D : Type} [GoFloat D] (hp cs od ar : D) (m : Modifier) :
    (Difficulty.new hp cs od ar).setMods m = (Spec.DiffInput.mk hp cs od ar m (lit 1)).fresh := by
  rw [fresh_eq]
  exact calculate_congr rfl rfl rfl rfl rfl rfl

/-- The place of an object under the mods of a variant without stacking: HardRock flips it. -/
def flipped (v : Spec.Variant) (p : Vec F32) : Vec F32 :=
  match v with
  | .hr => ⟨p.x, lit 384 -. p.y⟩
  | _ => p

theorem add_zero_fin {f : Fmt} [f.Ok] {x : Fl f} (h : Fl.Fin x) (hw : Fl.WF x) (b : Bool) :
    Fl.eq (Fl.add x (Fl.fin 0 b)) x = true := by
  obtain ⟨v, a, rfl⟩ := h
  show Fl.eq (Fl.ofRat f (v + 0) _) _ = true
  rw [add_zero, Fl.ofRat_of_rep hw.1 hw.2.1]
  simp [Fl.eq]

/-- C31 in IEEE arithmetic, for base stats between 0 and 10 (which parsed maps have): the stacked
position of every object is its unstacked position (numerically). -/
theorem C31_positions (version : Int) (d : Difficulty F64) (sl : F64) (objs : List (Obj F32 F64))
    (h0 : ∀ o ∈ objs, Spec.unstack o = o) (hs : Spec.Isolated version objs) (v : Spec.Variant)
    (hhp : Between 0 10 d.getHP) (hcs : Between 0 10 d.getCS) (hod : Between 0 10 d.getOD) (har : Between 0 10 d.getAR)
    (p : Vec F32) (hx : Fl.Fin (flipped v p).x) (hy : Fl.Fin (flipped v p).y) (wx : Fl.WF (flipped v p).x)
    (wy : Fl.WF (flipped v p).y) :
    ∀ o ∈ Stacking.calculate version d sl objs, Vec.eq (o.base.modifyPosition p v.mods) (flipped v p) = true := by
  intro o ho
  obtain ⟨-, h1⟩ := C31_isolated version d sl objs h0 hs v o ho
  have hoff : ∃ b c, (Spec.stackOf o v).2 = ⟨Fl.fin 0 b, Fl.fin 0 c⟩ := by
    rcases h1 with h1 | h1
    · exact ⟨false, false, by rw [h1]; unfold Vec.zero; congr 1⟩
    · have hr := (C07_ranges d.getHP d.getCS d.getOD d.getAR (lit 1) v.mods hhp hcs hod har).2.1
      have hr' : Between 9.6 54.4 ((Difficulty.new d.getHP d.getCS d.getOD d.getAR).setMods v.mods).circleRadius := by
        rw [setMods_fresh]
        exact hr
      rw [h1]
      generalize ((Difficulty.new d.getHP d.getCS d.getOD d.getAR).setMods v.mods).circleRadius = r at hr'
      have hf : ∃ w a, (down r : F32) = Fl.fin w a := by
        have a1 := Fl.cvt_mono (g := fmt32) hr'.1
        have a2 := Fl.cvt_mono (g := fmt32) hr'.2
        have a1 : Fl.le (down (lit 9.6 : F64) : F32) (down r) = true := a1
        have a2 : Fl.le (down r : F32) (down (lit 54.4 : F64)) = true := a2
        obtain ⟨w1, b1, e1⟩ : ∃ w b, (down (lit 9.6 : F64) : F32) = Fl.fin w b := (isFin_iff _).mp (by decide +kernel)
        obtain ⟨w2, b2, e2⟩ : ∃ w b, (down (lit 54.4 : F64) : F32) = Fl.fin w b := (isFin_iff _).mp (by decide +kernel)
        rw [e1] at a1
        rw [e2] at a2
        cases hd : (down r : F32) with
        | nan => rw [hd] at a1; cases a1
        | inf s =>
          rw [hd] at a1 a2
          cases s <;> simp [Fl.le] at a1 a2
        | fin w a => exact ⟨w, a, rfl⟩
      obtain ⟨w, a, hf⟩ := hf
      rw [hf]
      obtain ⟨b1, e1⟩ : ∃ b, (fneg (ofInt 0) : F32) = Fl.fin 0 b := ⟨true, by decide +kernel⟩
      have m1 : ∀ b : Bool, ∃ c, ((Fl.fin 0 b : F32) *. Fl.fin w a) = Fl.fin 0 c := by
        intro b
        refine ⟨Bool.xor (Fl.signbit (Fl.fin 0 b : F32)) (Fl.signbit (Fl.fin w a : F32)), ?_⟩
        show Fl.ofRat fmt32 (0 * w) _ = _
        rw [zero_mul]
        exact Fl.ofRat_zero _
      obtain ⟨b2, e2⟩ := m1 b1
      obtain ⟨b3, e3⟩ : ∃ b, ((Fl.fin 0 b2 : F32) /. lit 10) = Fl.fin 0 b := by
        cases b2
        · exact ⟨false, by decide +kernel⟩
        · exact ⟨true, by decide +kernel⟩
      obtain ⟨b4, e4⟩ : ∃ b, ((lit 1 : F32) *. Fl.fin 0 b3) = Fl.fin 0 b := by
        cases b3
        · exact ⟨false, by decide +kernel⟩
        · exact ⟨true, by decide +kernel⟩
      refine ⟨b4, b4, ?_⟩
      unfold Vec.scl
      rw [e1, e2, e3, e4]
  obtain ⟨b, c, hoff⟩ := hoff
  have hm : o.base.modifyPosition p v.mods = (flipped v p).add (Spec.stackOf o v).2 := by cases v <;> rfl
  rw [hm, hoff]
  unfold Vec.eq Vec.add
  rw [Bool.and_eq_true]
  exact ⟨add_zero_fin hx wx b, add_zero_fin hy wy c⟩

/-- Two circles 100 px apart are isolated, at any times. -/
example (version : Int) (t u : F64) : Spec.Isolated version [circleAt ⟨lit 0, lit 0⟩ t, circleAt ⟨lit 100, lit 0⟩ u] := by
  intro i j a b hij ha hb _
  have hi : i = 0 ∨ i = 1 := by have := lt_length ha; simp at this; omega
  have hj : j = 0 ∨ j = 1 := by have := lt_length hb; simp at this; omega
  have h1 : Spec.close (D := F64) (⟨lit 0, lit 0⟩ : Vec F32) ⟨lit 100, lit 0⟩ = false := by decide +kernel
  have h2 : Spec.close (D := F64) (⟨lit 100, lit 0⟩ : Vec F32) ⟨lit 0, lit 0⟩ = false := by decide +kernel
  rcases hi with rfl | rfl <;> rcases hj with rfl | rfl <;> first | exact absurd rfl hij | skip
  all_goals
    cases ha; cases hb
    intro p hp q hq
    simp only [circleAt, List.mem_cons, List.not_mem_nil, or_false, or_self] at hp hq
    subst hp hq
    first | exact ⟨h1, h2⟩ | exact ⟨h2, h1⟩

end GosuPP.Props
