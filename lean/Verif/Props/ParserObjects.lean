import Verif.Lemmas.ParserObjects
import Verif.Lemmas.Timing
import Verif.Props.Sample

/-!
# The objects of a parsed map: C20, C21, C22
-/

namespace GosuPP.Props
open Go GosuPP
variable {S D : Type} [GoFloat S] [GoFloat D] [GoConv S D] [GoLibm D] [GoSort]

/-- the order used by the parser -/
abbrev byStart (x y : Obj S D) : Bool := x.base.startTime <. y.base.startTime

omit [GoConv S D] [GoLibm D] [GoSort] in
theorem given_comm (o : Obj S D) : Spec.given o = Spec.uncombo (Spec.unstack (Spec.untime o)) := by
  obtain ⟨b, k⟩ := o
  cases k <;> rfl

omit [GoLibm D] in
/-- `given` survives everything after the sort. -/
theorem given_final {fuel : Nat} {t : Timings D} {sorted objs : List (Obj S D)}
    (h : setTimings fuel t (comboLoop {} sorted) = .ok objs) (v : Int) (d : Difficulty D) (sl : D) :
    (Stacking.calculate v d sl objs).map Spec.given = sorted.map Spec.given := by
  have h1 : (Stacking.calculate v d sl objs).map Spec.given = objs.map Spec.given := by
    have := congrArg (List.map (fun o => Spec.untime (Spec.uncombo o))) (Stacking.calculate_frame v d sl objs)
    rw [List.map_map, List.map_map] at this
    exact this
  have h2 : objs.map Spec.given = (comboLoop {} sorted).map Spec.given := by
    have hf := setTimings_forall h
    generalize comboLoop {} sorted = l at hf
    clear h h1
    induction hf with
    | nil => rfl
    | cons hab _ ih =>
      rename_i a b l1 l2 _
      rw [List.map_cons, List.map_cons, ih]
      congr 1
      rw [given_comm, given_comm, (setTiming_frame hab).1]
  have h3 : (comboLoop {} sorted).map Spec.given = sorted.map Spec.given := by
    have hc := comboLoop_frame ({} : ComboState) sorted
    have := congrArg (List.map (fun o => Spec.untime (Spec.unstack o))) hc
    rw [List.map_map, List.map_map] at this
    exact this
  rw [h1, h2, h3]

omit [GoConv S D] [GoLibm D] [GoSort] in
theorem given_start (o : Obj S D) : (Spec.given o).base.startTime = o.base.startTime := by
  unfold Spec.given Spec.untime
  split <;> rfl

omit [GoLibm D] [GoSort] [GoConv S D] in
theorem filter_given {l l' : List (Obj S D)} (h : l.map Spec.given = l'.map Spec.given)
    (p : D → Bool) : (l.filter (fun o => p o.base.startTime)).map Spec.given =
      (l'.filter (fun o => p o.base.startTime)).map Spec.given := by
  have e : ∀ l : List (Obj S D), (l.filter (fun o => p o.base.startTime)).map Spec.given =
      (l.map Spec.given).filter (fun o => p o.base.startTime) := by
    intro l
    rw [List.filter_map]
    congr 1
    apply List.filter_congr
    intro o _
    simp [given_start]
  rw [e, e, h]

/-- C20 (any arithmetic). The hit objects of a parsed map are, up to the data that is computed
later, a permutation of the objects created from the lines: none is lost or duplicated. -/
theorem C20_none_lost (fuel : Nat) (text : Str) (m : BeatMap S D)
    (h : parseText fuel text = .ok (some m)) :
    ∃ os, (Spec.records "HitObjects" (scanLines bufferSize text)).mapM
        (createObject (S := S) (D := D) fuel) = .ok os ∧
      (m.hitObjects.map Spec.given).Perm (os.reduceOption.map Spec.given) := by
  obtain ⟨st, hl, objs, ho, rfl⟩ := parseText_some h
  obtain ⟨os, h1, h2, -⟩ := parseLines_objects hl
  refine ⟨os, h1, ?_⟩
  show ((Stacking.calculate _ _ _ objs).map Spec.given).Perm _
  rw [given_final ho, ← h2]
  exact (GoSort.stable_perm _ _).map _

/-- C20 (any arithmetic in which start times are ordered). The hit objects are sorted by start
time and objects with equivalent start times keep the order of their lines. -/
theorem C20_sorted_of (fuel : Nat) (text : Str) (m : BeatMap S D)
    (h : parseText fuel text = .ok (some m)) :
    ∃ os, (Spec.records "HitObjects" (scanLines bufferSize text)).mapM
        (createObject (S := S) (D := D) fuel) = .ok os ∧
      (StrictWeak byStart os.reduceOption →
        m.hitObjects.Pairwise (fun a b => (b.base.startTime <. a.base.startTime) = false) ∧
        ∀ a ∈ os.reduceOption,
          (m.hitObjects.filter (fun b => !byStart a b && !byStart b a)).map Spec.given =
            (os.reduceOption.filter (fun b => !byStart a b && !byStart b a)).map Spec.given) := by
  obtain ⟨st, hl, objs, ho, rfl⟩ := parseText_some h
  obtain ⟨os, h1, h2, -⟩ := parseLines_objects hl
  refine ⟨os, h1, fun hw => ?_⟩
  have hg := given_final ho st.beatMap.fileVersion st.beatMap.difficulty st.beatMap.stackLeniency
  rw [← h2] at hw ⊢
  constructor
  · have hs := GoSort.stable_sorted _ _ hw
    have e : ∀ l : List (Obj S D), l.Pairwise (fun a b => (b.base.startTime <. a.base.startTime) = false) ↔
        (l.map Spec.given).Pairwise (fun a b => (b.base.startTime <. a.base.startTime) = false) := by
      intro l
      rw [List.pairwise_map]
      simp only [given_start]
    show (Stacking.calculate _ _ _ objs).Pairwise _
    rw [e, hg, ← e]
    exact hs
  · intro a ha
    show ((Stacking.calculate _ _ _ objs).filter _).map _ = _
    have := filter_given hg (fun t => !(a.base.startTime <. t) && !(t <. a.base.startTime))
    rw [this]
    have hst := GoSort.stable_stable _ _ hw a ha
    exact congrArg (List.map Spec.given) hst

/-- C20. In IEEE arithmetic, for files without NaN start times: the hit objects are sorted by
start time, and those with a given start time are exactly the ones created from the lines, in
the order of the lines. -/
theorem C20_sorted [GoLibm F64] (fuel : Nat) (text : Str) (m : BeatMap F32 F64)
    (h : parseText fuel text = .ok (some m)) :
    ∃ os, (Spec.records "HitObjects" (scanLines bufferSize text)).mapM
        (createObject (S := F32) (D := F64) fuel) = .ok os ∧
      ((∀ o ∈ os.reduceOption, o.base.startTime ≠ .nan) →
        m.hitObjects.Pairwise (fun a b => (a.base.startTime <=. b.base.startTime) = true) ∧
        ∀ t : F64, t ≠ .nan →
          (m.hitObjects.filter (fun b => b.base.startTime ==. t)).map Spec.given =
            (os.reduceOption.filter (fun b => b.base.startTime ==. t)).map Spec.given) := by
  obtain ⟨os, h1, h2⟩ := C20_sorted_of fuel text m h
  obtain ⟨os', h1', hperm⟩ := C20_none_lost fuel text m h
  have he : os' = os := by rw [h1] at h1'; cases h1'; rfl
  subst he
  refine ⟨os', h1, fun hn => ?_⟩
  have hn' : ∀ o ∈ m.hitObjects, o.base.startTime ≠ .nan := by
    intro o ho
    have := hperm.mem_iff.mp (List.mem_map_of_mem (f := Spec.given) ho)
    obtain ⟨o', ho', e⟩ := List.mem_map.mp this
    rw [← given_start, ← e, given_start]
    exact hn o' ho'
  have hw : StrictWeak (byStart (S := F32) (D := F64)) os'.reduceOption :=
    ⟨fun a _ => Fl.lt_irrefl _, fun a _ b _ c _ h1 h2 => Fl.lt_trans h1 h2,
      fun a ha b hb c hc h1 h2 => by
        have g1 := Fl.le_of_not_lt (hn b hb) (hn a ha) h1
        have g2 := Fl.le_of_not_lt (hn c hc) (hn b hb) h2
        exact Fl.not_lt_of_le (Fl.le_trans g2 g1)⟩
  obtain ⟨hs, hst⟩ := h2 hw
  have heqv : ∀ a b : F64, a ≠ .nan → b ≠ .nan → (Fl.eq b a = (!Fl.lt a b && !Fl.lt b a)) := by
    intro a b ha hb
    have e1 : Fl.le b a = !Fl.lt a b := Fl.le_eq_not_lt hb ha
    have e2 : Fl.le a b = !Fl.lt b a := Fl.le_eq_not_lt ha hb
    rw [← e1, ← e2, Bool.eq_iff_iff, Fl.eq_iff_le, Bool.and_eq_true]
  constructor
  · refine List.Pairwise.imp_of_mem ?_ hs
    intro a b ha hb hab
    exact Fl.le_of_not_lt (hn' a ha) (hn' b hb) hab
  · intro t ht
    by_cases hex : ∃ a ∈ os'.reduceOption, Fl.eq a.base.startTime t = true
    · obtain ⟨a, ha, hat⟩ := hex
      have := hst a ha
      have tr : ∀ b : Obj F32 F64, b.base.startTime ≠ .nan →
          (b.base.startTime ==. t) = (!byStart a b && !byStart b a) := by
        intro b hb
        show Fl.eq b.base.startTime t = _
        have hat' := Fl.eq_iff_le.mp hat
        rw [← show Fl.eq b.base.startTime a.base.startTime = (!byStart a b && !byStart b a) from
          heqv _ _ (hn a ha) hb, Bool.eq_iff_iff, Fl.eq_iff_le, Fl.eq_iff_le]
        exact ⟨fun h => ⟨Fl.le_trans h.1 hat'.2, Fl.le_trans hat'.1 h.2⟩,
          fun h => ⟨Fl.le_trans h.1 hat'.1, Fl.le_trans hat'.2 h.2⟩⟩
      rw [List.filter_congr (fun b hb => tr b (hn' b hb)), List.filter_congr (fun b hb => tr b (hn b hb))]
      exact this
    · have e1 : os'.reduceOption.filter (fun b => b.base.startTime ==. t) = [] := by
        rw [List.filter_eq_nil_iff]
        intro a ha hc
        exact hex ⟨a, ha, hc⟩
      have e2 : m.hitObjects.filter (fun b => b.base.startTime ==. t) = [] := by
        rw [List.filter_eq_nil_iff]
        intro a ha hc
        have := hperm.mem_iff.mp (List.mem_map_of_mem (f := Spec.given) ha)
        obtain ⟨o', ho', e⟩ := List.mem_map.mp this
        apply hex
        refine ⟨o', ho', ?_⟩
        rw [← given_start, e, given_start]
        exact hc
      rw [e1, e2]

/-- the id and combo data of an object -/
abbrev comboData (o : Obj S D) : Int × Bool × Int × Int × Int :=
  (o.base.hitObjectID, o.base.newCombo, o.base.comboNumber, o.base.comboSet, o.base.comboSetHax)

omit [GoLibm D] in
theorem comboData_final {fuel : Nat} {t : Timings D} {l objs : List (Obj S D)}
    (h : setTimings fuel t l = .ok objs) (v : Int) (d : Difficulty D) (sl : D) :
    (Stacking.calculate v d sl objs).map comboData = l.map comboData := by
  have h1 : (Stacking.calculate v d sl objs).map comboData = objs.map comboData := by
    have := congrArg (List.map comboData) (Stacking.calculate_frame v d sl objs)
    rw [List.map_map, List.map_map] at this
    exact this
  rw [h1]
  have hf := setTimings_forall h
  clear h h1
  induction hf with
  | nil => rfl
  | cons hab _ ih =>
    rw [List.map_cons, List.map_cons, ih]
    congr 1
    obtain ⟨-, -, -, et, ep, hb⟩ := setTiming_frame hab
    unfold comboData
    rw [hb]

/-- C21. Let `l` be the created objects in the order of the map (same objects up to computed
data). Then object `i` has id `i`; its combo set is the number of combo starts up to `i`; its
combo number is its distance from the last combo start (or from the first object) plus one; and
its new-combo flag is set when it starts a combo (spinners keep the flag of their line). -/
theorem C21_combos (fuel : Nat) (text : Str) (m : BeatMap S D)
    (h : parseText fuel text = .ok (some m)) :
    ∃ os l, (Spec.records "HitObjects" (scanLines bufferSize text)).mapM
        (createObject (S := S) (D := D) fuel) = .ok os ∧
      l = GoSort.stable (fun x y : Obj S D => x.base.startTime <. y.base.startTime)
        os.reduceOption ∧
      m.hitObjects.map Spec.given = l.map Spec.given ∧
      ∀ (i : Nat) (o : Obj S D), m.hitObjects[i]? = some o →
        o.base.hitObjectID = (i : Int) ∧
        o.base.comboSet = ((List.range (i + 1)).countP (Spec.starts l) : Nat) ∧
        (∀ raw, l[i]? = some raw → o.base.newCombo = (raw.base.newCombo || Spec.starts l i)) ∧
        ∃ j, j ≤ i ∧ (j = 0 ∨ Spec.starts l j = true) ∧
          (∀ k, j < k → k ≤ i → Spec.starts l k = false) ∧ o.base.comboNumber = (i : Int) - j + 1 := by
  obtain ⟨st, hl, objs, ho, rfl⟩ := parseText_some h
  obtain ⟨os, h1, h2, -⟩ := parseLines_objects hl
  refine ⟨os, _, h1, by rw [← h2], given_final ho _ _ _, ?_⟩
  intro i o hi
  have hc := comboData_final ho st.beatMap.fileVersion st.beatMap.difficulty st.beatMap.stackLeniency
  generalize GoSort.stable (fun x y : Obj S D => x.base.startTime <. y.base.startTime)
    st.beatMap.hitObjects = l at *
  have hd : (comboLoop {} l)[i]?.map comboData = some (comboData o) := by
    have := congrArg (fun l => l[i]?) hc
    simp only [List.getElem?_map] at this
    rw [← this]
    have hi' : (Stacking.calculate st.beatMap.fileVersion st.beatMap.difficulty
      st.beatMap.stackLeniency objs)[i]? = some o := hi
    rw [hi']; rfl
  rw [comboLoop_getElem] at hd
  cases hraw : l[i]? with
  | none => rw [hraw] at hd; cases hd
  | some raw =>
    rw [hraw] at hd
    simp only [Option.map_some, Option.some.injEq] at hd
    have hlen : i < l.length := by
      rw [List.getElem?_eq_some_iff] at hraw; exact hraw.1
    obtain ⟨i1, i2, i3, -, j, j1, j2, j3, j4, j5⟩ := combo_state (l.take i)
    generalize (l.take i).foldl comboNext ({} : ComboState) = c at *
    have htl : (l.take i).length = i := by rw [List.length_take]; omega
    rw [htl] at i1 i3 j1 j2 j3 j4 j5
    have hst : Spec.starts l i = (!raw.isSpinner && (raw.base.newCombo || c.forceNewCombo)) := by
      unfold Spec.starts
      rw [hraw, i2]
      simp only
      congr 2
      cases i with
      | zero => rfl
      | succ k =>
        have : (l.take (k + 1)).getLast? = l[k]? := by
          rw [List.getLast?_eq_getElem?, List.length_take, Nat.min_eq_left (by omega), Nat.add_sub_cancel, List.getElem?_take,
            if_pos (Nat.lt_succ_self k)]
        rw [this]
        simp only
        cases l[k]? <;> rfl
    have htake : ∀ k, k < i → Spec.starts (l.take i) k = Spec.starts l k := by
      intro k hk
      conv_rhs => rw [← List.take_append_drop i l]
      rw [starts_append_left _ _ _ (by omega)]
    simp only [comboData, comboOut, ← hst, Prod.mk.injEq] at hd
    obtain ⟨d1, d2, d3, d4, -⟩ := hd
    refine ⟨by rw [← d1, i1], ?_, ?_, ?_⟩
    · rw [← d4, List.range_succ, List.countP_append, List.countP_singleton]
      rw [List.countP_congr (p := Spec.starts l) (q := Spec.starts (l.take i))
        (fun k hk => by rw [htake k (List.mem_range.mp hk)]), i3]
      split <;> simp
    · intro raw' hr
      cases hr
      exact d2.symm
    · by_cases hs : Spec.starts l i = true
      · rw [if_pos hs] at d3
        exact ⟨i, Nat.le_refl _, Or.inr hs, fun k a b => by omega, by omega⟩
      · rw [if_neg hs] at d3
        refine ⟨j, j1, ?_, ?_, by omega⟩
        · by_cases hj : j < i
          · rw [← htake j hj]; exact j2 hj
          · left
            by_contra hne
            have : l.take i ≠ [] := by
              intro hc
              rw [hc] at htl
              simp at htl
              omega
            exact hj (j3 this)
        · intro k a b
          by_cases hk : k < i
          · rw [← htake k hk]; exact j4 k a hk
          · have : k = i := by omega
            rw [this]; simpa using hs

/-- C20/C21. What an object takes from its line. -/
theorem C20_object_of_line (fuel : Nat) (arr : List Str) (o : Obj S D)
    (h : createObject fuel arr = .ok (some o)) :
    ∃ x y t ty, arr[0]? = some x ∧ arr[1]? = some y ∧ arr[2]? = some t ∧ arr[3]? = some ty ∧
      o.base.startPosRaw = ⟨parseFloat x, parseFloat y⟩ ∧ o.base.startTime = parseFloat t ∧
      o.base.newCombo = (parseInt ty).testBit 2 ∧
      (o.isSpinner = true ↔ Spec.lineKind arr = .spinner) ∧
      (o.isSlider = true ↔ Spec.lineKind arr = .slider) := by
  have hk := createObject_kind h
  have key : ∀ b : HitObject S D, commonParse arr = .ok b →
      ∃ x y t ty, arr[0]? = some x ∧ arr[1]? = some y ∧ arr[2]? = some t ∧ arr[3]? = some ty ∧
        b.startPosRaw = ⟨parseFloat x, parseFloat y⟩ ∧ b.startTime = parseFloat t ∧
        b.newCombo = (parseInt ty).testBit 2 := by
    intro b hb
    unfold commonParse at hb
    obtain ⟨x, hx, hb⟩ := bind_ok hb
    obtain ⟨y, hy, hb⟩ := bind_ok hb
    obtain ⟨t, ht, hb⟩ := bind_ok hb
    obtain ⟨ty, hty, hb⟩ := bind_ok hb
    obtain ⟨s, hs, hb⟩ := bind_ok hb
    cases hb
    exact ⟨x, y, t, ty, index_ok (n := 0) hx, index_ok (n := 1) hy, index_ok (n := 2) ht,
      index_ok (n := 3) hty, rfl, rfl, intBit_testBit _ _⟩
  have hkind : (o.isSpinner = true ↔ Spec.lineKind arr = .spinner) ∧
      (o.isSlider = true ↔ Spec.lineKind arr = .slider) := by
    revert hk
    cases Spec.lineKind arr
    · rintro ⟨x, e, hx⟩; cases e; simp [Obj.isSpinner, Obj.isSlider, hx]
    · rintro ⟨x, e, hx⟩; cases e; simp [Obj.isSpinner, Obj.isSlider, hx]
    · rintro ⟨x, s, e, hx⟩; cases e; simp [Obj.isSpinner, Obj.isSlider, hx]
    · intro e; cases e
    · intro e; cases e
  have hbase : ∃ b : HitObject S D, commonParse arr = .ok b ∧ o.base.startPosRaw = b.startPosRaw ∧
      o.base.startTime = b.startTime ∧ o.base.newCombo = b.newCombo := by
    unfold createObject at h
    obtain ⟨ty, -, h⟩ := bind_ok h
    simp only at h
    split at h
    · obtain ⟨x, hx, h⟩ := bind_ok h
      cases h
      unfold newCircle at hx
      obtain ⟨bs, hb, hx⟩ := bind_ok hx
      cases hx
      exact ⟨bs, hb, rfl, rfl, rfl⟩
    split at h
    · obtain ⟨x, hx, h⟩ := bind_ok h
      cases h
      unfold newSpinner at hx
      obtain ⟨bs, hb, hx⟩ := bind_ok hx
      obtain ⟨e, -, hx⟩ := bind_ok hx
      cases hx
      exact ⟨bs, hb, rfl, rfl, rfl⟩
    split at h
    · obtain ⟨x, hx, h⟩ := bind_ok h
      cases h
      unfold newSlider at hx
      obtain ⟨bs, hb, hx⟩ := bind_ok hx
      obtain ⟨_, -, hx⟩ := bind_ok hx
      obtain ⟨_, -, hx⟩ := bind_ok hx
      obtain ⟨_, -, hx⟩ := bind_ok hx
      obtain ⟨_, -, hx⟩ := bind_ok hx
      obtain ⟨_, -, hx⟩ := bind_ok hx
      obtain ⟨_, -, hx⟩ := bind_ok hx
      obtain ⟨_, -, hx⟩ := bind_ok hx
      obtain ⟨_, -, hx⟩ := bind_ok hx
      obtain ⟨_, -, hx⟩ := bind_ok hx
      obtain ⟨_, -, hx⟩ := bind_ok hx
      cases hx
      exact ⟨bs, hb, rfl, rfl, rfl⟩
    · cases h
  obtain ⟨b, hb, e1, e2, e3⟩ := hbase
  obtain ⟨x, y, t, ty, a1, a2, a3, a4, a5, a6, a7⟩ := key b hb
  exact ⟨x, y, t, ty, a1, a2, a3, a4, e1.trans a5, e2.trans a6, e3.trans a7, hkind⟩

/-- C22. Counters and length of a parsed map. -/
theorem C22_counters (fuel : Nat) (text : Str) (m : BeatMap S D)
    (h : parseText fuel text = .ok (some m)) :
    let lines := Spec.records "HitObjects" (scanLines bufferSize text)
    let count (k : Spec.LineKind) : Nat := lines.countP (fun a => Spec.lineKind a = k)
    m.circles = count .circle ∧ m.spinners = count .spinner ∧
    m.sliders = count .slider + count .hold ∧
    (m.hitObjects.length : Int) = m.circles + m.sliders + m.spinners - count .hold ∧
    m.length = (lines.map Spec.lineTime).foldl max 0 := by
  obtain ⟨st, hl, objs, ho, rfl⟩ := parseText_some h
  obtain ⟨os, h1, h2, h3, h4, h5, h6⟩ := parseLines_objects hl
  intro lines count
  have hsl : (lines.countP (fun a => Spec.lineKind a = .slider ∨ Spec.lineKind a = .hold) : Nat) =
      count .slider + count .hold := by
    show _ = lines.countP _ + lines.countP _
    generalize lines = ls
    induction ls with
    | nil => rfl
    | cons a ls ih =>
      rw [List.countP_cons, List.countP_cons, List.countP_cons, ih]
      cases Spec.lineKind a <;> simp <;> omega
  have hlen : os.reduceOption.length = count .circle + count .spinner + count .slider := by
    show _ = lines.countP _ + lines.countP _ + lines.countP _
    change lines.mapM (createObject fuel) = .ok os at h1
    clear hsl h2 h3 h4 h5 h6
    generalize lines = ls at *
    induction ls generalizing os with
    | nil => cases h1; rfl
    | cons a ls ih =>
      rw [List.mapM_cons] at h1
      obtain ⟨o, ho1, h1⟩ := bind_ok h1
      obtain ⟨os', ho2, h1⟩ := bind_ok h1
      cases h1
      have := ih os' ho2
      have hk := createObject_kind ho1
      rw [List.countP_cons, List.countP_cons, List.countP_cons]
      revert hk
      cases Spec.lineKind a
      · rintro ⟨x, rfl, -⟩; simp [List.reduceOption] at this ⊢; omega
      · rintro ⟨x, rfl, -⟩; simp [List.reduceOption] at this ⊢; omega
      · rintro ⟨x, s, rfl, -⟩; simp [List.reduceOption] at this ⊢; omega
      · rintro rfl; simp [List.reduceOption] at this ⊢; omega
      · rintro rfl; simp [List.reduceOption] at this ⊢; omega
  have hfin : (Stacking.calculate st.beatMap.fileVersion st.beatMap.difficulty
      st.beatMap.stackLeniency objs).length = os.reduceOption.length := by
    have := congrArg List.length (given_final ho st.beatMap.fileVersion st.beatMap.difficulty
      st.beatMap.stackLeniency)
    rw [List.length_map, List.length_map, (GoSort.stable_perm _ _).length_eq, h2] at this
    exact this
  refine ⟨h3, h4, ?_, ?_, h6⟩
  · show st.beatMap.sliders = _
    rw [h5]; exact_mod_cast hsl
  · show ((Stacking.calculate _ _ _ objs).length : Int) =
      st.beatMap.circles + st.beatMap.sliders + st.beatMap.spinners - _
    rw [hfin, hlen, h3, h4, h5, hsl]
    push_cast
    ring

/-- The sample in full: 5 objects from 6 lines (one hold note), two of them at time 1000 in file
order (circle, slider), ids, combo numbers and combo sets. -/
example : Sample.observe Sample.text (fun m => (m.circles, m.sliders, m.spinners, m.length)) =
    some (3, 2, 1, 7000) := by decide +kernel

example : Sample.observe Sample.text (fun m => m.hitObjects.map (fun o =>
      (o.base.startTime, o.isSlider, o.base.hitObjectID, o.base.comboNumber, o.base.comboSet))) =
    some [(lit 500, false, 0, 1, 1), (lit 1000, false, 1, 2, 1), (lit 1000, true, 2, 3, 1),
      (lit 3000, false, 3, 4, 1), (lit 5000, false, 4, 1, 2)] := by decide +kernel

end GosuPP.Props
