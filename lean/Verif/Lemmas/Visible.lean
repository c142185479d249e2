import Verif.Spec.Visible
import Verif.Lemmas.Notes

/-!
# Maps without undefined times and positions are shown as notes
-/

namespace GosuPP.Exactly
open Go Spec
attribute [local instance] exactLibm

theorem somewhere_len {v : Vec (Option ℝ)} (h : Somewhere v) : ∃ l : ℝ, 0 ≤ l ∧ v.len = some l := by
  obtain ⟨a, b, rfl⟩ := h
  refine ⟨Real.sqrt (a * a + b * b), Real.sqrt_nonneg _, ?_⟩
  simp only [Vec.len, Math32.sqrt, Exact.mul, Exact.add, Exact.up, Exact.down]
  exact Exact.sqrt (by nlinarith [mul_self_nonneg a, mul_self_nonneg b])

theorem somewhere_sub {v w : Vec (Option ℝ)} (h : Somewhere v) (h' : Somewhere w) : Somewhere (v.sub w) := by
  obtain ⟨a, b, rfl⟩ := h
  obtain ⟨a', b', rfl⟩ := h'
  exact ⟨a - a', b - b', rfl⟩

theorem somewhere_add {v w : Vec (Option ℝ)} (h : Somewhere v) (h' : Somewhere w) : Somewhere (v.add w) := by
  obtain ⟨a, b, rfl⟩ := h
  obtain ⟨a', b', rfl⟩ := h'
  exact ⟨a + a', b + b', rfl⟩

theorem somewhere_scl {v : Vec (Option ℝ)} (h : Somewhere v) (k : ℝ) : Somewhere (v.scl (some k)) := by
  obtain ⟨a, b, rfl⟩ := h
  exact ⟨a * k, b * k, rfl⟩

/-- A state of the lazy slider loop without undefined values. -/
structure LazyDefined (st : LazyState (Option ℝ)) : Prop where
  cursor : Somewhere st.cursor
  stop : Somewhere st.endPosition
  travel : ∃ l : ℝ, 0 ≤ l ∧ st.travelDistance = some l

variable {mods : Modifier} {o : Obj (Option ℝ) (Option ℝ)} {s : SliderData (Option ℝ) (Option ℝ)} {k : ℝ}

private theorem lazyStep_at {p : TickPoint (Option ℝ)} {last : Bool} {st : LazyState (Option ℝ)} {v : Vec (Option ℝ)}
    (h : (if last then o.getStackedPositionAtMod o.base.endTime mods else o.getStackedPositionAtMod p.time mods) = .ok v) :
    lazyStep o mods (some k) p last st = .ok (
      let m := if last then (if (st.endPosition.sub st.cursor).len <. (v.sub st.cursor).len then st.endPosition.sub st.cursor
        else v.sub st.cursor) else v.sub st.cursor
      let req : Option ℝ := if !last && p.isReverse then lit 50 else lit 90
      let st' := if (some k *. up m.len) >. req then
          { st with
            cursor := st.cursor.add (m.scl (down ((some k *. up m.len -. req) /. (some k *. up m.len))))
            travelDistance := st.travelDistance +. down (some k *. up m.len *. ((some k *. up m.len -. req) /. (some k *. up m.len))) }
        else st
      if last then { st' with endPosition := st'.cursor } else st') := by
  unfold lazyStep
  cases last
  · simp only [Bool.false_eq_true, if_false] at h
    simp only [Bool.false_eq_true, if_false, h]
    rfl
  · simp only [if_true] at h
    simp only [if_true, h]
    rfl

theorem lazyStep_defined (hb : ∀ t : ℝ, ∃ v, o.getStackedPositionAtMod (some t) mods = .ok v ∧ Somewhere v)
    (he : ∃ t : ℝ, o.base.endTime = some t) {p : TickPoint (Option ℝ)} (hp : ∃ t : ℝ, p.time = some t) (last : Bool)
    {st : LazyState (Option ℝ)} (h : LazyDefined st) :
    ∃ st', lazyStep o mods (some k) p last st = .ok st' ∧ LazyDefined st' := by
  obtain ⟨e, he⟩ := he
  obtain ⟨t, hp⟩ := hp
  have hpos : ∃ v, (if last then o.getStackedPositionAtMod o.base.endTime mods else o.getStackedPositionAtMod p.time mods) = .ok v ∧
      Somewhere v := by
    cases last
    · rw [if_neg (by simp), hp]; exact hb t
    · rw [if_pos rfl, he]; exact hb e
  obtain ⟨v, hv, sv⟩ := hpos
  rw [lazyStep_at hv]
  have hm : ∃ m, (if last then (if (st.endPosition.sub st.cursor).len <. (v.sub st.cursor).len then st.endPosition.sub st.cursor
      else v.sub st.cursor) else v.sub st.cursor) = m ∧ Somewhere m := by
    refine ⟨_, rfl, ?_⟩
    have h1 := somewhere_sub sv h.cursor
    have h2 := somewhere_sub h.stop h.cursor
    split
    · split
      · exact h2
      · exact h1
    · exact h1
  obtain ⟨m, em, sm⟩ := hm
  obtain ⟨l, hl0, hl⟩ := somewhere_len sm
  obtain ⟨tr, ht0, ht⟩ := h.travel
  have hreq : ∃ R : ℝ, 0 < R ∧ (if !last && p.isReverse then lit 50 else lit 90 : Option ℝ) = some R := by
    split
    · exact ⟨50, by norm_num, by rw [Exact.lit]; norm_num⟩
    · exact ⟨90, by norm_num, by rw [Exact.lit]; norm_num⟩
  obtain ⟨R, hR, eR⟩ := hreq
  dsimp only
  rw [em, hl, eR, Exact.up, Exact.mul, Exact.lt]
  by_cases hc : R < k * l
  · simp only [hc, decide_true, if_true]
    rw [Exact.sub, Exact.div _ (by linarith), Exact.mul, Exact.down, Exact.down, ht, Exact.add]
    have sc := somewhere_add h.cursor (somewhere_scl sm ((k * l - R) / (k * l)))
    have tr' : 0 ≤ tr + k * l * ((k * l - R) / (k * l)) :=
      add_nonneg ht0 (mul_nonneg (by linarith) (div_nonneg (by linarith) (by linarith)))
    cases last
    · exact ⟨_, rfl, ⟨sc, h.stop, _, tr', rfl⟩⟩
    · exact ⟨_, rfl, ⟨sc, sc, _, tr', rfl⟩⟩
  · simp only [hc, decide_false, Bool.false_eq_true, if_false]
    cases last
    · exact ⟨_, rfl, h⟩
    · exact ⟨_, rfl, ⟨h.cursor, h.cursor, h.travel⟩⟩

theorem lazyLoop_defined (hb : ∀ t : ℝ, ∃ v, o.getStackedPositionAtMod (some t) mods = .ok v ∧ Somewhere v)
    (he : ∃ t : ℝ, o.base.endTime = some t) {l : List (TickPoint (Option ℝ))} (hp : ∀ p ∈ l, ∃ t : ℝ, p.time = some t)
    {st : LazyState (Option ℝ)} (h : LazyDefined st) :
    ∃ st', lazyLoop o mods (some k) l st = .ok st' ∧ LazyDefined st' := by
  induction l generalizing st with
  | nil => exact ⟨st, rfl, h⟩
  | cons p l ih =>
    cases l with
    | nil => exact lazyStep_defined hb he (hp p List.mem_cons_self) true h
    | cons q l =>
      obtain ⟨st1, e1, h1⟩ := lazyStep_defined (k := k) hb he (hp p List.mem_cons_self) false h
      obtain ⟨st2, e2, h2⟩ := ih (fun p hp' => hp p (List.mem_cons_of_mem _ hp')) h1
      refine ⟨st2, ?_, h2⟩
      rw [lazyLoop, e1, ok_bind, e2]
      simp

/-- Following a slider that can be followed gives defined values. -/
theorem lazy_defined {d : Difficulty (Option ℝ)} {c : ℝ} (hc : d.circleRadius = some c) (hc0 : 0 < c)
    (ht : ∃ t : ℝ, o.base.startTime = some t) (hh : Somewhere (o.base.getStackedStartPositionMod d.mods))
    (h : Followable d.mods o s) :
    ∃ q : Slide, 0 ≤ q.length ∧ newLazySlider o s d = .ok ⟨⟨some q.cursor.re, some q.cursor.im⟩, some q.length, some q.duration⟩ := by
  obtain ⟨t, ht⟩ := ht
  have hlast : ∃ p, index s.scorePoints ((s.scorePoints.length : Int) - 1) = .ok p ∧ p ∈ s.scorePoints := by
    have hpos : 0 < s.scorePoints.length := List.length_pos_iff.mpr h.points
    unfold index
    rw [if_neg (by omega), show ((s.scorePoints.length : Int) - 1).toNat = s.scorePoints.length - 1 by omega,
      List.getElem?_eq_getElem (by omega)]
    exact ⟨_, rfl, List.getElem_mem _⟩
  obtain ⟨p, ep, mp⟩ := hlast
  obtain ⟨u, eu⟩ := h.times p mp
  obtain ⟨v, ev, sv⟩ := h.ball (u - t + t)
  have h50 : (lit 50 : Option ℝ) = some 50 := by rw [Exact.lit]; norm_num
  have h0 : (lit 0 : Option ℝ) = some 0 := by rw [Exact.lit]; norm_num
  obtain ⟨st, es, hs⟩ := lazyLoop_defined (k := 50 / c) (st := ⟨o.base.getStackedStartPositionMod d.mods, v, some 0⟩) h.ball h.stop h.times
    ⟨hh, sv, 0, le_rfl, rfl⟩
  obtain ⟨a, b, eab⟩ := hs.stop
  obtain ⟨l, hl0, el⟩ := hs.travel
  have hb : ∃ m : ℝ, 0 ≤ m ∧ GoLibm.pow (lit 1 +. ofInt (s.repeatCount - 1) /. lit 2.5) (lit (1 / 2.5) : Option ℝ) = some m := by
    rw [Exact.ofInt, Exact.lit 2.5, Exact.div _ (by norm_num), Exact.lit 1, Exact.add, Exact.lit, Exact.pow]
    refine ⟨_, Real.rpow_nonneg ?_ _, rfl⟩
    have : (0 : ℝ) ≤ s.repeatCount := by exact_mod_cast h.repeats
    push_cast
    have : (-1 : ℝ) / (5 / 2) ≤ (s.repeatCount - 1) / (5 / 2) := div_le_div_of_nonneg_right (by linarith) (by norm_num)
    norm_num at this ⊢
    linarith
  obtain ⟨m, hm0, em⟩ := hb
  refine ⟨⟨⟨a, b⟩, l * m, u - t⟩, mul_nonneg hl0 hm0, ?_⟩
  unfold newLazySlider
  rw [ep, ok_bind, eu, ht, Exact.sub]
  dsimp only
  rw [Exact.add, ev, ok_bind, hc, h50, Exact.div _ hc0.ne', h0, es, ok_bind, em, eab, el]
  rfl

/-- The note that an object is shown as. -/
noncomputable def noteOf (d : Difficulty (Option ℝ)) (o : Obj (Option ℝ) (Option ℝ)) : Note where
  time := o.base.startTime.getD 0
  spinner := o.isSpinner
  head := ⟨(o.base.getStackedStartPositionMod d.mods).x.getD 0, (o.base.getStackedStartPositionMod d.mods).y.getD 0⟩
  tail := ⟨(o.base.getStackedEndPositionMod d.mods).x.getD 0, (o.base.getStackedEndPositionMod d.mods).y.getD 0⟩
  slide := match o.kind with
    | .slider s => match newLazySlider o s d with
      | .ok l => some ⟨⟨l.endPosition.x.getD 0, l.endPosition.y.getD 0⟩, l.travelDistance.getD 0, l.travelTime.getD 0⟩
      | .error _ => none
    | _ => none

/-- The notes that a map is shown as; the last one is repeated. -/
noncomputable def notesOf (d : Difficulty (Option ℝ)) (objs : List (Obj (Option ℝ) (Option ℝ))) (i : ℕ) : Note :=
  match objs[min i (objs.length - 1)]? with
  | some o => noteOf d o
  | none => ⟨0, false, 0, 0, none⟩

theorem notesOf_get {d : Difficulty (Option ℝ)} {objs : List (Obj (Option ℝ) (Option ℝ))} {i : ℕ} {o : Obj (Option ℝ) (Option ℝ)}
    (h : objs[i]? = some o) : notesOf d objs i = noteOf d o := by
  have := (List.getElem?_eq_some_iff.mp h).1
  unfold notesOf
  rw [min_eq_left (by omega), h]

theorem notesOf_mem (d : Difficulty (Option ℝ)) {objs : List (Obj (Option ℝ) (Option ℝ))} (h : objs ≠ []) (i : ℕ) :
    ∃ o, objs[min i (objs.length - 1)]? = some o ∧ o ∈ objs ∧ notesOf d objs i = noteOf d o := by
  have hpos : 0 < objs.length := List.length_pos_iff.mpr h
  have hlt : min i (objs.length - 1) < objs.length := by omega
  refine ⟨objs[min i (objs.length - 1)], List.getElem?_eq_getElem hlt, List.getElem_mem _, ?_⟩
  unfold notesOf
  rw [List.getElem?_eq_getElem hlt]

/-- Maps without undefined times and positions are shown as notes. -/
theorem visible_shows {d : Difficulty (Option ℝ)} {c : ℝ} (hc : d.circleRadius = some c) (hc0 : 0 < c)
    {objs : List (Obj (Option ℝ) (Option ℝ))} (hne : objs ≠ []) (h : Visible d.mods objs) : Shows d (notesOf d objs) objs := by
  have slide : ∀ o ∈ objs, ∀ s, o.kind = .slider s → ∃ q : Slide, (noteOf d o).slide = some q ∧ 0 ≤ q.length ∧
      newLazySlider o s d = .ok ⟨⟨some q.cursor.re, some q.cursor.im⟩, some q.length, some q.duration⟩ := by
    intro o ho s hk
    obtain ⟨q, hq, e⟩ := lazy_defined hc hc0 (h.time o ho) (h.head o ho) (h.slider o ho s hk)
    refine ⟨q, ?_, hq, e⟩
    simp only [noteOf, hk, e, Option.getD_some]
  refine { sorted := ?_, spinner := ?_, length := ?_, time := ?_, spins := ?_, head := ?_, tail := ?_, slider := ?_, other := ?_ }
  · intro i j hij
    obtain ⟨o, ho, mo, eo⟩ := notesOf_mem d hne i
    obtain ⟨o', ho', mo', eo'⟩ := notesOf_mem d hne j
    obtain ⟨s, hs⟩ := h.time o mo
    obtain ⟨t, ht⟩ := h.time o' mo'
    have := h.sorted _ _ o o' s t (by omega) ho ho' hs ht
    rw [eo, eo']
    simpa only [noteOf, hs, ht, Option.getD_some] using this
  · intro i hi
    obtain ⟨o, ho, mo, eo⟩ := notesOf_mem d hne i
    rw [eo] at hi ⊢
    simp only [noteOf, Obj.isSpinner] at hi ⊢
    cases hk : o.kind with
    | slider s => rw [hk] at hi; simp at hi
    | circle => rfl
    | spinner => rfl
  · intro i s hi
    obtain ⟨o, ho, mo, eo⟩ := notesOf_mem d hne i
    rw [eo] at hi
    cases hk : o.kind with
    | slider s' =>
      obtain ⟨q, e, hq, -⟩ := slide o mo s' hk
      rw [hi] at e
      cases e
      exact hq
    | circle => simp [noteOf, hk] at hi
    | spinner => simp [noteOf, hk] at hi
  · intro i o ho
    obtain ⟨t, ht⟩ := h.time o (List.mem_of_getElem? ho)
    rw [notesOf_get ho, ht]
    simp [noteOf, ht]
  · intro i o ho
    rw [notesOf_get ho]
    rfl
  · intro i o ho
    obtain ⟨u, v, e⟩ := h.head o (List.mem_of_getElem? ho)
    rw [notesOf_get ho, e]
    simp [noteOf, e]
  · intro i o ho
    obtain ⟨u, v, e⟩ := h.tail o (List.mem_of_getElem? ho)
    rw [notesOf_get ho, e]
    simp [noteOf, e]
  · intro i o s ho hk
    obtain ⟨q, e, -, e'⟩ := slide o (List.mem_of_getElem? ho) s hk
    rw [notesOf_get ho]
    exact ⟨q, e, e'⟩
  · intro i o ho hk
    rw [notesOf_get ho]
    cases hk' : o.kind with
    | slider s => exact absurd hk' (hk s)
    | circle => simp [noteOf, hk']
    | spinner => simp [noteOf, hk']

end GosuPP.Exactly
