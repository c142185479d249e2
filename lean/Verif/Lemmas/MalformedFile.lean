import Verif.Lemmas.Malformed
import Verif.Lemmas.Timing

/-! Which files cannot be read. -/

namespace GosuPP
open Go
variable {S D : Type} [GoFloat S] [GoFloat D] [GoConv S D]

section
variable [GoLibm D]

/-- One line, in terms of the section it is in. -/
theorem parseLine_section {fuel : Nat} {st st' : ParseState S D} {line : Str}
    (h : parseLine fuel st line = .ok st') :
    st'.currentSection = (Spec.header line).getD st.currentSection := by
  rw [parseLine_eq] at h
  cases hh : Spec.header line with
  | some s => rw [hh] at h; cases h; rfl
  | none =>
    rw [hh] at h
    have hs := parseInSection_step h
    cases hs <;> rename_i e <;> subst_vars <;> rfl

/-- If reading the lines panics, one of them is to blame. -/
theorem parseLines_panic {fuel : Nat} {lines : List Str} {st : ParseState S D}
    (h : parseLines fuel lines st = .error .panic) :
    ∃ p ∈ Spec.sectioned st.currentSection lines, Bad p ∨ SliderLine Spec.BadEdges p ∨ SliderLine Spec.ArcRecord p := by
  induction lines generalizing st with
  | nil => cases h
  | cons l ls ih =>
    rw [parseLines] at h
    rw [Spec.sectioned]
    cases hp : parseLine fuel st l with
    | error e =>
      rw [hp] at h
      cases h
      rw [parseLine_eq] at hp
      cases hh : Spec.header l with
      | some s => rw [hh] at hp; cases hp
      | none =>
        rw [hh] at hp
        refine ⟨_, List.mem_cons_self .., ?_⟩
        rcases parseInSection_cases fuel st.currentSection l { st with beatMap := parseFormat l st.beatMap } with
          ⟨e1, -⟩ | ⟨-, ⟨e, e2, e3, -⟩ | ⟨e2, -⟩ | ⟨-, st', e3, -⟩⟩
        · exact .inl e1
        · rw [show parseInSection fuel st.currentSection l _ = .error .panic from hp] at e2
          cases e2
          exact .inr (.inr (e3 rfl))
        · exact .inr (.inl e2)
        · rw [show parseInSection fuel st.currentSection l _ = .error .panic from hp] at e3
          cases e3
    | ok st' =>
      rw [hp] at h
      obtain ⟨p, h1, h2⟩ := ih h
      have hs := parseLine_section hp
      rw [hs] at h1
      refine ⟨p, ?_, h2⟩
      cases hh : Spec.header l with
      | some s => rw [hh] at h1; exact h1
      | none => rw [hh] at h1; exact List.mem_cons_of_mem _ h1

/-- A bad line cannot be read. -/
theorem parseLine_bad (fuel : Nat) (st : ParseState S D) {l : Str} (hh : Spec.header l = none) :
    (Bad (st.currentSection, l) → parseLine fuel st l = .error .panic) ∧
    (SliderLine Spec.BadEdges (st.currentSection, l) → ∃ e, parseLine fuel st l = .error e) ∧
    (SliderLine (fun f => Spec.BadEdges f ∧ (Spec.path f)[0]? ≠ some ['P'] ∧ (Spec.path f)[0]? ≠ some ['B'])
        (st.currentSection, l) → parseLine fuel st l = .error .panic) := by
  have he : parseLine fuel st l = parseInSection fuel st.currentSection l
      { st with beatMap := parseFormat l st.beatMap } := by
    rw [parseLine_eq, hh]
  rw [he]
  rcases parseInSection_cases fuel st.currentSection l { st with beatMap := parseFormat l st.beatMap } with
    ⟨-, e2⟩ | ⟨e1, ⟨e, e2, -, e4⟩ | ⟨-, e2⟩ | ⟨e2, -⟩⟩
  · exact ⟨fun _ => e2, fun _ => ⟨_, e2⟩, fun _ => e2⟩
  · refine ⟨fun h => absurd h e1, fun _ => ⟨_, e2⟩, ?_⟩
    rintro ⟨f, hf, -, -, h1, h2⟩
    obtain ⟨f', hf', -, -, h⟩ := e4
    have : f = f' := Option.some.inj (hf.symm.trans hf')
    subst this
    rcases h with h | h
    · exact absurd h h1
    · exact absurd h h2
  · exact ⟨fun h => absurd h e1, fun _ => ⟨_, e2⟩, fun _ => e2⟩
  · refine ⟨fun h => absurd h e1, fun h => absurd h e2, ?_⟩
    rintro ⟨f, hf, hs, h, -⟩
    exact absurd ⟨f, hf, hs, h⟩ e2

/-- A file with a bad line cannot be read. -/
theorem parseLines_bad {fuel : Nat} {lines : List Str} {st : ParseState S D} {p : Str × Str}
    (hp : p ∈ Spec.sectioned st.currentSection lines) (hb : Bad p ∨ SliderLine Spec.BadEdges p) :
    ∃ e, parseLines fuel lines st = .error e := by
  induction lines generalizing st with
  | nil => cases hp
  | cons l ls ih =>
    rw [parseLines]
    rw [Spec.sectioned] at hp
    cases hl : parseLine fuel st l with
    | error e => exact ⟨e, rfl⟩
    | ok st' =>
      have hs := parseLine_section hl
      cases hh : Spec.header l with
      | some s =>
        rw [hh] at hp hs
        exact ih (by rw [hs]; exact hp)
      | none =>
        rw [hh] at hp hs
        rcases List.mem_cons.mp hp with rfl | hp
        · obtain ⟨h1, h2, -⟩ := parseLine_bad fuel st hh
          rcases hb with hb | hb
          · rw [h1 hb] at hl; cases hl
          · obtain ⟨e, he⟩ := h2 hb
            rw [he] at hl; cases hl
        · exact ih (by rw [hs]; exact hp)

/-- Without arcs and Bézier curves, reading the lines stops at the first bad line and only there. -/
theorem parseLines_plain {fuel : Nat} {lines : List Str} {st : ParseState S D}
    (hc : ∀ p ∈ Spec.sectioned st.currentSection lines, ¬ SliderLine Spec.CurveRecord p) :
    (∃ st', parseLines fuel lines st = .ok st') ∨ parseLines fuel lines st = .error .panic := by
  induction lines generalizing st with
  | nil => exact .inl ⟨_, rfl⟩
  | cons l ls ih =>
    rw [parseLines]
    rw [Spec.sectioned] at hc
    cases hl : parseLine fuel st l with
    | error e =>
      refine .inr ?_
      rw [parseLine_eq] at hl
      cases hh : Spec.header l with
      | some s => rw [hh] at hl; cases hl
      | none =>
        rw [hh] at hl hc
        rcases parseInSection_cases fuel st.currentSection l { st with beatMap := parseFormat l st.beatMap } with
          ⟨-, e1⟩ | ⟨-, ⟨e', -, -, e3⟩ | ⟨-, e1⟩ | ⟨-, st', e3, -⟩⟩
        · rw [show parseInSection fuel st.currentSection l _ = .error e from hl] at e1
          cases e1; rfl
        · exact absurd e3 (hc _ (List.mem_cons_self ..))
        · rw [show parseInSection fuel st.currentSection l _ = .error e from hl] at e1
          cases e1; rfl
        · rw [show parseInSection fuel st.currentSection l _ = .error e from hl] at e3
          cases e3
    | ok st' =>
      have hs := parseLine_section hl
      refine ih (st := st') ?_
      rw [hs]
      cases hh : Spec.header l with
      | some s => rw [hh] at hc; exact hc
      | none => rw [hh] at hc; exact fun p hp => hc p (List.mem_cons_of_mem _ hp)

/-- Bad lines, as records. -/
theorem malformed_iff (lines : List Str) :
    Spec.Malformed lines ↔ ∃ p ∈ Spec.sectioned [] lines, Bad p ∨ SliderLine Spec.BadEdges p := by
  have hrec : ∀ sec f, f ∈ Spec.records sec lines ↔
      ∃ p ∈ Spec.sectioned [] lines, p.1 = sec.toList ∧ Spec.fields p.2 = some f := by
    intro sec f
    simp only [Spec.records, List.mem_filterMap, Spec.recordFor]
    refine exists_congr fun p => and_congr_right fun _ => ?_
    by_cases h : p.1 = sec.toList <;> simp [h]
  unfold Spec.Malformed Bad SliderLine
  simp only [hrec]
  constructor
  · rintro (⟨f, ⟨p, h1, h2, h3⟩, h4⟩ | ⟨f, ⟨p, h1, h2, h3⟩, h4 | h4⟩)
    · exact ⟨p, h1, .inl ⟨f, h3, .inl ⟨h2, h4⟩⟩⟩
    · exact ⟨p, h1, .inl ⟨f, h3, .inr ⟨h2, h4⟩⟩⟩
    · exact ⟨p, h1, .inr ⟨f, h3, h2, h4⟩⟩
  · rintro ⟨p, h1, ⟨f, h3, ⟨h2, h4⟩ | ⟨h2, h4⟩⟩ | ⟨f, h3, h2, h4⟩⟩
    · exact .inl ⟨f, ⟨p, h1, h2, h3⟩, h4⟩
    · exact .inr ⟨f, ⟨p, h1, h2, h3⟩, .inl h4⟩
    · exact .inr ⟨f, ⟨p, h1, h2, h3⟩, .inr h4⟩

theorem sliderLine_iff (P : List Str → Prop) (lines : List Str) :
    (∃ f ∈ Spec.records "HitObjects" lines, P f) ↔ ∃ p ∈ Spec.sectioned [] lines, SliderLine P p := by
  constructor
  · rintro ⟨f, hf, h⟩
    obtain ⟨p, hp, hr⟩ := List.mem_filterMap.mp hf
    unfold Spec.recordFor at hr
    split at hr
    · rename_i hs; exact ⟨p, hp, f, hr, hs, h⟩
    · cases hr
  · rintro ⟨p, hp, f, hf, hs, h⟩
    refine ⟨f, List.mem_filterMap.mpr ⟨p, hp, ?_⟩, h⟩
    unfold Spec.recordFor
    rw [if_pos hs, hf]

/-! ### The end of parsing does not panic -/

/-- Every timing point record adds a point. -/
theorem parseLines_points {fuel : Nat} {lines : List Str} {st : ParseState S D}
    (h : parseLines fuel lines ParseState.init = .ok st) :
    st.beatMap.timings.points.length = st.counter := by
  have hfold := parseLines_fold (S := S) (D := D) (fun b n => (b.timings.points.length : Int) - n) (fun a _ => a)
    (by
      intro line b n
      obtain ⟨v, hv⟩ := parseFormat_frame line b
      rw [hv])
    (by
      intro s line st st' hs
      cases hs with
      | general k v hs hk e =>
        subst e
        obtain ⟨_, _, _, _, h⟩ := parseGeneral_frame k v st.beatMap
        simp only [h]
      | metadata k v hs hk e =>
        subst e
        obtain ⟨_, _, _, _, _, _, _, _, _, _, h⟩ := parseMetadata_frame k v st.beatMap
        simp only [h]
      | difficulty k v hs hk e =>
        subst e
        obtain ⟨_, _, _, _, _, h⟩ := parseDifficulty_frame k v st.beatMap
        simp only [h]
      | events arr b hs hk hb e =>
        subst e
        obtain ⟨_, _, h⟩ := parseEvents_ok hb
        simp only [h]
      | timing arr b hs hk hb e =>
        subst e
        obtain ⟨_, _, _, -, -, -, -, -, h⟩ := parsePoint_ok hb
        simp only [h, List.length_append, List.length_singleton]
        push_cast
        omega
      | hit arr b hs hk hb e =>
        subst e
        obtain ⟨_, _, _, _, _, h⟩ := parseHitObjectLine_frame hb
        simp only [h]
      | inert e _ hr => subst e; rfl) h
  have hid : ∀ (l : List (Str × Str)) (a : Int), l.foldl (fun a _ => a) a = a := by
    intro l
    induction l with
    | nil => intro a; rfl
    | cons x l ih => intro a; exact ih a
  rw [hid] at hfold
  have : ((ParseState.init (S := S) (D := D)).beatMap.timings.points.length : Int) -
    (ParseState.init (S := S) (D := D)).counter = 0 := rfl
  rw [this] at hfold
  omega

end

variable [GoSort]

omit [GoSort] in
theorem finalizeLoop_len (last : Option (ControlPoint D)) (ps : List (ControlPoint D)) :
    (Timings.finalizeLoop last ps).1.length = ps.length := by
  induction ps generalizing last with
  | nil => rfl
  | cons p ps ih =>
    unfold Timings.finalizeLoop
    split
    · simp only [List.length_cons, ih]
    · simp only [List.length_cons, ih]

omit [GoSort] in
theorem bind_ne_panic {α β : Type} {x : Result α} {f : α → Result β} (hx : x ≠ .error .panic)
    (hf : ∀ a, x = .ok a → f a ≠ .error .panic) : (x >>= f) ≠ .error .panic := by
  cases x with
  | ok a => exact hf a rfl
  | error e =>
    intro h
    have h : (Except.error e : Result β) = .error .panic := h
    cases h
    exact hx rfl

omit [GoSort] in
theorem getPointAt_some {t : Timings D} (h : t.points ≠ []) (x : D) : ∃ p, t.getPointAt x = .ok p := by
  unfold Timings.getPointAt Timings.pointAt
  simp only
  generalize hs : search t.points.length _ = idx
  have hle : idx ≤ t.points.length := by rw [← hs]; exact search_le _ _
  have hpos : 0 < t.points.length := List.length_pos_of_ne_nil h
  obtain ⟨v, -, hv⟩ := index_of_lt t.points (i := maxI 0 ((idx : Int) - 1))
    (by unfold maxI; split <;> omega) (by unfold maxI; split <;> omega)
  exact ⟨v, hv⟩

omit [GoSort] in
theorem tickLoop_no_panic (td c m ss sd : D) (r n : Bool) (fuel : Nat) (d : D) :
    Slider.tickLoop td c m ss sd r n fuel d ≠ .error .panic := by
  induction fuel generalizing d with
  | zero => exact fun h => by cases h
  | succ fuel ih =>
    rw [Slider.tickLoop]
    split
    · split
      · exact fun h => by cases h
      · simp only
        have := ih (d +. td)
        generalize Slider.tickLoop td c m ss sd r n fuel (d +. td) = q at this
        cases q with
        | ok x => exact fun h => by cases h
        | error e => cases e <;> first | exact absurd rfl this | exact fun h => by cases h
    · exact fun h => by cases h

omit [GoSort] in
theorem spanTicks_no_panic (a : Slider.SpanArgs D) (fuel : Nat) (span : Int) :
    Slider.spanTicks a fuel span ≠ .error .panic := by
  unfold Slider.spanTicks
  exact bind_ne_panic (tickLoop_no_panic _ _ _ _ _ _ _ _ _) (fun _ _ h => by cases h)

omit [GoSort] in
theorem spanLoop_no_panic (a : Slider.SpanArgs D) (fuel k : Nat) (span : Int) :
    Slider.spanLoop a fuel k span ≠ .error .panic := by
  induction k generalizing span with
  | zero => exact fun h => by cases h
  | succ k ih =>
    rw [Slider.spanLoop]
    exact bind_ne_panic (spanTicks_no_panic _ _ _) (fun _ _ =>
      bind_ne_panic (ih _) (fun _ _ h => by cases h))

theorem setTiming_no_panic {fuel : Nat} {t : Timings D} (ht : t.points ≠ []) {o : Obj S D} (ho : ShapedObj o) :
    o.setTiming fuel t ≠ .error .panic := by
  unfold Obj.setTiming
  split
  · rename_i s hk
    unfold Slider.setTiming
    obtain ⟨p, hp⟩ := getPointAt_some ht o.base.startTime
    simp only [hp, ok_bind]
    refine bind_ne_panic (spanLoop_no_panic _ _ _ _) fun pts _ => bind_ne_panic ?_ (fun _ _ h => by cases h)
    obtain ⟨q, hq⟩ := sliderPositionAt_ok (S := S) (D := D) _ { s with tPoint := p, spanDuration := _, scorePoints := _ } (ho s hk) _
    rw [hq]
    exact fun h => by cases h
  · exact fun h => by cases h

theorem setTimings_no_panic {fuel : Nat} {t : Timings D} (ht : t.points ≠ []) (objs : List (Obj S D))
    (ho : ∀ o ∈ objs, ShapedObj o) : setTimings fuel t objs ≠ .error .panic := by
  induction objs with
  | nil => exact fun h => by cases h
  | cons o rest ih =>
    rw [setTimings]
    exact bind_ne_panic (setTiming_no_panic ht (ho o (List.mem_cons_self ..))) (fun _ _ =>
      bind_ne_panic (ih (fun x hx => ho x (List.mem_cons_of_mem _ hx))) (fun _ _ h => by cases h))

theorem finishParse_no_panic [GoLibm D] {fuel : Nat} {lines : List Str} {st : ParseState S D}
    (h : parseLines fuel lines ParseState.init = .ok st) : finishParse fuel st ≠ .error .panic := by
  unfold finishParse
  simp only
  split
  · exact fun h => by cases h
  · rename_i hc
    have hcnt : st.counter ≠ 0 := fun h => hc (.inr h)
    have hpts := parseLines_points h
    have hne : st.beatMap.timings.finalizePoints.points ≠ [] := by
      intro h0
      have : st.beatMap.timings.finalizePoints.points.length = st.beatMap.timings.points.length := by
        unfold Timings.finalizePoints
        simp only [finalizeLoop_len]
        exact (GoSort.stable_perm _ _).length_eq
      rw [h0, hpts] at this
      exact hcnt this.symm
    have hobj : ∀ o ∈ comboLoop {} (GoSort.stable (fun x y : Obj S D => x.base.startTime <. y.base.startTime)
        st.beatMap.hitObjects), ShapedObj o := by
      intro o ho
      obtain ⟨i, hi⟩ := List.getElem?_of_mem ho
      rw [comboLoop_getElem] at hi
      cases hr : (GoSort.stable (fun x y : Obj S D => x.base.startTime <. y.base.startTime)
          st.beatMap.hitObjects)[i]? with
      | none => rw [hr] at hi; cases hi
      | some x =>
        rw [hr] at hi
        cases hi
        obtain ⟨os, h1, h2, -⟩ := parseLines_objects h
        have hx := (GoSort.stable_perm _ _).mem_iff.mp (List.mem_of_getElem? hr)
        rw [h2] at hx
        have hx : some x ∈ os := by simpa [List.reduceOption] using hx
        obtain ⟨arr, ha, hcr⟩ := mapM_mem h1 hx
        intro s hs
        exact createObject_shaped hcr s hs
    exact bind_ne_panic (setTimings_no_panic hne _ hobj) (fun _ _ h => by cases h)

end GosuPP
