import Verif.Spec.PointOrder
import Verif.Lemmas.LineOrder
import Verif.Lemmas.Parser

/-! The order of the lines of the timing points. -/

namespace GosuPP
open Go Spec

section
variable {S D : Type} [GoFloat S] [GoFloat D] [GoConv S D]

/-- The timing point made of the fields of a line. -/
def pointFrom (line : List Str) : ControlPoint D :=
  ⟨ofInt (parseInt (line[0]?.getD [])), parseFloat (line[1]?.getD []), parseFloat (line[1]?.getD []),
    (match line[3]? with | some s => parseInt s | none => 0), (match line[4]? with | some s => parseInt s | none => 1),
    (match line[5]? with | some s => ofInt (parseInt s) /. lit 100 | none => lit 1),
    (match line[2]? with | some s => if parseInt s = 0 then 4 else parseInt s | none => 4),
    (match line[6]? with | some s => decide (parseInt s = 0) | none => false),
    (match line[7]? with | some s => intBit (parseInt s) 0 | none => false),
    (match line[7]? with | some s => intBit (parseInt s) 3 | none => false)⟩

/-- The timing point on a line. -/
def pointOn (l : Str) : Option (ControlPoint D) := (fields l).map fun _ => pointFrom (split ',' l)

/-- The map after a timing point. -/
def withPoint (st : ParseState S D) (p : ControlPoint D) : ParseState S D :=
  { st with
    beatMap := { st.beatMap.updateBPM p.beatLength with
      timings := { st.beatMap.timings with points := st.beatMap.timings.points ++ [p] } }
    counter := st.counter + 1 }

theorem updateBPM_timings (b : BeatMap S D) (x : D) : (b.updateBPM x).timings = b.timings := by
  unfold BeatMap.updateBPM
  split <;> rfl

theorem parsePoint_from {l : Str} (h : 1 < (split ',' l).length) (b : BeatMap S D) :
    b.parsePoint l = .ok { b.updateBPM (pointFrom (D := D) (split ',' l)).beatLength with
      timings := { b.timings with points := b.timings.points ++ [pointFrom (split ',' l)] } } := by
  unfold BeatMap.parsePoint pointFrom
  generalize split ',' l = line at h ⊢
  obtain _ | ⟨x, _ | ⟨y, rest⟩⟩ := line
  · simp at h
  · simp at h
  · show Except.ok _ = Except.ok _
    congr 1
    dsimp only [Timings.addPoint]
    rw [updateBPM_timings]
    rfl

variable [GoLibm D]

theorem timing_step (fuel : ℕ) (l : Str) (st : ParseState S D) : parseInSection fuel Sec.timing.name l st =
    .ok (match pointOn l with | some p => withPoint st p | none => st) := by
  show parseInSection fuel "TimingPoints".toList l st = _
  unfold parseInSection
  rw [if_neg (by decide), if_neg (by decide), if_neg (by decide), if_neg (by decide), if_pos rfl, tokenize_eq]
  unfold pointOn
  cases hf : fields l with
  | none => rfl
  | some arr =>
    have h1 := fields_length hf
    have h2 : 1 < (split ',' l).length := by
      unfold fields at hf
      split_ifs at hf
      cases hf
      simpa using h1
    dsimp only
    rw [if_pos h1, parsePoint_from h2]
    rfl

theorem timing_run (fuel : ℕ) : ∀ (ls : List Str) (st : ParseState S D),
    Sec.run fuel .timing ls st = .ok ((ls.filterMap pointOn).foldl withPoint st)
  | [], st => rfl
  | l :: ls, st => by
    rw [Sec.run, timing_step, ok_bind, timing_run fuel ls, List.filterMap_cons]
    cases pointOn (D := D) l <;> rfl

omit [GoLibm D] in
theorem withPoints (ps : List (ControlPoint D)) (st : ParseState S D) :
    (ps.foldl withPoint st).counter = st.counter + ps.length ∧
    (ps.foldl withPoint st).beatMap.timings = { st.beatMap.timings with points := st.beatMap.timings.points ++ ps } := by
  induction ps generalizing st with
  | nil => exact ⟨by simp, by simp⟩
  | cons p ps ih =>
    rw [List.foldl_cons, (ih _).1, (ih _).2]
    constructor
    · show st.counter + 1 + _ = _
      rw [List.length_cons]
      push_cast
      ring
    · show ({ st.beatMap.timings with points := (st.beatMap.timings.points ++ [p]) ++ ps } : Timings D) = _
      rw [List.append_assoc]
      rfl

/-- The timing points before they are sorted. -/
theorem points_on {fuel : ℕ} {lines : List Str} {st : ParseState S D} (h : parseLines fuel lines ParseState.init = .ok st) :
    st.beatMap.timings.points = (pointLines lines).filterMap pointOn ∧ st.beatMap.timings.originalPoints = [] ∧
    st.counter = ((pointLines lines).filterMap (pointOn (D := D))).length := by
  have r := (Sec.parts fuel lines (ParseState.init : ParseState S D)).1 st h .timing
  rw [timing_run] at r
  have r := (Except.ok.inj r).symm
  have e := withPoints (((Sec.lines .timing (ParseState.init : ParseState S D).currentSection lines)).filterMap pointOn)
    (Sec.only .timing (ParseState.init : ParseState S D))
  rw [← r] at e
  have e2 := congrArg Timings.points e.2
  have e3 := congrArg Timings.originalPoints e.2
  refine ⟨e2.trans (List.nil_append _), e3, ?_⟩
  have e1 : st.counter = 0 + _ := e.1
  rw [e1]
  simp
  rfl

end

section
variable [GoLibm F64]

/-- The states after reordered files differ in the order of the timing points and in the bounds of the tempo only. -/
theorem points_lines {fuel : ℕ} {a b : List Str} (h : PointsReordered a b) {st : ParseState F32 F64}
    (ha : parseLines fuel a ParseState.init = .ok st) :
    ∃ st' : ParseState F32 F64, parseLines fuel b ParseState.init = .ok st' ∧ st'.counter = st.counter ∧
      st'.beatMap = { st.beatMap with
        minBPM := st'.beatMap.minBPM
        maxBPM := st'.beatMap.maxBPM
        timings := { st.beatMap.timings with points := st'.beatMap.timings.points } } := by
  have e : ∀ i : Sec, i ≠ .timing → i.lines (ParseState.init : ParseState F32 F64).currentSection a =
      i.lines (ParseState.init : ParseState F32 F64).currentSection b := by
    intro i hi
    refine h.others i.name i.name_known ?_
    cases i <;> first | decide | exact absurd rfl hi
  have ra := (Sec.parts fuel a (ParseState.init : ParseState F32 F64)).1 st ha
  obtain ⟨st', hb⟩ := (Sec.parts fuel b (ParseState.init : ParseState F32 F64)).2 fun i => by
    by_cases hi : i = .timing
    · subst hi
      exact ⟨_, timing_run ..⟩
    · exact ⟨_, by rw [← e i hi]; exact ra i⟩
  have rb := (Sec.parts fuel b (ParseState.init : ParseState F32 F64)).1 st' hb
  obtain ⟨a1, a2, a3⟩ := points_on ha
  obtain ⟨b1, b2, b3⟩ := points_on hb
  have hc : st'.counter = st.counter := by rw [a3, b3, (h.same.filterMap _).length_eq]
  have key := Sec.joined (a := { st' with beatMap := { st'.beatMap with
      minBPM := st.beatMap.minBPM
      maxBPM := st.beatMap.maxBPM
      timings := { st'.beatMap.timings with points := st.beatMap.timings.points } } }) (b := st) (fun i => ?_) ?_
  · refine ⟨st', hb, hc, ?_⟩
    rw [← key.1]
  · by_cases hi : i = .timing
    · subst hi
      unfold Sec.only Sec.part
      dsimp only
      rw [a2, b2, hc]
    · have := rb i
      rw [← e i hi, ra i] at this
      have := (Except.ok.inj this).symm
      rw [← this]
      cases i <;> first | rfl | exact absurd rfl hi
  · show st'.beatMap.fileVersion = _
    rw [Sec.version ha, Sec.version hb, h.format]

theorem pointOn_time {l : Str} {p : ControlPoint F64} (h : pointOn l = some p) : pointTime l = some p.time ∧ p.time ≠ .nan := by
  unfold pointOn at h
  unfold pointTime
  cases hf : fields l with
  | none => rw [hf] at h; cases h
  | some r =>
    rw [hf] at h
    cases h
    refine ⟨rfl, fun hc => ?_⟩
    have := Fl.ofInt_nn (f := fmt64) (parseInt ((split ',' l)[0]?.getD []))
    rw [show (GoFloat.ofInt (parseInt ((split ',' l)[0]?.getD [])) : F64) = .nan from hc] at this
    exact absurd this (by decide)

theorem points_at {ls : List Str} {t : F64} (ht : t ≠ .nan) :
    (ls.filterMap (pointOn (D := F64))).filter (fun b => !(t <. b.time) && !(b.time <. t)) =
      (ls.filter (pointAtTime t)).filterMap pointOn := by
  induction ls with
  | nil => rfl
  | cons l ls ih =>
    rw [List.filterMap_cons, List.filter_cons]
    cases ho : pointOn (D := F64) l with
    | none =>
      dsimp only
      rw [ih]
      split_ifs
      · rw [List.filterMap_cons, ho]
      · rfl
    | some x =>
      obtain ⟨hx, hxn⟩ := pointOn_time ho
      have hg : pointAtTime t l = (!(t <. x.time) && !(x.time <. t)) := by
        unfold pointAtTime
        rw [hx]
        exact equal_times ht hxn
      dsimp only
      rw [List.filter_cons, hg, ih]
      split_ifs
      · rw [List.filterMap_cons, ho]
      · rfl

theorem points_sorted [GoSort] {fuel : ℕ} {a b : List Str} (h : PointsReordered a b) {st st' : ParseState F32 F64}
    (ha : parseLines fuel a ParseState.init = .ok st) (hb : parseLines fuel b ParseState.init = .ok st') :
    GoSort.stable (fun x y : ControlPoint F64 => x.time <. y.time) st'.beatMap.timings.points =
      GoSort.stable (fun x y : ControlPoint F64 => x.time <. y.time) st.beatMap.timings.points := by
  rw [(points_on ha).1, (points_on hb).1]
  have key : ∀ ls : List Str, ∀ o ∈ ls.filterMap (pointOn (D := F64)), o.time ≠ .nan := by
    intro ls o ho
    obtain ⟨l, h1, h2⟩ := List.mem_filterMap.mp ho
    exact (pointOn_time h2).2
  have weak : ∀ l : List (ControlPoint F64), (∀ o ∈ l, o.time ≠ .nan) →
      StrictWeak (fun x y : ControlPoint F64 => x.time <. y.time) l := fun l hn =>
    ⟨fun a _ => Fl.lt_irrefl _, fun a _ b _ c _ h1 h2 => Fl.lt_trans h1 h2,
      fun a ha b hb c hc h1 h2 => by
        have g1 := Fl.le_of_not_lt (hn b hb) (hn a ha) h1
        have g2 := Fl.le_of_not_lt (hn c hc) (hn b hb) h2
        exact Fl.not_lt_of_le (Fl.le_trans g2 g1)⟩
  have ka := key (pointLines a)
  have kb := key (pointLines b)
  have pa := GoSort.stable_perm (fun x y : ControlPoint F64 => x.time <. y.time) ((pointLines a).filterMap pointOn)
  have pb := GoSort.stable_perm (fun x y : ControlPoint F64 => x.time <. y.time) ((pointLines b).filterMap pointOn)
  have pab := h.same.filterMap (pointOn (D := F64))
  refine sorted_unique (lt := fun x y : ControlPoint F64 => x.time <. y.time) ((pb.trans pab.symm).trans pa.symm)
    ((weak _ kb).mono fun x hx => pb.mem_iff.mp hx) (GoSort.stable_sorted _ _ (weak _ kb)) (GoSort.stable_sorted _ _ (weak _ ka)) ?_
  intro x hx
  have hxb := pb.mem_iff.mp hx
  have hxa := pab.mem_iff.mpr hxb
  rw [GoSort.stable_stable _ _ (weak _ kb) x hxb, GoSort.stable_stable _ _ (weak _ ka) x hxa, points_at (ka x hxa), points_at (ka x hxa), h.order]

theorem Spec.PointsReordered.symm {a b : List Str} (h : PointsReordered a b) : PointsReordered b a :=
  ⟨fun s h1 h2 => (h.others s h1 h2).symm, h.format.symm, h.same.symm, fun t => (h.order t).symm⟩

end

end GosuPP
