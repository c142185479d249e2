import Verif.Spec.LineOrder
import Verif.Lemmas.ParserSections
import Verif.Lemmas.ParserObjects
import Verif.Lemmas.Sorting
import Verif.Lemmas.Calc
import Verif.Lemmas.IEEE

/-! The order of the lines of the objects. -/

namespace GosuPP
open Go Spec

section
variable {S D : Type} [GoFloat S] [GoFloat D] [GoConv S D] [GoLibm D]

theorem commonParse_time {data : List Str} {h : HitObject S D} (e : commonParse data = .ok h) :
    ∃ s, data[2]? = some s ∧ h.startTime = parseFloat s := by
  unfold commonParse at e
  obtain ⟨_, -, e⟩ := bind_ok e
  obtain ⟨_, -, e⟩ := bind_ok e
  obtain ⟨s, h2, e⟩ := bind_ok e
  obtain ⟨_, -, e⟩ := bind_ok e
  obtain ⟨_, -, e⟩ := bind_ok e
  cases e
  exact ⟨s, index_ok (n := 2) h2, rfl⟩

/-- The time of an object is the third field of its line. -/
theorem created_time {fuel : ℕ} {data : List Str} {x : Obj S D} (e : createObject fuel data = .ok (some x)) :
    ∃ s, data[2]? = some s ∧ x.base.startTime = parseFloat s := by
  unfold createObject at e
  obtain ⟨ty, -, e⟩ := bind_ok e
  dsimp only at e
  split_ifs at e
  · obtain ⟨o, h1, e⟩ := bind_ok e
    cases e
    unfold newCircle at h1
    obtain ⟨b, h2, h1⟩ := bind_ok h1
    cases h1
    obtain ⟨s, h3, h4⟩ := commonParse_time h2
    exact ⟨s, h3, h4⟩
  · obtain ⟨o, h1, e⟩ := bind_ok e
    cases e
    unfold newSpinner at h1
    obtain ⟨b, h2, h1⟩ := bind_ok h1
    obtain ⟨_, -, h1⟩ := bind_ok h1
    cases h1
    obtain ⟨s, h3, h4⟩ := commonParse_time h2
    exact ⟨s, h3, h4⟩
  · obtain ⟨o, h1, e⟩ := bind_ok e
    cases e
    unfold newSlider at h1
    obtain ⟨b, h2, h1⟩ := bind_ok h1
    obtain ⟨_, -, h1⟩ := bind_ok h1
    obtain ⟨_, -, h1⟩ := bind_ok h1
    obtain ⟨_, -, h1⟩ := bind_ok h1
    obtain ⟨_, -, h1⟩ := bind_ok h1
    obtain ⟨_, -, h1⟩ := bind_ok h1
    obtain ⟨_, -, h1⟩ := bind_ok h1
    obtain ⟨_, -, h1⟩ := bind_ok h1
    obtain ⟨_, -, h1⟩ := bind_ok h1
    obtain ⟨_, -, h1⟩ := bind_ok h1
    obtain ⟨_, -, h1⟩ := bind_ok h1
    cases h1
    obtain ⟨s, h3, h4⟩ := commonParse_time h2
    exact ⟨s, h3, h4⟩
  · cases e

omit [GoFloat S] [GoFloat D] [GoConv S D] [GoLibm D] in
theorem objectRecords (ls : List Str) : records "HitObjects" ls = (objectLines ls).filterMap fields := by
  unfold records objectLines sectionLines
  rw [List.filterMap_map]
  generalize sectioned [] ls = l
  induction l with
  | nil => rfl
  | cons p ps ih =>
    rw [List.filterMap_cons, List.filter_cons, ih]
    unfold recordFor
    by_cases h : p.1 = "HitObjects".toList
    · rw [if_pos h, if_pos (by simpa using h), List.filterMap_cons]
      rfl
    · rw [if_neg h, if_neg (by simpa using h)]

omit [GoFloat S] [GoFloat D] [GoConv S D] [GoLibm D] in
theorem mapM_filterMap {α β : Type} {f : α → Result (Option β)} : ∀ {l : List α} {os : List (Option β)}, l.mapM f = .ok os →
    os.reduceOption = l.filterMap (fun r => ((f r).toOption).join)
  | [], os, h => by cases h; rfl
  | a :: l, os, h => by
    rw [List.mapM_cons] at h
    obtain ⟨o, h1, h⟩ := bind_ok h
    obtain ⟨r, h2, h⟩ := bind_ok h
    cases h
    rw [List.filterMap_cons, h1, ← mapM_filterMap h2]
    cases o <;> rfl

/-- The object on a line. -/
def objectOn (fuel : ℕ) (l : Str) : Option (Obj S D) := (fields l).bind fun r => ((createObject (S := S) (D := D) fuel r).toOption).join

theorem objects_on {fuel : ℕ} {lines : List Str} {st : ParseState S D} (h : parseLines fuel lines ParseState.init = .ok st) :
    st.beatMap.hitObjects = (objectLines lines).filterMap (objectOn fuel) := by
  obtain ⟨os, h1, h2, -⟩ := parseLines_objects h
  rw [h2, mapM_filterMap h1, objectRecords, List.filterMap_filterMap]
  rfl

/-- Whether a line of an object can be read does not depend on the lines before it. -/
theorem hit_any {fuel : ℕ} {l : Str} {st st' : ParseState S D} (h : parseInSection fuel Sec.hit.name l st = .ok st') (st1 : ParseState S D) :
    ∃ st2, parseInSection fuel Sec.hit.name l st1 = .ok st2 := by
  have e : ∀ st : ParseState S D, parseInSection fuel Sec.hit.name l st =
      match tokenize l with
      | some arr => (do return { st with beatMap := ← parseHitObjectLine fuel arr st.beatMap })
      | none => .ok st := by
    intro st
    show parseInSection fuel "HitObjects".toList l st = _
    unfold parseInSection
    rw [if_neg (by decide), if_neg (by decide), if_neg (by decide), if_neg (by decide), if_neg (by decide), if_pos rfl]
    cases tokenize l <;> rfl
  rw [e] at h ⊢
  cases ht : tokenize l with
  | none => exact ⟨_, rfl⟩
  | some arr =>
    rw [ht] at h
    dsimp only at h ⊢
    obtain ⟨b, h1, -⟩ := bind_ok h
    unfold parseHitObjectLine parseHitObjects at h1
    obtain ⟨c, h2, h1⟩ := bind_ok h1
    obtain ⟨o, h3, -⟩ := bind_ok h1
    have hc : ∃ c', countObject arr st1.beatMap = .ok c' := by
      unfold countObject at h2 ⊢
      obtain ⟨ty, i3, h2⟩ := bind_ok h2
      rw [i3, ok_bind]
      dsimp only at h2 ⊢
      split_ifs at h2 ⊢
      · obtain ⟨t, i2, -⟩ := bind_ok h2
        rw [i2]; exact ⟨_, rfl⟩
      · obtain ⟨t, i2, -⟩ := bind_ok h2
        rw [i2]; exact ⟨_, rfl⟩
      · obtain ⟨t, i2, -⟩ := bind_ok h2
        rw [i2]; exact ⟨_, rfl⟩
      · obtain ⟨t, i2, h2⟩ := bind_ok h2
        obtain ⟨u, i4, -⟩ := bind_ok h2
        rw [i2, ok_bind, i4]; exact ⟨_, rfl⟩
      · exact ⟨_, rfl⟩
    obtain ⟨⟨b', t'⟩, hc⟩ := hc
    unfold parseHitObjectLine parseHitObjects
    rw [hc, ok_bind]
    dsimp only
    rw [h3, ok_bind]
    cases o <;> exact ⟨_, rfl⟩

theorem run_iff {fuel : ℕ} : ∀ {ls : List Str} {st : ParseState S D}, (∃ st', Sec.run fuel .hit ls st = .ok st') ↔
    ∀ l ∈ ls, ∀ st1 : ParseState S D, ∃ st2, parseInSection fuel Sec.hit.name l st1 = .ok st2
  | [], st => ⟨fun _ l hl => absurd hl List.not_mem_nil, fun _ => ⟨st, rfl⟩⟩
  | l :: ls, st => by
    rw [Sec.run]
    constructor
    · rintro ⟨st', h⟩
      obtain ⟨st1, h1, h⟩ := bind_ok h
      intro x hx
      rcases List.mem_cons.mp hx with rfl | hx
      · exact hit_any h1
      · exact run_iff.mp ⟨st', h⟩ x hx
    · intro h
      obtain ⟨st1, h1⟩ := h l (List.mem_cons_self ..) st
      rw [h1, ok_bind]
      exact run_iff.mpr fun x hx => h x (List.mem_cons_of_mem _ hx)

end

theorem foldl_max_perm {a b : List ℤ} (h : a.Perm b) : ∀ z, a.foldl max z = b.foldl max z := fun z =>
  h.foldl_eq' (fun x _ y _ z => by omega) z

section
variable [GoLibm F64]

/-- The states after reordered files differ in the order of the objects only. -/
theorem reordered_lines {fuel : ℕ} {a b : List Str} (h : Reordered a b) {st : ParseState F32 F64}
    (ha : parseLines fuel a ParseState.init = .ok st) :
    ∃ st' : ParseState F32 F64, parseLines fuel b ParseState.init = .ok st' ∧ st'.counter = st.counter ∧
      st'.beatMap = { st.beatMap with hitObjects := st'.beatMap.hitObjects } := by
  have e : ∀ i : Sec, i ≠ .hit → i.lines (ParseState.init : ParseState F32 F64).currentSection a =
      i.lines (ParseState.init : ParseState F32 F64).currentSection b := by
    intro i hi
    refine h.others i.name i.name_known ?_
    cases i <;> first | decide | exact absurd rfl hi
  have ra := (Sec.parts fuel a (ParseState.init : ParseState F32 F64)).1 st ha
  obtain ⟨st', hb⟩ := (Sec.parts fuel b (ParseState.init : ParseState F32 F64)).2 fun i => by
    by_cases hi : i = .hit
    · subst hi
      refine run_iff.mpr fun l hl => ?_
      exact run_iff.mp ⟨_, ra .hit⟩ l (h.same.mem_iff.mpr hl)
    · exact ⟨_, by rw [← e i hi]; exact ra i⟩
  have rb := (Sec.parts fuel b (ParseState.init : ParseState F32 F64)).1 st' hb
  have hp : (records "HitObjects" a).Perm (records "HitObjects" b) := by
    rw [objectRecords, objectRecords]
    exact h.same.filterMap _
  obtain ⟨-, -, -, a1, a2, a3, a4⟩ := parseLines_objects ha
  obtain ⟨-, -, -, b1, b2, b3, b4⟩ := parseLines_objects hb
  have key := Sec.joined (a := { st' with beatMap := { st'.beatMap with hitObjects := st.beatMap.hitObjects } }) (b := st) (fun i => ?_) ?_
  · refine ⟨st', hb, key.2, ?_⟩
    rw [← key.1]
  · by_cases hi : i = .hit
    · subst hi
      unfold Sec.only Sec.part
      dsimp only
      rw [a1, a2, a3, a4, b1, b2, b3, b4, hp.countP_eq, hp.countP_eq, hp.countP_eq, foldl_max_perm (hp.map _)]
    · have := rb i
      rw [← e i hi, ra i] at this
      have := (Except.ok.inj this).symm
      rw [← this]
      cases i <;> first | rfl | exact absurd rfl hi
  · show st'.beatMap.fileVersion = _
    rw [Sec.version ha, Sec.version hb, h.format]

theorem objectOn_time {fuel : ℕ} {l : Str} {x : Obj F32 F64} (h : objectOn fuel l = some x) : timeOn l = some x.base.startTime := by
  unfold objectOn at h
  unfold timeOn
  cases hf : fields l with
  | none => rw [hf] at h; cases h
  | some r =>
    rw [hf] at h
    dsimp only [Option.bind] at h ⊢
    cases hc : createObject (S := F32) (D := F64) fuel r with
    | error e => rw [hc] at h; cases h
    | ok o =>
      rw [hc] at h
      cases o with
      | none => cases h
      | some y =>
        cases h
        obtain ⟨s, h1, h2⟩ := created_time hc
        rw [h1, h2]
        rfl

theorem equal_times {a b : F64} (ha : a ≠ .nan) (hb : b ≠ .nan) : (b ==. a) = (!(a <. b) && !(b <. a)) := by
  have e1 : Fl.le b a = !Fl.lt a b := Fl.le_eq_not_lt hb ha
  have e2 : Fl.le a b = !Fl.lt b a := Fl.le_eq_not_lt ha hb
  show Fl.eq b a = (!Fl.lt a b && !Fl.lt b a)
  rw [← e1, ← e2, Bool.eq_iff_iff, Fl.eq_iff_le, Bool.and_eq_true]

/-- Objects at equal times are in the order of their lines. -/
theorem objects_at {fuel : ℕ} {ls : List Str} (hn : ∀ l ∈ ls, timeOn l ≠ some .nan) {t : F64} (ht : t ≠ .nan) :
    (ls.filterMap (objectOn (S := F32) (D := F64) fuel)).filter (fun b => !(t <. b.base.startTime) && !(b.base.startTime <. t)) =
      (ls.filter (givesTime t)).filterMap (objectOn fuel) := by
  induction ls with
  | nil => rfl
  | cons l ls ih =>
    have ih := ih fun x hx => hn x (List.mem_cons_of_mem _ hx)
    rw [List.filterMap_cons, List.filter_cons]
    cases ho : objectOn (S := F32) (D := F64) fuel l with
    | none =>
      dsimp only
      rw [ih]
      split_ifs
      · rw [List.filterMap_cons, ho]
      · rfl
    | some x =>
      have hx := objectOn_time ho
      have hxn : x.base.startTime ≠ .nan := fun hc => hn l (List.mem_cons_self ..) (by rw [hx, hc])
      have hg : givesTime t l = (!(t <. x.base.startTime) && !(x.base.startTime <. t)) := by
        unfold givesTime
        rw [hx]
        exact equal_times ht hxn
      dsimp only
      rw [List.filter_cons, hg, ih]
      split_ifs
      · rw [List.filterMap_cons, ho]
      · rfl

theorem reordered_sorted [GoSort] {fuel : ℕ} {a b : List Str} (h : Reordered a b) {st st' : ParseState F32 F64}
    (ha : parseLines fuel a ParseState.init = .ok st) (hb : parseLines fuel b ParseState.init = .ok st') :
    GoSort.stable (fun x y : Obj F32 F64 => x.base.startTime <. y.base.startTime) st'.beatMap.hitObjects =
      GoSort.stable (fun x y : Obj F32 F64 => x.base.startTime <. y.base.startTime) st.beatMap.hitObjects := by
  rw [objects_on ha, objects_on hb]
  have hn' : ∀ l ∈ objectLines b, timeOn l ≠ some .nan := fun l hl => h.numbers l (h.same.mem_iff.mpr hl)
  have key : ∀ ls : List Str, (∀ l ∈ ls, timeOn l ≠ some .nan) → ∀ o ∈ ls.filterMap (objectOn (S := F32) (D := F64) fuel), o.base.startTime ≠ .nan := by
    intro ls hl o ho hc
    obtain ⟨l, h1, h2⟩ := List.mem_filterMap.mp ho
    exact hl l h1 (by rw [objectOn_time h2, hc])
  have weak : ∀ l : List (Obj F32 F64), (∀ o ∈ l, o.base.startTime ≠ .nan) →
      StrictWeak (fun x y : Obj F32 F64 => x.base.startTime <. y.base.startTime) l := fun l hn =>
    ⟨fun a _ => Fl.lt_irrefl _, fun a _ b _ c _ h1 h2 => Fl.lt_trans h1 h2,
      fun a ha b hb c hc h1 h2 => by
        have g1 := Fl.le_of_not_lt (hn b hb) (hn a ha) h1
        have g2 := Fl.le_of_not_lt (hn c hc) (hn b hb) h2
        exact Fl.not_lt_of_le (Fl.le_trans g2 g1)⟩
  have ka := key _ h.numbers
  have kb := key _ hn'
  have pa := GoSort.stable_perm (fun x y : Obj F32 F64 => x.base.startTime <. y.base.startTime) ((objectLines a).filterMap (objectOn fuel))
  have pb := GoSort.stable_perm (fun x y : Obj F32 F64 => x.base.startTime <. y.base.startTime) ((objectLines b).filterMap (objectOn fuel))
  have pab := h.same.filterMap (objectOn (S := F32) (D := F64) fuel)
  refine sorted_unique (lt := fun x y : Obj F32 F64 => x.base.startTime <. y.base.startTime) ((pb.trans pab.symm).trans pa.symm)
    ((weak _ kb).mono fun x hx => pb.mem_iff.mp hx) (GoSort.stable_sorted _ _ (weak _ kb)) (GoSort.stable_sorted _ _ (weak _ ka)) ?_
  intro x hx
  have hxb := pb.mem_iff.mp hx
  have hxa := pab.mem_iff.mpr hxb
  rw [GoSort.stable_stable _ _ (weak _ kb) x hxb, GoSort.stable_stable _ _ (weak _ ka) x hxa]
  have h1 := objects_at (fuel := fuel) h.numbers (ka x hxa)
  have h2 := objects_at (fuel := fuel) hn' (ka x hxa)
  rw [h1, h2, h.order]

theorem Spec.Reordered.symm {a b : List Str} (h : Reordered a b) : Reordered b a :=
  ⟨fun s h1 h2 => (h.others s h1 h2).symm, h.format.symm, h.same.symm, fun t => (h.order t).symm, fun l hl => h.numbers l (h.same.mem_iff.mpr hl)⟩

theorem reordered_parse [GoSort] {fuel : ℕ} {a b : List Str} (h : Reordered a b) {r : Option (BeatMap F32 F64)}
    (ha : parseFromLines fuel a = .ok r) : parseFromLines fuel b = .ok r := by
  unfold parseFromLines at ha ⊢
  obtain ⟨st, h1, ha⟩ := bind_ok ha
  obtain ⟨st', h2, e1, e2⟩ := reordered_lines h h1
  have e3 := reordered_sorted h h1 h2
  rw [h2, ok_bind, ← ha]
  unfold finishParse
  dsimp only
  rw [e1, e3]
  generalize GoSort.stable (fun x y : Obj F32 F64 => x.base.startTime <. y.base.startTime) st.beatMap.hitObjects = l
  rw [e2]

end

end GosuPP
