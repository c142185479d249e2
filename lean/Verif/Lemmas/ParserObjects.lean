import Verif.Lemmas.ParserFinish
import Verif.Lemmas.Combo
import Verif.Lemmas.Sorting

/-! The hit objects and counters of a parsed map. -/

namespace GosuPP
open Go

theorem intBit_testBit (x : Int) (i : Nat) : intBit x i = x.testBit i := by
  unfold intBit
  cases x with
  | ofNat n =>
    show _ = Nat.testBit n i
    rw [Nat.testBit_eq_decide_div_mod_eq]
    have : ((Int.ofNat n) / 2 ^ i) % 2 = ((n / 2 ^ i % 2 : Nat) : Int) := by push_cast; rfl
    rw [this]
    generalize n / 2 ^ i % 2 = k
    rw [Bool.eq_iff_iff, beq_iff_eq, decide_eq_true_iff]
    omega
  | negSucc n =>
    show _ = !Nat.testBit n i
    rw [Nat.testBit_eq_decide_div_mod_eq]
    have h1 : Int.negSucc n / 2 ^ i = -(((n / 2 ^ i : Nat) : Int) + 1) := by
      rw [Int.negSucc_ediv n (by positivity)]
      push_cast; rfl
    rw [h1]
    generalize n / 2 ^ i = k
    by_cases h : k % 2 = 1
    · simp [h]; omega
    · simp [h]; omega

theorem lineKind_eq {arr : List Str} {ty : Str} (h : arr[3]? = some ty) :
    Spec.lineKind arr =
      if typeCircle (parseInt ty) then .circle
      else if typeSpinner (parseInt ty) then .spinner
      else if typeSlider (parseInt ty) then .slider
      else if typeLongNote (parseInt ty) then .hold
      else .other := by
  unfold Spec.lineKind typeCircle typeSpinner typeSlider typeLongNote
  simp only [h, Option.getD_some, intBit_testBit]

theorem split_head (c : Char) (s : Str) : (split c s)[0]? = some (s.takeWhile (· != c)) := by
  induction s with
  | nil => rfl
  | cons x xs ih =>
    rw [split]
    split
    · rename_i h; simp [h]
    · rename_i h
      cases hs : split c xs with
      | nil => rw [hs] at ih; cases ih
      | cons p ps =>
        rw [hs] at ih
        simp only [List.getElem?_cons_zero, Option.some.injEq] at ih
        simp [h, ih]

variable {S D : Type} [GoFloat S] [GoFloat D] [GoConv S D]

omit [GoFloat S] [GoFloat D] [GoConv S D] in
theorem counted_spec {arr : List Str} {b b' : BeatMap S D} {t : Str} (h : Counted arr b b' t) :
    b' = { b with
      circles := b.circles + (if Spec.lineKind arr = .circle then 1 else 0)
      sliders := b.sliders + (if Spec.lineKind arr = .slider ∨ Spec.lineKind arr = .hold then 1 else 0)
      spinners := b.spinners + (if Spec.lineKind arr = .spinner then 1 else 0) } ∧
    parseInt t = Spec.lineTime arr := by
  cases h with
  | circle ty t h3 h1 h2 =>
    have hk : Spec.lineKind arr = .circle := by rw [lineKind_eq h3, h1]; rfl
    unfold Spec.lineTime; rw [hk]
    exact ⟨by simp, by simp [h2]⟩
  | spinner ty t h3 h1 h4 h2 =>
    have hk : Spec.lineKind arr = .spinner := by rw [lineKind_eq h3, h1, h4]; rfl
    unfold Spec.lineTime; rw [hk]
    exact ⟨by simp, by simp [h2]⟩
  | slider ty t h3 h1 h4 h5 h2 =>
    have hk : Spec.lineKind arr = .slider := by rw [lineKind_eq h3, h1, h4, h5]; rfl
    unfold Spec.lineTime; rw [hk]
    exact ⟨by simp, by simp [h2]⟩
  | hold ty f t h3 h1 h4 h5 h6 h7 h2 =>
    have hk : Spec.lineKind arr = .hold := by rw [lineKind_eq h3, h1, h4, h5, h6]; rfl
    unfold Spec.lineTime; rw [hk]
    rw [split_head] at h2
    cases h2
    exact ⟨by simp, by simp [h7]⟩
  | other ty h3 h1 h4 h5 h6 =>
    have hk : Spec.lineKind arr = .other := by rw [lineKind_eq h3, h1, h4, h5, h6]; rfl
    unfold Spec.lineTime; rw [hk]
    exact ⟨by simp, rfl⟩

omit [GoFloat S] [GoFloat D] [GoConv S D] in
theorem foldl_filterMap_match {α β γ : Type} (g : α → Option β) (step : γ → β → γ) (l : List α) (c : γ) :
    l.foldl (fun c a => ((g a).map (step c)).getD c) c =
      (l.filterMap g).foldl step c := by
  induction l generalizing c with
  | nil => rfl
  | cons a l ih =>
    rw [List.foldl_cons, ih, List.filterMap_cons]
    cases g a <;> rfl

variable [GoLibm D]

/-- The kind of object a line creates, if any. -/
theorem createObject_kind {fuel : Nat} {arr : List Str} {o : Option (Obj S D)}
    (h : createObject fuel arr = .ok o) :
    match Spec.lineKind arr with
    | .circle => ∃ x, o = some x ∧ x.kind = .circle
    | .spinner => ∃ x, o = some x ∧ x.kind = .spinner
    | .slider => ∃ x s, o = some x ∧ x.kind = .slider s
    | .hold => o = none
    | .other => o = none := by
  unfold createObject at h
  obtain ⟨ty, hty, h⟩ := bind_ok h
  have hty := index_ok (n := 3) hty
  rw [lineKind_eq hty]
  simp only at h
  split at h
  · rename_i h1
    rw [if_pos h1]
    obtain ⟨x, hx, h⟩ := bind_ok h
    cases h
    unfold newCircle at hx
    obtain ⟨bs, -, hx⟩ := bind_ok hx
    cases hx
    exact ⟨_, rfl, rfl⟩
  rename_i h1
  rw [if_neg h1]
  split at h
  · rename_i h2
    rw [if_pos h2]
    obtain ⟨x, hx, h⟩ := bind_ok h
    cases h
    unfold newSpinner at hx
    obtain ⟨bs, -, hx⟩ := bind_ok hx
    obtain ⟨e, -, hx⟩ := bind_ok hx
    cases hx
    exact ⟨_, rfl, rfl⟩
  rename_i h2
  rw [if_neg h2]
  split at h
  · rename_i h3
    rw [if_pos h3]
    obtain ⟨x, hx, h⟩ := bind_ok h
    cases h
    unfold newSlider at hx
    obtain ⟨_, -, hx⟩ := bind_ok hx
    obtain ⟨_, -, hx⟩ := bind_ok hx
    obtain ⟨_, -, hx⟩ := bind_ok hx
    obtain ⟨_, -, hx⟩ := bind_ok hx
    obtain ⟨_, -, hx⟩ := bind_ok hx
    obtain ⟨_, -, hx⟩ := bind_ok hx
    obtain ⟨_, -, hx⟩ := bind_ok hx
    obtain ⟨_, -, hx⟩ := bind_ok hx
    obtain ⟨_, -, hx⟩ := bind_ok hx
    obtain ⟨_, -, hx⟩ := bind_ok hx
    obtain ⟨_, -, hx⟩ := bind_ok hx
    cases hx
    exact ⟨_, _, rfl, rfl⟩
  rename_i h3
  rw [if_neg h3]
  cases h
  split <;> split at * <;> first | rfl | simp_all

/-- The effect of a hit object line on the objects, the counters and the length. -/
def objStep (fuel : Nat) (a : List (Obj S D) × Int × Int × Int × Int) (arr : List Str) :
    List (Obj S D) × Int × Int × Int × Int :=
        (match (createObject fuel arr : Result (Option (Obj S D))) with
          | .ok o => a.1 ++ o.toList
          | .error _ => a.1,
         a.2.1 + (if Spec.lineKind arr = .circle then 1 else 0),
         a.2.2.1 + (if Spec.lineKind arr = .spinner then 1 else 0),
         a.2.2.2.1 + (if Spec.lineKind arr = .slider ∨ Spec.lineKind arr = .hold then 1 else 0),
         max a.2.2.2.2 (Spec.lineTime arr))

/-- The objects, counters and length before the end of parsing, by the lines of the HitObjects
section. -/
theorem parseLines_objects {fuel : Nat} {lines : List Str} {st : ParseState S D}
    (h : parseLines fuel lines ParseState.init = .ok st) :
    ∃ os : List (Option (Obj S D)),
      (Spec.records "HitObjects" lines).mapM (createObject fuel) = .ok os ∧
      st.beatMap.hitObjects = os.reduceOption ∧
      st.beatMap.circles = ((Spec.records "HitObjects" lines).countP (fun a => Spec.lineKind a = .circle) : Nat) ∧
      st.beatMap.spinners = ((Spec.records "HitObjects" lines).countP (fun a => Spec.lineKind a = .spinner) : Nat) ∧
      st.beatMap.sliders = ((Spec.records "HitObjects" lines).countP
        (fun a => Spec.lineKind a = .slider ∨ Spec.lineKind a = .hold) : Nat) ∧
      st.beatMap.length = ((Spec.records "HitObjects" lines).map Spec.lineTime).foldl max 0 := by
  have hfold := parseLines_fold (S := S) (D := D)
    (fun b _ => (b.hitObjects, b.circles, b.spinners, b.sliders, b.length))
    (fun a p => ((Spec.recordFor "HitObjects" p).map (objStep fuel a)).getD a)
    (by intro line b n; obtain ⟨v, hv⟩ := parseFormat_frame line b; simp only [hv]) (fuel := fuel)
    (by
      intro s line st st' hs
      cases hs with
      | general k v hs hk e =>
        subst e; rw [recordFor_other (by rw [hs]; decide)]
        obtain ⟨_, _, _, _, hf⟩ := parseGeneral_frame k v st.beatMap
        simp only [hf, Option.map_none, Option.getD_none]
      | metadata k v hs hk e =>
        subst e; rw [recordFor_other (by rw [hs]; decide)]
        obtain ⟨_, _, _, _, _, _, _, _, _, _, hf⟩ := parseMetadata_frame k v st.beatMap
        simp only [hf, Option.map_none, Option.getD_none]
      | difficulty k v hs hk e =>
        subst e; rw [recordFor_other (by rw [hs]; decide)]
        obtain ⟨_, _, _, _, _, hf⟩ := parseDifficulty_frame k v st.beatMap
        simp only [hf, Option.map_none, Option.getD_none]
      | events arr b hs hk hb e =>
        subst e; rw [recordFor_other (by rw [hs]; decide)]
        obtain ⟨_, _, hf⟩ := parseEvents_ok hb
        simp only [hf, Option.map_none, Option.getD_none]
      | timing arr b hs hk hb e =>
        subst e; rw [recordFor_other (by rw [hs]; decide)]
        obtain ⟨_, s, _, -, -, -, -, -, hf⟩ := parsePoint_ok hb
        obtain ⟨_, _, hu⟩ := updateBPM_frame st.beatMap (parseFloat s : D)
        rw [hu] at hf
        simp only [hf, Option.map_none, Option.getD_none]
      | hit arr b hs hk hb e =>
        subst e; rw [recordFor_eq hs, hk]
        obtain ⟨b1, t, o, hc, ho, hf⟩ := parseHitObjectLine_ok hb
        obtain ⟨h1, h2⟩ := counted_spec hc
        simp only [hf, h1, h2, Option.map_some, Option.getD_some, objStep, ho]
        congr 4
        unfold maxI
        split <;> omega
      | inert e _ hr =>
        subst e
        by_cases h1 : s = "HitObjects".toList
        · rw [recordFor_eq h1, hr (Or.inr (Or.inr h1))]; rfl
        · rw [recordFor_other h1]; rfl) h
  have hok : ∀ arr ∈ Spec.records "HitObjects" lines,
      ∃ o : Option (Obj S D), createObject fuel arr = .ok o := by
    have := parseLines_forall (S := S) (D := D)
      (fun p => ∀ arr, Spec.recordFor "HitObjects" p = some arr →
        ∃ o : Option (Obj S D), createObject fuel arr = .ok o)
      (by
        intro s line st st' hs
        cases hs with
        | general k v hs hk e => rw [recordFor_other (by rw [hs]; decide)]; intro _ h; cases h
        | metadata k v hs hk e => rw [recordFor_other (by rw [hs]; decide)]; intro _ h; cases h
        | difficulty k v hs hk e => rw [recordFor_other (by rw [hs]; decide)]; intro _ h; cases h
        | events arr b hs hk hb e => rw [recordFor_other (by rw [hs]; decide)]; intro _ h; cases h
        | timing arr b hs hk hb e => rw [recordFor_other (by rw [hs]; decide)]; intro _ h; cases h
        | hit arr b hs hk hb e =>
          rw [recordFor_eq hs, hk]
          intro arr' h
          cases h
          obtain ⟨_, _, o, _, ho, _⟩ := parseHitObjectLine_ok hb
          exact ⟨o, ho⟩
        | inert e _ hr =>
          by_cases h1 : s = "HitObjects".toList
          · rw [recordFor_eq h1, hr (Or.inr (Or.inr h1))]; intro _ h; cases h
          · rw [recordFor_other h1]; intro _ h; cases h) h
    intro arr ha
    obtain ⟨p, hp, hpa⟩ := List.mem_filterMap.mp ha
    exact this p hp arr hpa
  rw [foldl_filterMap_match] at hfold
  change _ = List.foldl _ _ (Spec.records "HitObjects" lines) at hfold
  revert hok hfold
  generalize Spec.records "HitObjects" lines = recs
  intro hok hfold
  suffices H : ∀ (h0 : List (Obj S D)) (c sp sl len : Int),
      (st.beatMap.hitObjects, st.beatMap.circles, st.beatMap.spinners, st.beatMap.sliders,
        st.beatMap.length) =
      recs.foldl (objStep fuel) (h0, c, sp, sl, len) →
      ∃ os : List (Option (Obj S D)),
        recs.mapM (createObject fuel) = .ok os ∧
        st.beatMap.hitObjects = h0 ++ os.reduceOption ∧
        st.beatMap.circles = c + (recs.countP (fun a => Spec.lineKind a = .circle) : Nat) ∧
        st.beatMap.spinners = sp + (recs.countP (fun a => Spec.lineKind a = .spinner) : Nat) ∧
        st.beatMap.sliders = sl + (recs.countP
          (fun a => Spec.lineKind a = .slider ∨ Spec.lineKind a = .hold) : Nat) ∧
        st.beatMap.length = (recs.map Spec.lineTime).foldl max len by
    obtain ⟨os, h1, h2, h3, h4, h5, h6⟩ := H [] 0 0 0 0 hfold
    exact ⟨os, h1, by simpa using h2, by simpa using h3, by simpa using h4, by simpa using h5, h6⟩
  clear hfold h
  induction recs with
  | nil =>
    intro h0 c sp sl len he
    simp only [List.foldl_nil, Prod.mk.injEq] at he
    obtain ⟨e1, e2, e3, e4, e5⟩ := he
    exact ⟨[], rfl, by simp [e1, List.reduceOption], by simp [e2], by simp [e3], by simp [e4], by simp [e5]⟩
  | cons arr recs ih =>
    intro h0 c sp sl len he
    obtain ⟨o, ho⟩ := hok arr (by simp)
    rw [List.foldl_cons] at he
    simp only [objStep, ho] at he
    obtain ⟨os, h1, h2, h3, h4, h5, h6⟩ := ih (fun a ha => hok a (by simp [ha])) _ _ _ _ _ he
    refine ⟨o :: os, ?_, ?_, ?_, ?_, ?_, ?_⟩
    · rw [List.mapM_cons, ho, h1]; rfl
    · rw [h2]
      cases o <;> simp [List.reduceOption]
    · rw [h3, List.countP_cons]; split <;> simp_all <;> omega
    · rw [h4, List.countP_cons]; split <;> simp_all <;> omega
    · rw [h5, List.countP_cons]; split <;> simp_all <;> omega
    · rw [h6]; rfl

end GosuPP
