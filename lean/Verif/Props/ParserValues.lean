import Verif.Lemmas.ParserFinish
import Verif.Lemmas.Difficulty
import Verif.Props.Sample

/-!
# Properties of parsed maps that depend on single keys: C13, C14, C19, C23, C26
-/

namespace GosuPP.Props
open Go GosuPP
variable [GoSort]

/-- The clamp applied to a stat read from a file. -/
abbrev stat {D : Type} [GoFloat D] (v : Str) : D := fmin (lit 10) (fmax (lit 0) (parseFloat v))

section
variable {S D : Type} [GoFloat S] [GoFloat D] [GoConv S D] [GoLibm D]

/-- C13 (exact form, any arithmetic). HP, CS and OD of a parsed map are the clamp of the last
value given in the Difficulty section, or 5. -/
theorem C13_stats (fuel : Nat) (text : Str) (m : BeatMap S D)
    (h : parseText fuel text = .ok (some m)) :
    m.difficulty.getHP = (((Spec.values "Difficulty" "HPDrainRate"
      (scanLines bufferSize text)).getLast?).map stat).getD (lit 5) ∧
    m.difficulty.getCS = (((Spec.values "Difficulty" "CircleSize"
      (scanLines bufferSize text)).getLast?).map stat).getD (lit 5) ∧
    m.difficulty.getOD = (((Spec.values "Difficulty" "OverallDifficulty"
      (scanLines bufferSize text)).getLast?).map stat).getD (lit 5) := by
  obtain ⟨st, hl, objs, -, rfl⟩ := parseText_some h
  refine ⟨?_, ?_, ?_⟩
  · refine overwritten (fun b => b.difficulty.hp) "Difficulty" "HPDrainRate" _ ?_ ?_ hl
    · intro line b; obtain ⟨v, hv⟩ := parseFormat_frame line b; rw [hv]
    · intro s line st st' hs
      rcases step_difficulty hs with ⟨h1, -, h2⟩ | ⟨rfl, k, v, hk, hb⟩
      · rw [h2, h1]; rfl
      · rw [hb, valueFor_kv hk, parseDifficulty_hp]; split <;> rfl
  · refine overwritten (fun b => b.difficulty.cs) "Difficulty" "CircleSize" _ ?_ ?_ hl
    · intro line b; obtain ⟨v, hv⟩ := parseFormat_frame line b; rw [hv]
    · intro s line st st' hs
      rcases step_difficulty hs with ⟨h1, -, h2⟩ | ⟨rfl, k, v, hk, hb⟩
      · rw [h2, h1]; rfl
      · rw [hb, valueFor_kv hk, parseDifficulty_cs]; split <;> rfl
  · refine overwritten (fun b => b.difficulty.od) "Difficulty" "OverallDifficulty" _ ?_ ?_ hl
    · intro line b; obtain ⟨v, hv⟩ := parseFormat_frame line b; rw [hv]
    · intro s line st st' hs
      rcases step_difficulty hs with ⟨h1, -, h2⟩ | ⟨rfl, k, v, hk, hb⟩
      · rw [h2, h1]; rfl
      · rw [hb, valueFor_kv hk, parseDifficulty_od]; split <;> rfl

/-- C14 (any arithmetic). AR is the clamp of the last ApproachRate if the file has one (before
or after OverallDifficulty), otherwise of the last OverallDifficulty, otherwise 5. -/
theorem C14_approach_rate (fuel : Nat) (text : Str) (m : BeatMap S D)
    (h : parseText fuel text = .ok (some m)) :
    m.difficulty.getAR =
      match (Spec.values "Difficulty" "ApproachRate" (scanLines bufferSize text)).getLast?,
        (Spec.values "Difficulty" "OverallDifficulty" (scanLines bufferSize text)).getLast? with
      | some v, _ => stat v
      | none, some v => stat v
      | none, none => lit 5 := by
  obtain ⟨st, hl, objs, -, rfl⟩ := parseText_some h
  have hfold := parseLines_fold (S := S) (D := D) (fun b _ => (b.difficulty.ar, b.arSpecified))
    (fun a p =>
      match Spec.valueFor "Difficulty" "ApproachRate" p,
        Spec.valueFor "Difficulty" "OverallDifficulty" p with
      | some v, _ => (stat v, true)
      | none, some v => if a.2 = false then (stat v, false) else a
      | none, none => a)
    (by intro line b n; obtain ⟨v, hv⟩ := parseFormat_frame line b; simp only [hv])
    (by
      intro s line st st' hs
      rcases step_difficulty hs with ⟨h1, h2, h3⟩ | ⟨rfl, k, v, hk, hb⟩
      · rw [h3, h3]; simp only [h1, h2]
      · rw [hb, valueFor_kv hk, valueFor_kv hk, parseDifficulty_ar]
        by_cases ha : k = "ApproachRate".toList
        · simp only [ha, if_true]; rfl
        · simp only [if_neg ha]
          by_cases ho : k = "OverallDifficulty".toList
          · simp only [ho, if_true, true_and]; rfl
          · rw [if_neg (fun hc => ho hc.1), if_neg ho])
    hl
  have key : ∀ ps : List (Str × Str),
      ps.foldl (fun (a : D × Bool) p =>
        match Spec.valueFor "Difficulty" "ApproachRate" p,
          Spec.valueFor "Difficulty" "OverallDifficulty" p with
        | some v, _ => (stat v, true)
        | none, some v => if a.2 = false then (stat v, false) else a
        | none, none => a) (lit 5, false) =
      match (ps.filterMap (Spec.valueFor "Difficulty" "ApproachRate")).getLast?,
        (ps.filterMap (Spec.valueFor "Difficulty" "OverallDifficulty")).getLast? with
      | some v, _ => (stat v, true)
      | none, some v => (stat v, false)
      | none, none => (lit 5, false) := by
    intro ps
    induction ps using List.reverseRecOn with
    | nil => rfl
    | append_singleton l p ih =>
      rw [List.foldl_append, List.foldl_cons, List.foldl_nil, ih, List.filterMap_append,
        List.filterMap_append]
      generalize List.filterMap (Spec.valueFor "Difficulty" "ApproachRate") l = A
      generalize List.filterMap (Spec.valueFor "Difficulty" "OverallDifficulty") l = O
      simp only [List.filterMap_cons, List.filterMap_nil]
      generalize Spec.valueFor "Difficulty" "ApproachRate" p = a
      generalize Spec.valueFor "Difficulty" "OverallDifficulty" p = o
      cases a with
      | some v => simp
      | none =>
        cases o with
        | none => simp
        | some v =>
          simp only [List.append_nil, List.getLast?_append, List.getLast?_singleton,
            Option.some_or]
          cases A.getLast? <;> cases O.getLast? <;> simp
  have h1 := congrArg Prod.fst hfold
  simp only at h1
  show st.beatMap.difficulty.ar = _
  rw [h1]
  have h2 := congrArg Prod.fst (key (Spec.sectioned [] (scanLines bufferSize text)))
  refine Eq.trans h2 ?_
  show Prod.fst (match (Spec.values "Difficulty" "ApproachRate" (scanLines bufferSize text)).getLast?,
        (Spec.values "Difficulty" "OverallDifficulty" (scanLines bufferSize text)).getLast? with
      | some v, _ => (stat v, true)
      | none, some v => (stat v, false)
      | none, none => (lit 5, false)) = _
  cases (Spec.values "Difficulty" "ApproachRate" (scanLines bufferSize text)).getLast? <;>
    cases (Spec.values "Difficulty" "OverallDifficulty" (scanLines bufferSize text)).getLast? <;> rfl

/-- C23. Whenever parsing returns, it reports the error exactly when the last Title, Artist and
Creator of the Metadata section are all empty (or absent), or there is no timing point record. -/
theorem C23_error_iff (fuel : Nat) (text : Str) (r : Option (BeatMap S D))
    (h : parseText fuel text = .ok r) :
    r = none ↔
      ((Spec.values "Metadata" "Title" (scanLines bufferSize text)).getLast?.getD [] = [] ∧
       (Spec.values "Metadata" "Artist" (scanLines bufferSize text)).getLast?.getD [] = [] ∧
       (Spec.values "Metadata" "Creator" (scanLines bufferSize text)).getLast?.getD [] = []) ∨
      Spec.records "TimingPoints" (scanLines bufferSize text) = [] := by
  obtain ⟨st, hl, hf⟩ := parseText_ok h
  have ht : st.beatMap.title =
      ((Spec.values "Metadata" "Title" (scanLines bufferSize text)).getLast?.map id).getD [] := by
    refine overwritten (fun b => b.title) "Metadata" "Title" _ ?_ ?_ hl
    · intro line b; obtain ⟨v, hv⟩ := parseFormat_frame line b; rw [hv]
    · intro s line st st' hs
      rcases step_metadata hs with ⟨h1, -, -, -, h2⟩ | ⟨rfl, k, v, hk, hb⟩
      · rw [h2, h1]; rfl
      · rw [hb, valueFor_kv hk, (parseMetadata_fields k v _).1]; split <;> rfl
  have ha : st.beatMap.artist =
      ((Spec.values "Metadata" "Artist" (scanLines bufferSize text)).getLast?.map id).getD [] := by
    refine overwritten (fun b => b.artist) "Metadata" "Artist" _ ?_ ?_ hl
    · intro line b; obtain ⟨v, hv⟩ := parseFormat_frame line b; rw [hv]
    · intro s line st st' hs
      rcases step_metadata hs with ⟨-, h1, -, -, h2⟩ | ⟨rfl, k, v, hk, hb⟩
      · rw [h2, h1]; rfl
      · rw [hb, valueFor_kv hk, (parseMetadata_fields k v _).2.1]; split <;> rfl
  have hc : st.beatMap.creator =
      ((Spec.values "Metadata" "Creator" (scanLines bufferSize text)).getLast?.map id).getD [] := by
    refine overwritten (fun b => b.creator) "Metadata" "Creator" _ ?_ ?_ hl
    · intro line b; obtain ⟨v, hv⟩ := parseFormat_frame line b; rw [hv]
    · intro s line st st' hs
      rcases step_metadata hs with ⟨-, -, h1, -, h2⟩ | ⟨rfl, k, v, hk, hb⟩
      · rw [h2, h1]; rfl
      · rw [hb, valueFor_kv hk, (parseMetadata_fields k v _).2.2.1]; split <;> rfl
  have hn := parseLines_counter hl
  have e : ∀ l : List Str, (l.getLast?.map id).getD [] = l.getLast?.getD [] := by
    intro l; cases l.getLast? <;> rfl
  rw [e] at ht ha hc
  rcases finishParse_ok hf with ⟨rfl, hcond⟩ | ⟨hcond, objs, -, rfl⟩
  · rw [ht, ha, hc, hn, List.length_eq_zero_iff] at hcond
    exact ⟨fun _ => hcond, fun _ => rfl⟩
  · rw [ht, ha, hc, hn, List.length_eq_zero_iff] at hcond
    exact ⟨fun h => (Option.some_ne_none _ h).elim, fun h => absurd h hcond⟩

/-- C26. `Version` of a parsed map is the last `FileVersion` of the Metadata section; in
particular it is empty for every file without that key, whatever its `Version` key says. -/
theorem C26_version (fuel : Nat) (text : Str) (m : BeatMap S D)
    (h : parseText fuel text = .ok (some m)) :
    m.version = (Spec.values "Metadata" "FileVersion" (scanLines bufferSize text)).getLast?.getD [] := by
  obtain ⟨st, hl, objs, -, rfl⟩ := parseText_some h
  have : st.beatMap.version = ((Spec.values "Metadata" "FileVersion"
      (scanLines bufferSize text)).getLast?.map id).getD [] := by
    refine overwritten (fun b => b.version) "Metadata" "FileVersion" _ ?_ ?_ hl
    · intro line b; obtain ⟨v, hv⟩ := parseFormat_frame line b; rw [hv]
    · intro s line st st' hs
      rcases step_metadata hs with ⟨-, -, -, h1, h2⟩ | ⟨rfl, k, v, hk, hb⟩
      · rw [h2, h1]; rfl
      · rw [hb, valueFor_kv hk, (parseMetadata_fields k v _).2.2.2]; split <;> rfl
  show st.beatMap.version = _
  rw [this]
  cases (Spec.values "Metadata" "FileVersion" (scanLines bufferSize text)).getLast? <;> rfl

end

/-- The clamp of a number is in `[0, 10]`, the clamp of a NaN is NaN. -/
theorem stat_range (v : Str) :
    (Fl.NN (parseFloat v : F64) →
      ((lit 0 : F64) <=. stat v) = true ∧ ((stat v : F64) <=. lit 10) = true) ∧
    ((parseFloat v : F64) = .nan → (stat v : F64) = .nan) := by
  constructor
  · intro h
    have h0 : Fl.NN (lit 0 : F64) := Fl.ofRat_nn _ _
    have h10 : Fl.NN (lit 10 : F64) := Fl.ofRat_nn _ _
    obtain ⟨a1, a2, a3⟩ := Fl.fmax_spec h0 h
    have hm := Fl.fmax_nn h0 h
    obtain ⟨b1, b2, b3⟩ := Fl.fmin_spec h10 hm
    refine ⟨?_, b1⟩
    have h010 : Fl.le (lit 0 : F64) (lit 10) = true := by decide +kernel
    rcases b3 with b3 | b3
    · show Fl.le _ (fmin _ _) = true
      rw [b3]; exact h010
    · show Fl.le _ (fmin _ _) = true
      rw [b3]; exact a1
  · intro h
    show fmin (lit 10) (fmax (lit 0) (parseFloat v : F64)) = _
    rw [h, Fl.fmax_nan_right _ (by decide +kernel), Fl.fmin_nan_right _ (by decide +kernel)]

section
variable [GoLibm F64]

/-- C13. In IEEE arithmetic every stat of a parsed map that is not NaN is in `[0, 10]`, and a
stat is NaN exactly when the value that decides it (the last one given; for AR the last
ApproachRate or else the last OverallDifficulty) reads as NaN. -/
theorem C13_range (fuel : Nat) (text : Str) (m : BeatMap F32 F64)
    (h : parseText fuel text = .ok (some m)) :
    let last (key : String) := (Spec.values "Difficulty" key (scanLines bufferSize text)).getLast?
    ∀ p ∈ [(m.difficulty.getHP, last "HPDrainRate"), (m.difficulty.getCS, last "CircleSize"),
        (m.difficulty.getOD, last "OverallDifficulty"),
        (m.difficulty.getAR, (last "ApproachRate").or (last "OverallDifficulty"))],
      (p.1 ≠ .nan → ((lit 0 : F64) <=. p.1) = true ∧ (p.1 <=. lit 10) = true) ∧
      (p.1 = .nan ↔ ∃ v, p.2 = some v ∧ (parseFloat v : F64) = .nan) := by
  intro last
  have key : ∀ (x : F64) (o : Option Str), x = (o.map stat).getD (lit 5) →
      (x ≠ .nan → ((lit 0 : F64) <=. x) = true ∧ (x <=. lit 10) = true) ∧
      (x = .nan ↔ ∃ v, o = some v ∧ (parseFloat v : F64) = .nan) := by
    rintro x o rfl
    cases o with
    | none =>
      refine ⟨fun _ => ⟨?_, ?_⟩, ?_⟩
      · show ((lit 0 : F64) <=. lit 5) = true
        decide +kernel
      · show ((lit 5 : F64) <=. lit 10) = true
        decide +kernel
      · constructor
        · intro hc
          have : (lit 5 : F64) ≠ .nan := by decide +kernel
          exact absurd hc this
        · rintro ⟨v, hv, -⟩; cases hv
    | some v =>
      have hr := stat_range v
      show (stat v ≠ _ → ((lit 0 : F64) <=. stat v) = true ∧ ((stat v : F64) <=. lit 10) = true) ∧
        ((stat v : F64) = .nan ↔ _)
      by_cases hv : (parseFloat v : F64) = .nan
      · have := hr.2 hv
        exact ⟨fun hn => absurd this hn, fun _ => ⟨v, rfl, hv⟩, fun _ => this⟩
      · have := hr.1 hv
        refine ⟨fun _ => this, fun hc => ?_, ?_⟩
        · have hb := (Fl.le_nn this.1).2
          exact absurd hc hb
        · rintro ⟨w, hw, hw'⟩
          cases hw
          exact absurd hw' hv
  obtain ⟨h1, h2, h3⟩ := C13_stats fuel text m h
  have h4 := C14_approach_rate fuel text m h
  intro p hp
  simp only [List.mem_cons, List.not_mem_nil, or_false] at hp
  rcases hp with rfl | rfl | rfl | rfl
  · exact key _ _ h1
  · exact key _ _ h2
  · exact key _ _ h3
  · refine key _ _ ?_
    rw [h4]
    show _ = (((last "ApproachRate").or (last "OverallDifficulty")).map stat).getD (lit 5)
    show (match last "ApproachRate", last "OverallDifficulty" with
      | some v, _ => stat v
      | none, some v => stat v
      | none, none => lit 5) = _
    cases last "ApproachRate" <;> cases last "OverallDifficulty" <;> rfl

/-- C19. In IEEE arithmetic `MinBPM` and `MaxBPM` bracket the tempo of every timing point with
beat length `b >= 0` (zero and infinity included), and each is attained by such a point, or is
the initial value. -/
theorem C19_bpm (fuel : Nat) (text : Str) (m : BeatMap F32 F64)
    (h : parseText fuel text = .ok (some m)) :
    let bs := (Spec.beatLengths (scanLines bufferSize text) : List F64).filter (fun b => lit 0 <=. b)
    (∀ b ∈ bs, (m.minBPM <=. lit 60000 /. b) = true ∧ (lit 60000 /. b <=. m.maxBPM) = true) ∧
    (m.minBPM = .inf false ∨ ∃ b ∈ bs, m.minBPM = lit 60000 /. b) ∧
    (m.maxBPM = lit 0 ∨ ∃ b ∈ bs, m.maxBPM = lit 60000 /. b) := by
  intro bs
  obtain ⟨st, hl, objs, -, rfl⟩ := parseText_some h
  have hfold := parseLines_fold (S := F32) (D := F64) (fun b _ => (b.minBPM, b.maxBPM))
    (fun a p =>
      match (match Spec.recordFor "TimingPoints" p with
        | some _ => ((split ',' p.2)[1]?).map (parseFloat (F := F64))
        | none => none) with
      | some b => if (lit 0 <=. b) = true then (fmin a.1 (lit 60000 /. b), fmax a.2 (lit 60000 /. b)) else a
      | none => a)
    (by intro line b n; obtain ⟨v, hv⟩ := parseFormat_frame line b; simp only [hv])
    (by
      intro s line st st' hs
      cases hs with
      | general k v hs hk e =>
        subst e; rw [recordFor_other (by rw [hs]; decide)]
        obtain ⟨_, _, _, _, hf⟩ := parseGeneral_frame k v st.beatMap
        simp only [hf]
      | metadata k v hs hk e =>
        subst e; rw [recordFor_other (by rw [hs]; decide)]
        obtain ⟨_, _, _, _, _, _, _, _, _, _, hf⟩ := parseMetadata_frame k v st.beatMap
        simp only [hf]
      | difficulty k v hs hk e =>
        subst e; rw [recordFor_other (by rw [hs]; decide)]
        obtain ⟨_, _, _, _, _, hf⟩ := parseDifficulty_frame k v st.beatMap
        simp only [hf]
      | events arr b hs hk hb e =>
        subst e; rw [recordFor_other (by rw [hs]; decide)]
        obtain ⟨_, _, hf⟩ := parseEvents_ok hb
        simp only [hf]
      | hit arr b hs hk hb e =>
        subst e; rw [recordFor_other (by rw [hs]; decide)]
        obtain ⟨_, _, _, _, _, hf⟩ := parseHitObjectLine_frame hb
        simp only [hf]
      | timing arr b hs hk hb e =>
        subst e; rw [recordFor_eq hs, hk]
        obtain ⟨t, s', p, -, hs', -, -, -, hf⟩ := parsePoint_ok hb
        simp only [hf, hs', Option.map_some]
        unfold BeatMap.updateBPM
        by_cases hle : ((lit 0 : F64) <=. parseFloat s') = true
        · have hn : Fl.isNaN (parseFloat s' : F64) = false :=
            (Fl.isNaN_false_iff _).mpr (Fl.le_nn hle).2
          rw [if_pos hle, Fl.go_isNaN, hn, hle]
          rfl
        · rw [if_neg hle]
          have : ((lit 0 : F64) <=. parseFloat s') = false := by simpa using hle
          rw [this, Bool.and_false]
          rfl
      | inert e _ hr =>
        subst e
        by_cases h1 : s = "TimingPoints".toList
        · rw [recordFor_eq h1, hr (Or.inr (Or.inl h1))]
        · rw [recordFor_other h1]) hl
  have key : ∀ ps : List (Str × Str), ∀ g : Str × Str → Option F64, ∀ r : F64 × F64,
      r = ps.foldl (fun a p => match g p with
        | some b => if (lit 0 <=. b) = true then (fmin a.1 (lit 60000 /. b), fmax a.2 (lit 60000 /. b)) else a
        | none => a) (.inf false, lit 0) →
      (Fl.NN r.1 ∧ Fl.NN r.2) ∧
      (∀ b ∈ (ps.filterMap g).filter (fun b => lit 0 <=. b),
        (r.1 <=. lit 60000 /. b) = true ∧ (lit 60000 /. b <=. r.2) = true) ∧
      (r.1 = .inf false ∨ ∃ b ∈ (ps.filterMap g).filter (fun b => lit 0 <=. b), r.1 = lit 60000 /. b) ∧
      (r.2 = lit 0 ∨ ∃ b ∈ (ps.filterMap g).filter (fun b => lit 0 <=. b), r.2 = lit 60000 /. b) := by
    intro ps g
    induction ps using List.reverseRecOn with
    | nil =>
      rintro r rfl
      exact ⟨⟨Fl.nn_inf _, Fl.lit_nn 0⟩, by simp, Or.inl rfl, Or.inl rfl⟩
    | append_singleton l p ih =>
      intro r hr
      rw [List.foldl_append, List.foldl_cons, List.foldl_nil] at hr
      obtain ⟨⟨n1, n2⟩, i1, i2, i3⟩ := ih _ rfl
      revert hr
      generalize List.foldl _ _ l = q at *
      intro hr
      rw [List.filterMap_append, List.filter_append]
      cases hg : g p with
      | none =>
        rw [hg] at hr
        simp only at hr
        subst hr
        simp only [List.filterMap_cons, hg, List.filterMap_nil, List.filter_nil, List.append_nil]
        exact ⟨⟨n1, n2⟩, i1, i2, i3⟩
      | some b =>
        rw [hg] at hr
        simp only at hr
        simp only [List.filterMap_cons, hg, List.filterMap_nil]
        by_cases hle : ((lit 0 : F64) <=. b) = true
        · rw [if_pos hle] at hr
          rw [List.filter_cons_of_pos hle, List.filter_nil]
          have hd : Fl.NN ((lit 60000 : F64) /. b) := by
            have e6 : (lit 60000 : F64) = .fin 60000 false := by decide +kernel
            rw [e6]
            have hb := (Fl.le_nn hle).2
            cases b with
            | nan => exact absurd rfl hb
            | inf s => exact Fl.nn_fin _ _
            | fin v s =>
              show Fl.NN (Fl.div (.fin 60000 false) (.fin v s))
              unfold Fl.div
              simp only
              split
              · rw [if_neg (by norm_num)]; exact Fl.nn_inf _
              · exact Fl.ofRat_nn _ _
          obtain ⟨a1, a2, a3⟩ := Fl.fmin_spec n1 hd
          obtain ⟨b1, b2, b3⟩ := Fl.fmax_spec n2 hd
          subst hr
          refine ⟨⟨Fl.fmin_nn n1 hd, Fl.fmax_nn n2 hd⟩, ?_, ?_, ?_⟩
          · intro c hc
            rcases List.mem_append.mp hc with hc | hc
            · exact ⟨Fl.le_trans a1 (i1 c hc).1, Fl.le_trans (i1 c hc).2 b1⟩
            · rw [List.mem_singleton] at hc
              subst hc
              exact ⟨a2, b2⟩
          · rcases a3 with a3 | a3
            · rcases i2 with i2 | ⟨c, hc, i2⟩
              · exact Or.inl (a3.trans i2)
              · exact Or.inr ⟨c, List.mem_append_left _ hc, a3.trans i2⟩
            · exact Or.inr ⟨b, by simp, a3⟩
          · rcases b3 with b3 | b3
            · rcases i3 with i3 | ⟨c, hc, i3⟩
              · exact Or.inl (b3.trans i3)
              · exact Or.inr ⟨c, List.mem_append_left _ hc, b3.trans i3⟩
            · exact Or.inr ⟨b, by simp, b3⟩
        · rw [if_neg hle] at hr
          rw [List.filter_cons_of_neg hle, List.filter_nil, List.append_nil]
          subst hr
          exact ⟨⟨n1, n2⟩, i1, i2, i3⟩
  exact (key _ _ _ hfold).2

end

/-- The sample has `HPDrainRate:NaN` (reported as NaN, so the range claim without the exception
is false), `CircleSize:40` (reported as 10), AR before OD, and tempos 120 and 240. -/
example : Sample.observe Sample.text (fun m => [m.difficulty.getHP, m.difficulty.getCS,
      m.difficulty.getOD, m.difficulty.getAR, m.minBPM, m.maxBPM]) =
    some [.nan, lit 10, lit (17/2), lit 9, lit 120, lit 240] := by
  decide +kernel

/-- The sample has five hit objects and a `Version:` key, but its `Version` is empty. -/
example : Sample.observe Sample.text (fun m => (m.hitObjects.length, m.version)) = some (5, []) := by
  decide +kernel

example : Spec.values "Metadata" "Version" (scanLines bufferSize Sample.text) = ["Hard".toList] := by
  decide +kernel

/-- The other outcome of C23: no timing points, or no title, artist and creator. -/
example :
    (match Sample.parse "[Metadata]\nTitle:a\n".toList with | .ok none => true | _ => false) = true ∧
    (match Sample.parse "[TimingPoints]\n0,500\n".toList with | .ok none => true | _ => false) = true := by
  refine ⟨by decide +kernel, by decide +kernel⟩

end GosuPP.Props
