import Verif.Lemmas.ParserValues

/-! The end of parsing. -/

namespace GosuPP
open Go
variable {S D : Type} [GoFloat S] [GoFloat D] [GoConv S D] [GoSort]

omit [GoFloat S] [GoFloat D] [GoConv S D] [GoSort] in
theorem foldl_count {α β : Type} (f : α → Option β) (ps : List α) (n : Nat) :
    ps.foldl (fun a p => if (f p).isSome then a + 1 else a) n = n + (ps.filterMap f).length := by
  induction ps generalizing n with
  | nil => rfl
  | cons p ps ih =>
    rw [List.foldl_cons, ih, List.filterMap_cons]
    cases f p with
    | none => rfl
    | some arr => simp only [Option.isSome_some, if_true, List.length_cons]; omega

omit [GoSort] in
theorem parseLines_counter [GoLibm D] {fuel : Nat} {lines : List Str} {st : ParseState S D}
    (hl : parseLines fuel lines ParseState.init = .ok st) :
    st.counter = (Spec.records "TimingPoints" lines).length := by
  have hfold := parseLines_fold (S := S) (D := D) (fun _ n => n)
    (fun a p => if (Spec.recordFor "TimingPoints" p).isSome then a + 1 else a)
    (fun _ _ _ => rfl)
    (by
      intro s line st st' hs
      cases hs with
      | general k v hs hk e => subst e; rw [recordFor_other (by rw [hs]; decide)]; rfl
      | metadata k v hs hk e => subst e; rw [recordFor_other (by rw [hs]; decide)]; rfl
      | difficulty k v hs hk e => subst e; rw [recordFor_other (by rw [hs]; decide)]; rfl
      | events arr b hs hk hb e => subst e; rw [recordFor_other (by rw [hs]; decide)]; rfl
      | timing arr b hs hk hb e => subst e; rw [recordFor_eq hs, hk]; rfl
      | hit arr b hs hk hb e => subst e; rw [recordFor_other (by rw [hs]; decide)]; rfl
      | inert e _ hr =>
        subst e
        by_cases h1 : s = "TimingPoints".toList
        · rw [recordFor_eq h1, hr (Or.inr (Or.inl h1))]; rfl
        · rw [recordFor_other h1]; rfl) hl
  rw [hfold, foldl_count]
  show 0 + _ = _
  rw [Nat.zero_add]; rfl

theorem finishParse_ok {fuel : Nat} {st : ParseState S D} {r : Option (BeatMap S D)}
    (h : finishParse fuel st = .ok r) :
    (r = none ∧ ((st.beatMap.title = [] ∧ st.beatMap.artist = [] ∧ st.beatMap.creator = []) ∨
      st.counter = 0)) ∨
    (¬ ((st.beatMap.title = [] ∧ st.beatMap.artist = [] ∧ st.beatMap.creator = []) ∨
      st.counter = 0) ∧
     ∃ objs, setTimings fuel st.beatMap.timings.finalizePoints
        (comboLoop {} (GoSort.stable (fun x y : Obj S D => x.base.startTime <. y.base.startTime)
          st.beatMap.hitObjects)) = .ok objs ∧
      r = some { st.beatMap with
        timings := st.beatMap.timings.finalizePoints
        hitObjects := Stacking.calculate st.beatMap.fileVersion st.beatMap.difficulty
          st.beatMap.stackLeniency objs }) := by
  unfold finishParse at h
  simp only at h
  have hc : (st.beatMap.title ++ st.beatMap.artist ++ st.beatMap.creator = []) ↔
      (st.beatMap.title = [] ∧ st.beatMap.artist = [] ∧ st.beatMap.creator = []) := by
    rw [List.append_eq_nil_iff, List.append_eq_nil_iff, and_assoc]
  split at h
  · rename_i hcond
    rw [hc] at hcond
    cases h
    exact Or.inl ⟨rfl, hcond⟩
  · rename_i hcond
    rw [hc] at hcond
    obtain ⟨objs, ho, h⟩ := bind_ok h
    cases h
    exact Or.inr ⟨hcond, objs, ho, rfl⟩

theorem parseText_ok [GoLibm D] {fuel : Nat} {text : Str} {r : Option (BeatMap S D)}
    (h : parseText fuel text = .ok r) :
    ∃ st : ParseState S D, parseLines fuel (scanLines bufferSize text) ParseState.init = .ok st ∧
      finishParse fuel st = .ok r := by
  unfold parseText parseFromLines at h
  exact bind_ok h

/-- The fields of a parsed map that `finishParse` takes over. -/
theorem parseText_some [GoLibm D] {fuel : Nat} {text : Str} {m : BeatMap S D}
    (h : parseText fuel text = .ok (some m)) :
    ∃ st : ParseState S D, parseLines fuel (scanLines bufferSize text) ParseState.init = .ok st ∧
      ∃ objs, setTimings fuel st.beatMap.timings.finalizePoints
        (comboLoop {} (GoSort.stable (fun x y : Obj S D => x.base.startTime <. y.base.startTime)
          st.beatMap.hitObjects)) = .ok objs ∧
      m = { st.beatMap with
        timings := st.beatMap.timings.finalizePoints
        hitObjects := Stacking.calculate st.beatMap.fileVersion st.beatMap.difficulty
          st.beatMap.stackLeniency objs } := by
  obtain ⟨st, h1, h2⟩ := parseText_ok h
  rcases finishParse_ok h2 with ⟨hn, -⟩ | ⟨-, objs, ho, hm⟩
  · cases hn
  · exact ⟨st, h1, objs, ho, by simpa using hm⟩

end GosuPP
