import Verif.Spec.Parser
import Mathlib.Data.List.Induction

/-! Helper lemmas for the parser: the line loop as a fold over the sectioned lines. -/

namespace GosuPP
open Go

theorem hasPrefix_comment (line : Str) : hasPrefix line "//".toList = Spec.isComment line := by
  unfold hasPrefix Spec.isComment
  rw [show "//".toList = ['/', '/'] from rfl]
  match line with
  | [] => rfl
  | [a] => simp [List.isPrefixOf]
  | a :: b :: r =>
    by_cases ha : a = '/' <;> by_cases hb : b = '/'
    · subst ha; subst hb; simp [List.isPrefixOf]
    · subst ha; simp [List.isPrefixOf, hb, Ne.symm hb]
    · simp [List.isPrefixOf, ha, Ne.symm ha]
    · simp [List.isPrefixOf, ha, Ne.symm ha]

theorem getSection_eq (line : Str) : getSection line = (Spec.header line).getD [] := by
  unfold getSection Spec.header
  simp only
  cases h : trimSpace line with
  | nil => simp [hasPrefix, List.isPrefixOf]
  | cons c r =>
    by_cases hc : c = '['
    · subst hc
      simp only [hasPrefix, List.isPrefixOf, beq_self_eq_true, Bool.true_and, if_true,
        List.head?_cons]
      split <;> simp_all
    · simp [hasPrefix, List.isPrefixOf, hc, Ne.symm hc]

theorem split2_eq (c : Char) (s : Str) : split2 c s =
    match s.dropWhile (· != c) with
    | [] => [s]
    | _ :: v => [s.takeWhile (· != c), v] := by
  induction s with
  | nil => rfl
  | cons x xs ih =>
    rw [split2]
    by_cases hx : x = c
    · subst hx; simp
    · rw [if_neg hx, ih]
      have hx' : (x != c) = true := by simpa using hx
      rw [List.dropWhile_cons, if_pos hx', List.takeWhile_cons, if_pos hx']
      cases xs.dropWhile (· != c) <;> rfl

theorem contains_iff_dropWhile (c : Char) (s : Str) :
    s.contains c = !(s.dropWhile (· != c)).isEmpty := by
  induction s with
  | nil => rfl
  | cons x xs ih =>
    by_cases hx : x = c
    · subst hx; simp
    · have hx' : (x != c) = true := by simpa using hx
      rw [List.dropWhile_cons, if_pos hx', List.contains_cons, ih]
      simp [Ne.symm hx]

theorem tokenize2_eq (line : Str) :
    tokenize2 line = (Spec.keyValue line).map (fun kv => [kv.1, kv.2]) := by
  unfold tokenize2 Spec.keyValue
  rw [hasPrefix_comment, contains_iff_dropWhile, split2_eq]
  cases Spec.isComment line with
  | true => rfl
  | false => cases line.dropWhile (· != ':') <;> rfl

theorem tokenize_eq (line : Str) : tokenize line = Spec.fields line := by
  unfold tokenize Spec.fields
  rw [hasPrefix_comment]

theorem split_length (c : Char) (s : Str) : 0 < (split c s).length := by
  induction s with
  | nil => simp [split]
  | cons x xs ih =>
    rw [split]
    split
    · simp
    · cases h : split c xs <;> simp

theorem split_length_of_mem {c : Char} {s : Str} (h : c ∈ s) : 1 < (split c s).length := by
  induction s with
  | nil => simp at h
  | cons x xs ih =>
    rw [split]
    by_cases hx : x = c
    · rw [if_pos hx]
      have := split_length c xs
      simp; omega
    · rw [if_neg hx]
      have := ih (by rcases List.mem_cons.mp h with h | h; exact absurd h.symm hx; exact h)
      cases h : split c xs with
      | nil => rw [h] at this; simp at this
      | cons p ps => rw [h] at this; simpa using this

theorem fields_length {line : Str} {arr : List Str} (h : Spec.fields line = some arr) :
    1 < arr.length := by
  unfold Spec.fields at h
  split at h
  · cases h
  · rename_i hc
    simp only [Bool.or_eq_true, Bool.not_eq_true', not_or, Bool.not_eq_false] at hc
    cases h
    rw [List.length_map]
    exact split_length_of_mem (by simpa using hc.2)

section
variable {S D : Type} [GoFloat S] [GoFloat D] [GoConv S D] [GoLibm D]

theorem parseLine_eq (fuel : Nat) (st : ParseState S D) (line : Str) :
    parseLine fuel st line =
      match Spec.header line with
      | some s => .ok { st with beatMap := parseFormat line st.beatMap, currentSection := s }
      | none => parseInSection fuel st.currentSection line
          { st with beatMap := parseFormat line st.beatMap } := by
  unfold parseLine
  simp only [getSection_eq]
  cases h : Spec.header line with
  | none => rfl
  | some s =>
    have : s ≠ [] := by
      unfold Spec.header at h
      simp only at h
      split at h
      · split at h
        · cases h
        · cases h; assumption
      · cases h
    simp [this]

/-- Sections of `key:value` lines. -/
def kvSection (sec : Str) : Prop :=
  sec = "General".toList ∨ sec = "Metadata".toList ∨ sec = "Difficulty".toList

/-- Sections of records. -/
def recSection (sec : Str) : Prop :=
  sec = "Events".toList ∨ sec = "TimingPoints".toList ∨ sec = "HitObjects".toList

/-- What a line can do. -/
inductive Step (fuel : Nat) (sec line : Str) (st st' : ParseState S D) : Prop
  | general (k v : Str) : sec = "General".toList → Spec.keyValue line = some (k, v) →
      st' = { st with beatMap := parseGeneral k v st.beatMap } → Step fuel sec line st st'
  | metadata (k v : Str) : sec = "Metadata".toList → Spec.keyValue line = some (k, v) →
      st' = { st with beatMap := parseMetadata k v st.beatMap } → Step fuel sec line st st'
  | difficulty (k v : Str) : sec = "Difficulty".toList → Spec.keyValue line = some (k, v) →
      st' = { st with beatMap := parseDifficulty k v st.beatMap } → Step fuel sec line st st'
  | events (arr : List Str) (b : BeatMap S D) : sec = "Events".toList →
      Spec.fields line = some arr → parseEvents arr st.beatMap = .ok b →
      st' = { st with beatMap := b } → Step fuel sec line st st'
  | timing (arr : List Str) (b : BeatMap S D) : sec = "TimingPoints".toList →
      Spec.fields line = some arr → st.beatMap.parsePoint line = .ok b →
      st' = { st with beatMap := b, counter := st.counter + 1 } → Step fuel sec line st st'
  | hit (arr : List Str) (b : BeatMap S D) : sec = "HitObjects".toList →
      Spec.fields line = some arr → parseHitObjectLine fuel arr st.beatMap = .ok b →
      st' = { st with beatMap := b } → Step fuel sec line st st'
  | inert : st' = st → (kvSection sec → Spec.keyValue line = none) →
      (recSection sec → Spec.fields line = none) → Step fuel sec line st st'

theorem parseInSection_step {fuel : Nat} {sec line : Str} {st st' : ParseState S D}
    (h : parseInSection fuel sec line st = .ok st') : Step fuel sec line st st' := by
  unfold parseInSection at h
  simp only [tokenize2_eq, tokenize_eq] at h
  by_cases h1 : sec = "General".toList
  · rw [if_pos h1] at h
    cases hk : Spec.keyValue line with
    | none =>
      rw [hk] at h; cases h
      exact .inert rfl (fun _ => hk) (fun hc => absurd hc (by rw [h1]; unfold recSection; decide))
    | some kv => rw [hk] at h; cases h; exact .general kv.1 kv.2 h1 hk rfl
  rw [if_neg h1] at h
  by_cases h2 : sec = "Metadata".toList
  · rw [if_pos h2] at h
    cases hk : Spec.keyValue line with
    | none =>
      rw [hk] at h; cases h
      exact .inert rfl (fun _ => hk) (fun hc => absurd hc (by rw [h2]; unfold recSection; decide))
    | some kv => rw [hk] at h; cases h; exact .metadata kv.1 kv.2 h2 hk rfl
  rw [if_neg h2] at h
  by_cases h3 : sec = "Difficulty".toList
  · rw [if_pos h3] at h
    cases hk : Spec.keyValue line with
    | none =>
      rw [hk] at h; cases h
      exact .inert rfl (fun _ => hk) (fun hc => absurd hc (by rw [h3]; unfold recSection; decide))
    | some kv => rw [hk] at h; cases h; exact .difficulty kv.1 kv.2 h3 hk rfl
  rw [if_neg h3] at h
  by_cases h4 : sec = "Events".toList
  · rw [if_pos h4] at h
    cases hk : Spec.fields line with
    | none =>
      rw [hk] at h; cases h
      exact .inert rfl (fun hc => absurd hc (by rw [h4]; unfold kvSection; decide)) (fun _ => hk)
    | some arr =>
      rw [hk] at h
      simp only [gt_iff_lt, fields_length hk, if_true] at h
      cases hb : parseEvents arr st.beatMap with
      | error e => rw [hb] at h; cases h
      | ok b => rw [hb] at h; cases h; exact .events arr b h4 hk hb rfl
  rw [if_neg h4] at h
  by_cases h5 : sec = "TimingPoints".toList
  · rw [if_pos h5] at h
    cases hk : Spec.fields line with
    | none =>
      rw [hk] at h; cases h
      exact .inert rfl (fun hc => absurd hc (by rw [h5]; unfold kvSection; decide)) (fun _ => hk)
    | some arr =>
      rw [hk] at h
      simp only [gt_iff_lt, fields_length hk, if_true] at h
      cases hb : st.beatMap.parsePoint line with
      | error e => rw [hb] at h; cases h
      | ok b => rw [hb] at h; cases h; exact .timing arr b h5 hk hb rfl
  rw [if_neg h5] at h
  by_cases h6 : sec = "HitObjects".toList
  · rw [if_pos h6] at h
    cases hk : Spec.fields line with
    | none =>
      rw [hk] at h; cases h
      exact .inert rfl (fun hc => absurd hc (by rw [h6]; unfold kvSection; decide)) (fun _ => hk)
    | some arr =>
      rw [hk] at h
      simp only at h
      cases hb : parseHitObjectLine fuel arr st.beatMap with
      | error e => rw [hb] at h; cases h
      | ok b => rw [hb] at h; cases h; exact .hit arr b h6 hk hb rfl
  rw [if_neg h6] at h
  cases h
  exact .inert rfl
    (fun hc => hc.elim (fun h => absurd h h1) fun hc => hc.elim (fun h => absurd h h2)
      fun h => absurd h h3)
    (fun hc => hc.elim (fun h => absurd h h4) fun hc => hc.elim (fun h => absurd h h5)
      fun h => absurd h h6)

/-- What holds of every line that can be processed holds of all lines of a parsed file. -/
theorem parseLines_forall {fuel : Nat} (P : Str × Str → Prop)
    (hstep : ∀ sec line (st st' : ParseState S D), Step fuel sec line st st' → P (sec, line))
    {lines : List Str} {st st' : ParseState S D} (h : parseLines fuel lines st = .ok st') :
    ∀ p ∈ Spec.sectioned st.currentSection lines, P p := by
  induction lines generalizing st with
  | nil => intro p hp; cases hp
  | cons l ls ih =>
    rw [parseLines] at h
    rw [parseLine_eq] at h
    rw [Spec.sectioned]
    cases hh : Spec.header l with
    | some s =>
      rw [hh] at h
      exact ih h
    | none =>
      rw [hh] at h
      simp only at h
      cases hp : parseInSection fuel st.currentSection l
          { st with beatMap := parseFormat l st.beatMap } with
      | error e => rw [hp] at h; cases h
      | ok st1 =>
        rw [hp] at h
        have hs := parseInSection_step hp
        have hsec : st1.currentSection = st.currentSection := by
          cases hs <;> rename_i e <;> subst_vars <;> rfl
        have h2 := ih h
        rw [hsec] at h2
        intro p hp
        rcases List.mem_cons.mp hp with rfl | hp
        · exact hstep _ _ _ _ hs
        · exact h2 p hp

/-- A quantity that every line updates by `step` is folded over the sectioned lines. -/
theorem parseLines_fold {A : Type} (abs : BeatMap S D → Nat → A) (step : A → Str × Str → A)
    (hfmt : ∀ line b n, abs (parseFormat line b) n = abs b n) {fuel : Nat}
    (hstep : ∀ sec line (st st' : ParseState S D), Step fuel sec line st st' →
      abs st'.beatMap st'.counter = step (abs st.beatMap st.counter) (sec, line))
    {lines : List Str} {st st' : ParseState S D} (h : parseLines fuel lines st = .ok st') :
    abs st'.beatMap st'.counter =
      (Spec.sectioned st.currentSection lines).foldl step (abs st.beatMap st.counter) := by
  induction lines generalizing st with
  | nil => cases h; rfl
  | cons l ls ih =>
    rw [parseLines] at h
    rw [parseLine_eq] at h
    rw [Spec.sectioned]
    cases hh : Spec.header l with
    | some s =>
      rw [hh] at h
      have := ih h
      simp only [hfmt] at this
      exact this
    | none =>
      rw [hh] at h
      simp only at h
      cases hp : parseInSection fuel st.currentSection l
          { st with beatMap := parseFormat l st.beatMap } with
      | error e => rw [hp] at h; cases h
      | ok st1 =>
        rw [hp] at h
        have hs := parseInSection_step hp
        have h1 := hstep _ _ _ _ hs
        have h2 := ih h
        have hsec : st1.currentSection = st.currentSection := by
          cases hs <;> rename_i e <;> subst_vars <;> rfl
        simp only [hfmt] at h1
        rw [h2, h1, hsec, List.foldl_cons]

end

theorem foldl_overwrite {α β : Type} (g : α → Option β) (l : List α) (b : β) :
    l.foldl (fun b a => (g a).getD b) b = ((l.filterMap g).getLast?).getD b := by
  induction l using List.reverseRecOn with
  | nil => rfl
  | append_singleton l a ih =>
    rw [List.foldl_append, List.foldl_cons, List.foldl_nil, ih, List.filterMap_append]
    cases h : g a with
    | none => simp [h]
    | some x => simp [h]

end GosuPP
