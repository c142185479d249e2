import Verif.Lemmas.Mods
import Verif.Spec.Mods

/-! Helper lemmas for `String` and `ParseMods`. -/

namespace GosuPP
open Go

theorem utf8Size_ascii {c : Char} (h : c.toNat < 128) : c.utf8Size = 1 := by
  unfold Char.utf8Size
  have h1 : c.val.toNat < 128 := h
  have : c.val ≤ 0x7f := by rw [UInt32.le_iff_toNat_le]; simp; omega
  simp [this]

theorem byteLen_cons (c : Char) (s : Str) : byteLen (c :: s) = c.utf8Size + byteLen s := by
  simp [byteLen]

theorem utf8Size_le_byteLen {c : Char} {s : Str} (h : c ∈ s) : c.utf8Size ≤ byteLen s := by
  induction s with
  | nil => cases h
  | cons a s ih =>
    rw [byteLen_cons]
    rcases List.mem_cons.mp h with rfl | h
    · omega
    · have := ih h; omega

theorem utf8Size_pos' (c : Char) : 1 ≤ c.utf8Size := Char.utf8Size_pos c

/-- The scatter loop on a string of two-character chunks rebuilds the chunks. -/
theorem scatter_chunks (chunks : List Str) (hc : ∀ c ∈ chunks, Spec.IsChunk c) (pre : List Str) :
    Modifier.scatter chunks.flatten (2 * pre.length) (pre ++ List.replicate chunks.length []) =
      .ok (pre ++ chunks) := by
  induction chunks generalizing pre with
  | nil => simp [Modifier.scatter]
  | cons c cs ih =>
    obtain ⟨hlen, hasc⟩ := hc c (by simp)
    match c, hlen with
    | [a, b], _ =>
      have ha : a.utf8Size = 1 := utf8Size_ascii (hasc a (by simp))
      have hb : b.utf8Size = 1 := utf8Size_ascii (hasc b (by simp))
      have e1 : 2 * pre.length / 2 = pre.length := by omega
      have e2 : (2 * pre.length + 1) / 2 = pre.length := by omega
      have := ih (fun c hc' => hc c (by simp [hc'])) (pre ++ [[a, b]])
      simp only [List.flatten_cons, List.cons_append, List.nil_append, List.length_cons,
        List.replicate_succ]
      rw [Modifier.scatter, e1]
      simp only [List.getElem?_append_right (Nat.le_refl _), Nat.sub_self, List.getElem?_cons_zero,
        ha, List.set_append_right _ _ (Nat.le_refl _), List.set_cons_zero, List.nil_append]
      rw [Modifier.scatter, e2]
      simp only [List.getElem?_append_right (Nat.le_refl _), Nat.sub_self, List.getElem?_cons_zero,
        hb, List.set_append_right _ _ (Nat.le_refl _), List.set_cons_zero, List.cons_append,
        List.nil_append]
      simp only [List.length_append, List.length_cons, List.length_nil, List.append_assoc,
        List.cons_append, List.nil_append] at this
      rw [show 2 * pre.length + 1 + 1 = 2 * (pre.length + (0 + 1)) by omega]
      exact this

theorem byteLen_chunks (chunks : List Str) (hc : ∀ c ∈ chunks, Spec.IsChunk c) :
    byteLen chunks.flatten = 2 * chunks.length := by
  induction chunks with
  | nil => rfl
  | cons c cs ih =>
    obtain ⟨hlen, hasc⟩ := hc c (by simp)
    match c, hlen with
    | [a, b], _ =>
      have ha : a.utf8Size = 1 := utf8Size_ascii (hasc a (by simp))
      have hb : b.utf8Size = 1 := utf8Size_ascii (hasc b (by simp))
      simp only [List.flatten_cons, List.cons_append, List.nil_append, byteLen_cons, ha, hb,
        ih (fun c hc' => hc c (by simp [hc'])), List.length_cons]
      omega

theorem parseMods_chunks (chunks : List Str) (hc : ∀ c ∈ chunks, Spec.IsChunk c) :
    Modifier.parseMods chunks.flatten = .ok (Modifier.addImplied (Modifier.collect chunks 0)) := by
  unfold Modifier.parseMods
  rw [byteLen_chunks chunks hc, Nat.mul_div_cancel_left _ (by omega)]
  have := scatter_chunks chunks hc []
  simp only [List.length_nil, Nat.mul_zero, List.nil_append] at this
  rw [this]
  rfl

/-- The first position of a name in the table, as a function. -/
theorem lookup_some {name : Str} {l : List Str} {k i : Nat} (h : Modifier.lookup name l k = some i) :
    k ≤ i ∧ l[i - k]? = some name := by
  induction l generalizing k with
  | nil => simp [Modifier.lookup] at h
  | cons a l ih =>
    simp only [Modifier.lookup] at h
    split at h
    · rename_i he
      cases h
      simp [he]
    · have := ih h
      refine ⟨by omega, ?_⟩
      rw [show i - k = (i - (k + 1)) + 1 by omega, List.getElem?_cons_succ]
      exact this.2

theorem collect_getLsbD (chunks : List Str) (m : Modifier) (j : Nat) :
    (Modifier.collect chunks m).getLsbD j =
      (m.getLsbD j || (decide (j < 64) &&
        chunks.any (fun c => decide (Modifier.lookup c modsString 0 = some j)))) := by
  induction chunks generalizing m with
  | nil => simp [Modifier.collect]
  | cons c cs ih =>
    simp only [Modifier.collect]
    split
    · rename_i i hi
      rw [ih, BitVec.getLsbD_or, bit_getLsbD, List.any_cons, hi]
      by_cases hj : j < 64
      · simp only [hj, decide_true, Bool.true_and, Option.some.injEq]
        cases m.getLsbD j <;> simp [eq_comm]
      · simp [hj]
    · rename_i hn
      rw [ih, List.any_cons, hn]
      simp

theorem modsString_length : modsString.length = 32 := by decide +kernel

/-- Names in the table are found at their own position. -/
theorem lookup_name (i : Fin 32) :
    Modifier.lookup (modsString[i.val]'(by rw [modsString_length]; exact i.2)) modsString 0 = some i.val := by
  revert i
  decide +kernel

theorem lookup_lt {c : Str} {j : Nat} (h : Modifier.lookup c modsString 0 = some j) : j < 32 := by
  have := lookup_some h
  have h2 := this.2
  rw [Nat.sub_zero] at h2
  by_contra hj
  rw [List.getElem?_eq_none (by rw [modsString_length]; omega)] at h2
  cases h2

theorem lookup_iff {c : Str} {j : Nat} :
    Modifier.lookup c modsString 0 = some j ↔ modsString[j]? = some c := by
  constructor
  · intro h
    simpa using (lookup_some h).2
  · intro h
    have hj : j < 32 := by
      by_contra hj
      rw [List.getElem?_eq_none (by rw [modsString_length]; omega)] at h
      cases h
    have := lookup_name ⟨j, hj⟩
    rw [List.getElem?_eq_getElem (by rw [modsString_length]; exact hj)] at h
    simp only [Option.some.injEq] at h
    rwa [← h]

theorem addImplied_eq (m : Modifier) : Modifier.addImplied m = Spec.closure m := by
  have hh : ∀ (m : Modifier) {i : Nat}, i < 63 → (Spec.has m (Mod.bit i) ↔ m.getLsbD i = true) := by
    intro m i hi
    unfold Spec.has
    rw [and_bit]
    cases h : m.getLsbD i
    · simp
    · simp only [if_true, iff_true, ne_eq]
      intro h0
      have := bit_getLsbD i i
      rw [h0] at this
      simp at this
      omega
  unfold Modifier.addImplied Spec.closure Mod.Nightcore Mod.Perfect Mod.Daycore Mod.DoubleTime
    Mod.SuddenDeath Mod.HalfTime
  simp only [active_bit _ (show (9 : Nat) < 63 by omega), active_bit _ (show (14 : Nat) < 63 by omega),
    active_bit _ (show (31 : Nat) < 63 by omega), hh _ (show (9 : Nat) < 63 by omega),
    hh _ (show (14 : Nat) < 63 by omega), hh _ (show (31 : Nat) < 63 by omega)]
  apply BitVec.eq_of_getLsbD_eq
  intro j hj
  cases h9 : m.getLsbD 9 <;> cases h14 : m.getLsbD 14 <;> cases h31 : m.getLsbD 31 <;>
    simp [-BitVec.getLsbD_eq_getElem, bit_getLsbD, h14, h31, BitVec.getLsbD_or]

theorem table_foldr_getLsbD (t : List (String × Modifier)) (chunks : List Str) (j : Nat) :
    (t.foldr (fun p m => if p.1.toList ∈ chunks then p.2 ||| m else m) (0 : Modifier)).getLsbD j =
      t.any (fun p => decide (p.1.toList ∈ chunks) && p.2.getLsbD j) := by
  induction t with
  | nil => simp
  | cons p t ih =>
    simp only [List.foldr_cons, List.any_cons]
    split
    · rename_i h; rw [BitVec.getLsbD_or, ih]; simp [h]
    · rename_i h; rw [ih]; simp [h]

/-- The specification table lists the names of the model's table in order, with the bit of
their position. -/
theorem modTable_eq :
    Spec.modTable = (List.range 32).map
      (fun i => (String.ofList (modsString.getD i []), Mod.bit i)) := by decide +kernel

theorem namedUnion_getLsbD (chunks : List Str) (j : Nat) :
    (Spec.namedUnion chunks).getLsbD j =
      chunks.any (fun c => decide (modsString[j]? = some c)) := by
  unfold Spec.namedUnion
  rw [table_foldr_getLsbD, modTable_eq, List.any_map, Bool.eq_iff_iff, List.any_eq_true,
    List.any_eq_true]
  constructor
  · rintro ⟨i, hi, h⟩
    simp only [Function.comp, Bool.and_eq_true, decide_eq_true_eq, String.toList_ofList,
      bit_getLsbD] at h
    obtain ⟨hmem, _, rfl⟩ := h
    refine ⟨_, hmem, ?_⟩
    have : j < modsString.length := by rw [modsString_length]; simpa using hi
    simp [List.getD, List.getElem?_eq_getElem this]
  · rintro ⟨c, hc, h⟩
    simp only [decide_eq_true_eq] at h
    have hj : j < 32 := by
      by_contra hj
      rw [List.getElem?_eq_none (by rw [modsString_length]; omega)] at h
      cases h
    refine ⟨j, by simpa using hj, ?_⟩
    simp only [Function.comp, Bool.and_eq_true, decide_eq_true_eq, String.toList_ofList,
      bit_getLsbD]
    refine ⟨?_, by omega, trivial⟩
    simpa [List.getD, h] using hc

theorem collect_eq (chunks : List Str) : Modifier.collect chunks 0 = Spec.namedUnion chunks := by
  apply BitVec.eq_of_getLsbD_eq
  intro j hj
  rw [collect_getLsbD, namedUnion_getLsbD]
  simp [hj, lookup_iff]

/-! ### `String` -/

theorem sshiftRight_getLsbD (m : Modifier) (k j : Nat) (h : j + k < 64) :
    (m.sshiftRight k).getLsbD j = m.getLsbD (j + k) := by
  rw [BitVec.getLsbD_sshiftRight]
  have h1 : j < 64 := by omega
  have h2 : k + j < 64 := by omega
  simp [h1, h2, Nat.add_comm]

theorem and_one_eq (m : Modifier) : (m &&& 1 == 1) = m.getLsbD 0 := by
  have h := and_bit m 0
  have hb : (Mod.bit 0) = 1 := by decide
  rw [hb] at h
  rw [h]
  cases m.getLsbD 0 <;> decide

/-- The printed chunks: the names whose bit is set. -/
def printed : List Str → Modifier → List Str
  | [], _ => []
  | name :: rest, m => (if m.getLsbD 0 then [name] else []) ++ printed rest (m.sshiftRight 1)

theorem stringLoop_eq (names : List Str) (m : Modifier) :
    Modifier.stringLoop names m = (printed names m).flatten := by
  induction names generalizing m with
  | nil => rfl
  | cons n ns ih =>
    simp only [Modifier.stringLoop, printed, and_one_eq, ih]
    cases m.getLsbD 0 <;> simp

theorem mem_printed (names : List Str) (m : Modifier) (c : Str) (h : names.length ≤ 63) :
    c ∈ printed names m ↔ ∃ i, names[i]? = some c ∧ m.getLsbD i = true := by
  induction names generalizing m with
  | nil => simp [printed]
  | cons n ns ih =>
    simp only [List.length_cons] at h
    have hsh : ∀ i, i < ns.length → (m.sshiftRight 1).getLsbD i = m.getLsbD (i + 1) :=
      fun i hi => sshiftRight_getLsbD m 1 i (by omega)
    rw [printed, List.mem_append, ih _ (by omega)]
    constructor
    · rintro (h0 | ⟨i, hi, hb⟩)
      · cases hm : m.getLsbD 0
        · rw [hm] at h0; simp at h0
        · rw [hm] at h0; simp at h0; exact ⟨0, by simp [h0], hm⟩
      · have hlt : i < ns.length := by
          by_contra hge
          rw [List.getElem?_eq_none (by omega)] at hi; cases hi
        exact ⟨i + 1, by simpa using hi, by rw [← hsh i hlt]; exact hb⟩
    · rintro ⟨i, hi, hb⟩
      match i with
      | 0 => left; simp at hi; simp [hb, hi]
      | i + 1 =>
        right
        have hi' : ns[i]? = some c := by simpa using hi
        have hlt : i < ns.length := by
          by_contra hge
          rw [List.getElem?_eq_none (by omega)] at hi'; cases hi'
        exact ⟨i, hi', by rw [hsh i hlt]; exact hb⟩

theorem modsString_chunk : ∀ c ∈ modsString, Spec.IsChunk c := by
  have : modsString.all (fun c => c.length == 2 && c.all (fun x => x.toNat < 128)) = true := by
    decide +kernel
  intro c hc
  have := List.all_eq_true.mp this c hc
  simp only [Bool.and_eq_true, beq_iff_eq, List.all_eq_true, decide_eq_true_eq] at this
  exact this

theorem printed_subset (names : List Str) (m : Modifier) : ∀ c ∈ printed names m, c ∈ names := by
  induction names generalizing m with
  | nil => simp [printed]
  | cons n ns ih =>
    intro c hc
    rw [printed, List.mem_append] at hc
    rcases hc with h | h
    · cases hm : m.getLsbD 0 <;> rw [hm] at h <;> simp at h
      simp [h]
    · exact List.mem_cons_of_mem _ (ih _ c h)

theorem namedUnion_printed (m : Modifier) (j : Nat) :
    (Spec.namedUnion (printed modsString m)).getLsbD j = (decide (j < 32) && m.getLsbD j) := by
  rw [namedUnion_getLsbD, Bool.eq_iff_iff, List.any_eq_true]
  constructor
  · rintro ⟨c, hc, h⟩
    simp only [decide_eq_true_eq] at h
    rw [← lookup_iff] at h
    obtain ⟨i, hi, hb⟩ := (mem_printed modsString m c (by rw [modsString_length]; omega)).mp hc
    rw [← lookup_iff] at hi
    have : i = j := by rw [hi] at h; simpa using h
    subst this
    simp [lookup_lt h, hb]
  · intro h
    simp only [Bool.and_eq_true, decide_eq_true_eq] at h
    have hl : j < modsString.length := by rw [modsString_length]; exact h.1
    refine ⟨modsString[j], ?_, by simp [List.getElem?_eq_getElem hl]⟩
    exact (mem_printed modsString m _ (by rw [modsString_length]; omega)).mpr
      ⟨j, List.getElem?_eq_getElem hl, h.2⟩

theorem dropImplied_getLsbD (m : Modifier) (j : Nat) :
    (Modifier.dropImplied m).getLsbD j =
      (m.getLsbD j && !(decide (j = 6) && m.getLsbD 9) && !(decide (j = 8) && m.getLsbD 31)
        && !(decide (j = 5) && m.getLsbD 14)) := by
  unfold Modifier.dropImplied Mod.Nightcore Mod.Perfect Mod.Daycore Mod.DoubleTime
    Mod.SuddenDeath Mod.HalfTime
  simp only [active_bit _ (show (9 : Nat) < 63 by omega), active_bit _ (show (14 : Nat) < 63 by omega),
    active_bit _ (show (31 : Nat) < 63 by omega)]
  by_cases hj : j < 64
  · by_cases h6 : j = 6 <;> by_cases h8 : j = 8 <;> by_cases h5 : j = 5 <;>
    cases h9 : m.getLsbD 9 <;> cases h14 : m.getLsbD 14 <;> cases h31 : m.getLsbD 31 <;>
      simp [-BitVec.getLsbD_eq_getElem, bit_getLsbD, BitVec.getLsbD_and, BitVec.getLsbD_not, *]
  · have : m.getLsbD j = false := BitVec.getLsbD_of_ge m j (by omega)
    rw [this]
    simp only [Bool.false_and]
    exact BitVec.getLsbD_of_ge _ j (by omega)

theorem closure_getLsbD (m : Modifier) (j : Nat) :
    (Spec.closure m).getLsbD j =
      (m.getLsbD j || (decide (j = 6) && m.getLsbD 9) || (decide (j = 5) && m.getLsbD 14)
        || (decide (j = 8) && m.getLsbD 31)) := by
  rw [← addImplied_eq]
  unfold Modifier.addImplied Mod.Nightcore Mod.Perfect Mod.Daycore Mod.DoubleTime
    Mod.SuddenDeath Mod.HalfTime
  simp only [active_bit _ (show (9 : Nat) < 63 by omega), active_bit _ (show (14 : Nat) < 63 by omega),
    active_bit _ (show (31 : Nat) < 63 by omega)]
  by_cases hj : j < 64
  · cases h9 : m.getLsbD 9 <;> cases h14 : m.getLsbD 14 <;> cases h31 : m.getLsbD 31 <;>
      simp [-BitVec.getLsbD_eq_getElem, bit_getLsbD, BitVec.getLsbD_or, hj, h14, h31]
  · have h0 : m.getLsbD j = false := BitVec.getLsbD_of_ge m j (by omega)
    rw [h0, BitVec.getLsbD_of_ge _ j (by omega)]
    have : j ≠ 6 ∧ j ≠ 5 ∧ j ≠ 8 := by omega
    simp [this]

theorem allNamed_getLsbD (j : Nat) : Spec.allNamed.getLsbD j = decide (j < 32) := by
  have h : ∀ j : Fin 64, Spec.allNamed.getLsbD j.val = decide (j.val < 32) := by decide +kernel
  by_cases hj : j < 64
  · exact h ⟨j, hj⟩
  · rw [BitVec.getLsbD_of_ge _ j (by omega)]
    simp; omega

theorem parse_string (m : Modifier) :
    Modifier.parseMods (Modifier.string m) = .ok (Spec.closure (m &&& Spec.allNamed)) := by
  unfold Modifier.string
  rw [stringLoop_eq, parseMods_chunks _ (fun c hc => modsString_chunk c (printed_subset _ _ c hc)),
    collect_eq, addImplied_eq]
  congr 1
  apply BitVec.eq_of_getLsbD_eq
  intro j hj
  simp only [closure_getLsbD, namedUnion_printed, dropImplied_getLsbD, BitVec.getLsbD_and,
    allNamed_getLsbD]
  by_cases h6 : j = 6 <;> by_cases h8 : j = 8 <;> by_cases h5 : j = 5 <;>
    cases h9 : m.getLsbD 9 <;> cases h14 : m.getLsbD 14 <;> cases h31 : m.getLsbD 31 <;>
    simp_all [Bool.and_comm]

/-! ### panics -/

theorem scatter_panic (s : Str) (n : Nat) (sl : List Str) :
    (Modifier.scatter s n sl = .error .panic ↔
      ∃ c, s.getLast? = some c ∧ sl.length ≤ (n + byteLen s - c.utf8Size) / 2) ∧
    Modifier.scatter s n sl ≠ .error .hang := by
  induction s generalizing n sl with
  | nil => simp [Modifier.scatter]
  | cons a s ih =>
    have ha := utf8Size_pos' a
    simp only [Modifier.scatter]
    cases hg : sl[n / 2]? with
    | none =>
      have hl : sl.length ≤ n / 2 := by simpa using hg
      refine ⟨⟨fun _ => ?_, fun _ => rfl⟩, by simp⟩
      cases hs : s with
      | nil => exact ⟨a, by simp, by simp [byteLen]; omega⟩
      | cons b t =>
        have hne : (a :: b :: t) ≠ [] := by simp
        refine ⟨(a :: b :: t).getLast hne, List.getLast?_eq_some_getLast hne, ?_⟩
        have hle : (b :: t).getLast (by simp) ∈ (b :: t) := List.getLast_mem _
        have hsz : ((b :: t).getLast (by simp)).utf8Size ≤ byteLen (b :: t) := by
          exact utf8Size_le_byteLen hle
        rw [List.getLast_cons (by simp : (b :: t) ≠ []), byteLen_cons]
        omega
    | some part =>
      simp only
      have hl : n / 2 < sl.length := by
        by_contra hge
        rw [List.getElem?_eq_none (by omega)] at hg; cases hg
      have := ih (n + a.utf8Size) (sl.set (n / 2) (part ++ [a]))
      refine ⟨?_, this.2⟩
      rw [this.1]
      cases hs : s with
      | nil =>
        simp only [List.getLast?_nil, reduceCtorEq, false_and, exists_const, false_iff]
        rintro ⟨c, hc, hle⟩
        simp at hc
        subst hc
        simp [byteLen] at hle
        omega
      | cons b t =>
        rw [List.getLast?_cons_cons, byteLen_cons a, List.length_set]
        simp only [Nat.add_assoc]

theorem parseMods_panic (s : Str) :
    (Modifier.parseMods s = .error .panic ↔
      byteLen s % 2 = 1 ∧ ∃ c, s.getLast? = some c ∧ c.utf8Size = 1) ∧
    Modifier.parseMods s ≠ .error .hang := by
  have h := scatter_panic s 0 (List.replicate (byteLen s / 2) [])
  have hb : ∀ (r : Result (List Str)), r = Modifier.scatter s 0 (List.replicate (byteLen s / 2) []) →
      ((Modifier.parseMods s = .error .panic ↔ r = .error .panic) ∧
        (Modifier.parseMods s = .error .hang ↔ r = .error .hang)) := by
    rintro r rfl
    unfold Modifier.parseMods
    cases hs : Modifier.scatter s 0 (List.replicate (byteLen s / 2) []) with
    | error e => cases e <;> simp [bind, Except.bind]
    | ok v => simp [bind, Except.bind, pure, Except.pure]
  have hb := hb _ rfl
  rw [hb.1, ne_eq, hb.2]
  refine ⟨?_, h.2⟩
  rw [h.1, List.length_replicate, Nat.zero_add]
  constructor
  · rintro ⟨c, hc, hle⟩
    have hc1 := utf8Size_pos' c
    have hmem : c ∈ s := List.mem_of_getLast? hc
    have hsz : c.utf8Size ≤ byteLen s := by
      exact utf8Size_le_byteLen hmem
    exact ⟨by omega, c, hc, by omega⟩
  · rintro ⟨hodd, c, hc, h1⟩
    exact ⟨c, hc, by omega⟩

end GosuPP
