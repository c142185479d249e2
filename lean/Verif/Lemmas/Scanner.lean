import Verif.Spec.Reader
import Mathlib.Data.List.Basic

/-! The lines a scanner delivers. -/

namespace GosuPP
open Go Go.Scanner

/-- Pieces between newline bytes. -/
def splitB : Bytes → List Bytes
  | [] => [[]]
  | x :: xs =>
    if x = 10 then [] :: splitB xs
    else match splitB xs with
      | [] => [[x]]
      | p :: ps => (x :: p) :: ps

def piecesB (max : Nat) : List Bytes → List Bytes
  | [] => []
  | [p] => if p.isEmpty then [] else if p.length ≥ max then [] else [Scanner.dropCR p]
  | p :: ps => if p.length ≥ max then [] else Scanner.dropCR p :: piecesB max ps

theorem piecesB_cons (max : Nat) (a : Bytes) {ps : List Bytes} (h : ps ≠ []) :
    piecesB max (a :: ps) = if a.length ≥ max then [] else Scanner.dropCR a :: piecesB max ps := by
  cases ps with
  | nil => exact absurd rfl h
  | cons p ps => rfl

theorem splitB_ne (d : Bytes) : splitB d ≠ [] := by
  cases d with
  | nil => simp [splitB]
  | cons x xs =>
    unfold splitB
    split
    · simp
    · split <;> simp

theorem splitB_newline {a b : Bytes} (h : (10 : UInt8) ∉ a) : splitB (a ++ 10 :: b) = a :: splitB b := by
  induction a with
  | nil => simp [splitB]
  | cons x xs ih =>
    simp only [List.mem_cons, not_or] at h
    rw [List.cons_append, splitB, if_neg (fun e => h.1 e.symm), ih h.2]

theorem splitB_prefix {a : Bytes} (b : Bytes) (h : (10 : UInt8) ∉ a) :
    ∃ p ps, splitB b = p :: ps ∧ splitB (a ++ b) = (a ++ p) :: ps := by
  induction a with
  | nil =>
    cases hs : splitB b with
    | nil => exact absurd hs (splitB_ne b)
    | cons p ps => exact ⟨p, ps, rfl, by simp [hs]⟩
  | cons x xs ih =>
    simp only [List.mem_cons, not_or] at h
    obtain ⟨p, ps, h1, h2⟩ := ih h.2
    refine ⟨p, ps, h1, ?_⟩
    rw [List.cons_append, splitB, if_neg (fun e => h.1 e.symm), h2]
    rfl

theorem splitB_none {a : Bytes} (h : (10 : UInt8) ∉ a) : splitB a = [a] := by
  obtain ⟨p, ps, h1, h2⟩ := splitB_prefix [] h
  simp only [splitB, List.cons.injEq] at h1
  rw [List.append_nil] at h2
  rw [h2, ← h1.1, ← h1.2, List.append_nil]

/-- The part after the last newline. -/
def lastPiece (d : Bytes) : Bytes := (splitB d).getLast (splitB_ne d)

theorem lastPiece_newline {a b : Bytes} (h : (10 : UInt8) ∉ a) : lastPiece (a ++ 10 :: b) = lastPiece b := by
  unfold lastPiece
  simp only [splitB_newline h]
  exact List.getLast_cons (splitB_ne b)

theorem lastPiece_none {a : Bytes} (h : (10 : UInt8) ∉ a) : lastPiece a = a := by
  unfold lastPiece
  simp only [splitB_none h, List.getLast_singleton]

/-- What is still to come. -/
def total (s : Scanner) : Bytes := s.data ++ (if s.err.isSome then [] else Spec.delivered 0 s.script)

def measure (s : Scanner) : Nat := s.data.length + size s.script + (if s.err.isSome then 0 else 1)

theorem size_cons (c : Bytes) (e : Option ReadErr) (rest : Script) :
    size ((c, e) :: rest) = 2 * c.length + 1 + size rest := by
  simp [size]

theorem fill_spec {space : Nat} (hsp : 0 < space) {k : Nat} (hk : k ≤ 100) {sc : Script} {c : Bytes}
    {e : Option ReadErr} {sc' : Script} (h : fill space k sc = (c, e, sc')) :
    c ++ (if e.isSome then [] else Spec.delivered 0 sc') = Spec.delivered k sc ∧
    c.length ≤ space ∧
    c.length + size sc' + (if e.isSome then 0 else 1) < size sc + 1 ∧
    (Spec.ErrorsAlone sc → Spec.ErrorsAlone sc' ∧ (e.isSome → c = [])) := by
  induction sc generalizing k with
  | nil =>
    rw [fill] at h
    cases h
    refine ⟨rfl, Nat.zero_le _, by simp [size], fun _ => ⟨fun p hp => absurd hp (List.not_mem_nil), fun _ => rfl⟩⟩
  | cons p rest ih =>
    obtain ⟨c0, e0⟩ := p
    unfold fill at h
    split at h
    · rename_i hlt
      cases h
      have hne : c0.drop space ≠ [] := by
        intro h0
        have := congrArg List.length h0
        simp at this
        omega
      have hne0 : c0 ≠ [] := by
        rintro rfl
        simp at hlt
      refine ⟨?_, by simp, ?_, ?_⟩
      · cases e0 with
        | some e => simp [Spec.delivered, List.take_append_drop]
        | none =>
          simp only [Spec.delivered, Option.isSome_none, Bool.false_eq_true, if_false, if_pos hne, if_pos hne0]
          rw [← List.append_assoc, List.take_append_drop]
      · simp only [size_cons, List.length_take, List.length_drop, Option.isSome_none, Bool.false_eq_true, if_false]
        omega
      · intro ha
        have h0 : e0 = none := by
          cases e0 with
          | none => rfl
          | some e => exact absurd (ha _ (List.mem_cons_self ..) rfl) hne0
        subst h0
        refine ⟨fun p hp he => ?_, fun h => by cases h⟩
        rcases List.mem_cons.mp hp with rfl | hp
        · cases he
        · exact ha p (List.mem_cons_of_mem _ hp) he
    · rename_i hle
      have hle : c0.length ≤ space := Nat.le_of_not_lt hle
      cases e0 with
      | some e0 =>
        simp only at h
        cases h
        refine ⟨by simp [Spec.delivered], hle, ?_, fun ha => ⟨fun p hp => ha p (List.mem_cons_of_mem _ hp), fun _ => ha _ (List.mem_cons_self ..) rfl⟩⟩
        simp only [size_cons, Option.isSome_some, if_true]
        omega
      | none =>
        simp only at h
        by_cases hc : c0 = []
        · subst hc
          simp only [ne_eq, not_true_eq_false, if_false] at h
          by_cases hk2 : k + 1 > 100
          · rw [if_pos hk2] at h
            cases h
            have : k = 100 := by omega
            subst this
            refine ⟨by simp [Spec.delivered], Nat.zero_le _, ?_, fun ha => ⟨fun p hp => ha p (List.mem_cons_of_mem _ hp), fun _ => rfl⟩⟩
            simp only [size_cons, Option.isSome_some, if_true]
            simp only [List.length_nil]
            omega
          · rw [if_neg hk2] at h
            obtain ⟨h1, h2, h3, h4⟩ := ih (by omega) h
            refine ⟨?_, h2, ?_, fun ha => h4 (fun p hp => ha p (List.mem_cons_of_mem _ hp))⟩
            · rw [h1]
              simp only [Spec.delivered, ne_eq, not_true_eq_false, if_false]
              rw [if_neg (by omega)]
            · rw [size_cons]
              omega
        · simp only [ne_eq, hc, not_false_eq_true, if_true] at h
          cases h
          refine ⟨by simp [Spec.delivered, hc], hle, ?_, fun ha => ⟨fun p hp => ha p (List.mem_cons_of_mem _ hp), fun h => by cases h⟩⟩
          have := List.length_pos_of_ne_nil hc
          simp only [size_cons, Option.isSome_none, Bool.false_eq_true, if_false]
          omega

theorem idxOf_some {d : Bytes} {i : Nat} (h : d.idxOf? 10 = some i) :
    i < d.length ∧ (10 : UInt8) ∉ d.take i ∧ d = d.take i ++ 10 :: d.drop (i + 1) := by
  induction d generalizing i with
  | nil => cases h
  | cons x xs ih =>
    rw [List.idxOf?_cons] at h
    by_cases hx : x = 10
    · subst hx
      simp at h
      subst h
      simp
    · have hx' : (x == 10) = false := by simpa using hx
      rw [hx'] at h
      simp only [Bool.false_eq_true, if_false] at h
      cases hi : xs.idxOf? 10 with
      | none => rw [hi] at h; cases h
      | some j =>
        rw [hi] at h
        cases h
        obtain ⟨h1, h2, h3⟩ := ih hi
        refine ⟨by simp; omega, ?_, ?_⟩
        · simp only [List.take_succ_cons, List.mem_cons, not_or]
          exact ⟨fun e => hx e.symm, h2⟩
        · simp only [List.take_succ_cons, List.drop_succ_cons, List.cons_append]
          rw [← h3]

theorem idxOf_none {d : Bytes} (h : d.idxOf? 10 = none) : (10 : UInt8) ∉ d := by
  simpa using h

/-- The invariant of a scanner whose reader does not finish a line of `max` bytes along with an error. -/
structure Sound (max : Nat) (s : Scanner) : Prop where
  fits : s.start + s.data.length ≤ max
  last : (s.err.isSome ∧ s.data.length < max) ∨ (s.err = none ∧ Spec.ErrorsAlone s.script) ∨
      (lastPiece (total s)).length ≠ max

/-- Reading more changes nothing, and a full buffer without newline is a line that is too long. -/
theorem refill_spec {max : Nat} {s : Scanner} (hs : Sound max s) (he : s.err = none) (hn : (10 : UInt8) ∉ s.data) :
    (refill max s = .stop ∧ piecesB max (splitB (total s)) = []) ∨
    (∃ s', refill max s = .more s' ∧ total s' = total s ∧ Sound max s' ∧ measure s' < measure s) := by
  obtain ⟨hle, hq⟩ := hs
  unfold refill
  rw [he]
  simp only [Option.isSome_none, Bool.false_eq_true, if_false]
  generalize hst : (if s.start > 0 ∧ (s.start + s.data.length = max ∨ s.start > max / 2) then 0 else s.start) = start
  have hst' : start + s.data.length ≤ max ∧ (start + s.data.length = max → s.data.length = max) := by
    rw [← hst]
    split <;> omega
  by_cases hfull : start + s.data.length = max
  · rw [if_pos hfull]
    refine .inl ⟨rfl, ?_⟩
    have hlen := hst'.2 hfull
    obtain ⟨p, ps, h1, h2⟩ := splitB_prefix (if s.err.isSome then [] else Spec.delivered 0 s.script) hn
    unfold total
    rw [h2]
    cases ps with
    | nil =>
      rw [piecesB]
      split
      · rfl
      · rw [if_pos (by simp; omega)]
    | cons q qs => rw [piecesB_cons max _ (by simp), if_pos (by simp; omega)]
  · rw [if_neg hfull]
    rcases hr : fill (max - (start + s.data.length)) 0 s.script with ⟨c, e, sc⟩
    obtain ⟨h1, h2, h3, h4⟩ := fill_spec (by omega) (by omega) hr
    have ht : total { start := start, data := s.data ++ c, err := e, script := sc } = total s := by
      unfold total
      simp only [he, Option.isSome_none, Bool.false_eq_true, if_false, List.append_assoc]
      rw [h1]
    refine .inr ⟨_, rfl, ht, ⟨?_, ?_⟩, ?_⟩
    · simp only [List.length_append]
      omega
    · rcases hq with ⟨q, -⟩ | ⟨-, q⟩ | q
      · rw [he] at q; cases q
      · obtain ⟨q1, q2⟩ := h4 q
        cases e with
        | none => exact .inr (.inl ⟨rfl, q1⟩)
        | some e =>
          refine .inl ⟨rfl, ?_⟩
          simp only [q2 rfl, List.append_nil]
          omega
      · rw [← ht] at q
        exact .inr (.inr q)
    · simp only [measure, he, Option.isSome_none, Bool.false_eq_true, if_false, List.length_append]
      omega

/-- The scanner delivers the lines of what the reader delivers. -/
theorem tokens_eq {max : Nat} (hmax : 0 < max) {fuel : Nat} {s : Scanner} (hf : measure s < fuel)
    (hs : Sound max s) : tokens max fuel s = piecesB max (splitB (total s)) := by
  induction fuel generalizing s with
  | zero => omega
  | succ fuel ih =>
    rw [tokens]
    unfold step
    have more : s.err = none → (10 : UInt8) ∉ s.data →
        (match refill max s with
          | .token t s => t :: tokens max fuel s
          | .more s => tokens max fuel s
          | .stop => []) = piecesB max (splitB (total s)) := by
      intro he hn
      rcases refill_spec hs he hn with ⟨h1, h2⟩ | ⟨s', h1, h2, h3, h4⟩
      · rw [h1, h2]
      · rw [h1]
        simp only
        rw [ih (by omega) h3, h2]
    obtain ⟨hle, hq⟩ := hs
    by_cases hem : (!s.data.isEmpty || s.err.isSome) = true
    · rw [if_pos hem]
      unfold splitLine
      by_cases he : (s.err.isSome && s.data.isEmpty) = true
      · rw [if_pos he]
        simp only [Bool.and_eq_true, List.isEmpty_iff] at he
        simp only [refill, he.1, if_true]
        unfold total
        simp [he.1, he.2, splitB, piecesB]
      · rw [if_neg he]
        cases hi : s.data.idxOf? 10 with
        | some i =>
          simp only
          obtain ⟨h1, h2, h3⟩ := idxOf_some hi
          have ht : total s = s.data.take i ++ 10 ::
              total { s with start := s.start + (i + 1), data := s.data.drop (i + 1) } := by
            unfold total
            simp only
            conv => lhs; rw [h3]
            simp
          rw [ht, splitB_newline h2]
          rw [ih]
          · rw [piecesB_cons max _ (splitB_ne _), if_neg (by simp; omega)]
          · simp only [measure, List.length_drop] at hf ⊢
            omega
          · refine ⟨by simp only [List.length_drop]; omega, ?_⟩
            rcases hq with ⟨q1, q2⟩ | q | q
            · exact .inl ⟨q1, by simp only [List.length_drop]; omega⟩
            · exact .inr (.inl q)
            · rw [ht, lastPiece_newline h2] at q
              exact .inr (.inr q)
        | none =>
          have hn := idxOf_none hi
          cases hes : s.err with
          | some e =>
            simp only [Option.isSome_some, if_true]
            have ht : total s = s.data := by unfold total; simp [hes]
            have hne : s.data ≠ [] := by
              intro h0
              rw [hes, h0] at he
              exact he rfl
            have hlen : s.data.length < max := by
              rcases hq with ⟨-, q⟩ | ⟨q, -⟩ | q
              · exact q
              · rw [hes] at q; cases q
              · rw [ht, lastPiece_none hn] at q
                omega
            rw [ht, splitB_none hn, piecesB, if_neg (by simpa using hne), if_neg (by omega)]
            congr 1
            rw [ih]
            · unfold total
              simp [splitB, piecesB]
            · have := List.length_pos_of_ne_nil hne
              simp only [measure, hes, Option.isSome_some, if_true, List.length_drop] at hf ⊢
              omega
            · refine ⟨by simp only [List.length_drop]; omega, ?_⟩
              exact .inl ⟨rfl, by simp only [List.length_drop]; omega⟩
          | none =>
            simp only [Option.isSome_none, Bool.false_eq_true, if_false]
            exact more hes hn
    · rw [if_neg hem]
      simp only [Bool.or_eq_true, Bool.not_eq_true', not_or, Bool.not_eq_false, List.isEmpty_iff,
        Bool.not_eq_true, Option.isSome_eq_false_iff, Option.isNone_iff_eq_none] at hem
      exact more hem.2 (by rw [hem.1]; simp)

theorem scan_eq {max : Nat} (hmax : 0 < max) (sc : Script)
    (h : Spec.ErrorsAlone sc ∨ (lastPiece (Spec.delivered 0 sc)).length ≠ max) :
    scan max sc = piecesB max (splitB (Spec.delivered 0 sc)) := by
  unfold scan
  rw [tokens_eq hmax]
  · rfl
  · simp [measure]
  · refine ⟨by simp, ?_⟩
    rcases h with h | h
    · exact .inr (.inl ⟨rfl, h⟩)
    · exact .inr (.inr h)

/-! ### Bytes and characters -/

/-- A character outside ASCII has only bytes of 128 and more, an ASCII character is its byte. -/
theorem encode_cases (c : Char) :
    (c.val.toNat ≤ 127 ∧ String.utf8EncodeChar c = [UInt8.ofNat c.val.toNat]) ∨
    (∃ b l, String.utf8EncodeChar c = b :: l ∧ 127 < c.val.toNat ∧ ∀ x ∈ b :: l, 127 < x.toNat) := by
  unfold String.utf8EncodeChar
  simp only
  split
  · rename_i h
    exact .inl ⟨h, rfl⟩
  · rename_i h
    right
    split
    · refine ⟨_, _, rfl, by omega, ?_⟩
      intro x hx
      simp only [List.mem_cons, List.not_mem_nil, or_false] at hx
      rcases hx with rfl | rfl <;> simp only [UInt8.toNat_ofNat'] <;> omega
    · split
      · refine ⟨_, _, rfl, by omega, ?_⟩
        intro x hx
        simp only [List.mem_cons, List.not_mem_nil, or_false] at hx
        rcases hx with rfl | rfl | rfl <;> simp only [UInt8.toNat_ofNat'] <;> omega
      · refine ⟨_, _, rfl, by omega, ?_⟩
        intro x hx
        simp only [List.mem_cons, List.not_mem_nil, or_false] at hx
        rcases hx with rfl | rfl | rfl | rfl <;> simp only [UInt8.toNat_ofNat'] <;> omega

theorem char_of_toNat {c d : Char} (h : c.val.toNat = d.val.toNat) : c = d :=
  Char.ext (UInt32.toNat_inj.mp h)

theorem encode_mem {c d : Char} (hd : d.val.toNat ≤ 127)
    (h : UInt8.ofNat d.val.toNat ∈ String.utf8EncodeChar c) : c = d := by
  rcases encode_cases c with ⟨h1, h2⟩ | ⟨b, l, h1, -, h3⟩
  · rw [h2, List.mem_singleton] at h
    have := congrArg UInt8.toNat h
    simp only [UInt8.toNat_ofNat'] at this
    exact char_of_toNat (by omega)
  · rw [h1] at h
    have := h3 _ h
    simp only [UInt8.toNat_ofNat'] at this
    omega

theorem encode_newline (c : Char) (hc : c ≠ '\n') : (10 : UInt8) ∉ String.utf8EncodeChar c :=
  fun h => hc (encode_mem (d := '\n') (by decide) h)

theorem splitB_utf8 (s : Str) : splitB (Spec.utf8 s) = (split '\n' s).map Spec.utf8 := by
  induction s with
  | nil => rfl
  | cons c cs ih =>
    have hcons : Spec.utf8 (c :: cs) = String.utf8EncodeChar c ++ Spec.utf8 cs := rfl
    rw [hcons, split]
    by_cases hc : c = '\n'
    · subst hc
      rw [if_pos rfl]
      have : String.utf8EncodeChar '\n' = [10] := by decide
      rw [this, List.cons_append, List.nil_append, splitB, if_pos rfl, ih]
      rfl
    · rw [if_neg hc]
      obtain ⟨p, ps, h1, h2⟩ := splitB_prefix (Spec.utf8 cs) (encode_newline c hc)
      rw [h2]
      rw [ih] at h1
      cases hsp : split '\n' cs with
      | nil => rw [hsp] at h1; cases h1
      | cons q qs =>
        rw [hsp] at h1
        cases h1
        rfl

theorem byteLen_utf8 (s : Str) : (Spec.utf8 s).length = byteLen s := by
  induction s with
  | nil => rfl
  | cons c cs ih =>
    have hcons : Spec.utf8 (c :: cs) = String.utf8EncodeChar c ++ Spec.utf8 cs := rfl
    rw [hcons, List.length_append, ih, String.length_utf8EncodeChar]
    rfl

theorem text_utf8 (s : Str) : text (Spec.utf8 s) = s := by
  unfold text
  have : (Spec.utf8 s).toByteArray = s.utf8Encode := rfl
  rw [this, List.utf8Decode?_utf8Encode]
  rfl

theorem dropCR_utf8 (s : Str) : Scanner.dropCR (Spec.utf8 s) = Spec.utf8 (Go.dropCR s) := by
  have happ : ∀ a b : Str, Spec.utf8 (a ++ b) = Spec.utf8 a ++ Spec.utf8 b := fun a b => List.flatMap_append
  rcases List.eq_nil_or_concat s with rfl | ⟨t, c, rfl⟩
  · rfl
  · have hone : Spec.utf8 [c] = String.utf8EncodeChar c := by simp [Spec.utf8]
    have hne : String.utf8EncodeChar c ≠ [] := by
      rcases encode_cases c with ⟨-, h⟩ | ⟨_, _, h, -⟩ <;> rw [h] <;> simp
    unfold Scanner.dropCR Go.dropCR
    simp only [List.concat_eq_append, happ, hone, List.reverse_append, List.reverse_cons, List.reverse_nil,
      List.nil_append, List.cons_append]
    by_cases hc : c = '\r'
    · subst hc
      have : String.utf8EncodeChar '\r' = [13] := by decide
      simp [this]
    · rw [if_neg]
      · split
        · rename_i r h
          cases h
          exact absurd rfl hc
        · simp [happ, hone]
      · rw [List.getLast?_append, List.getLast?_eq_some_getLast hne]
        intro h
        simp only [Option.some_or, Option.some.injEq] at h
        exact hc (encode_mem (d := '\r') (by decide) (by
          rw [show UInt8.ofNat ('\r').val.toNat = 13 by decide, ← h]
          exact List.getLast_mem hne))

theorem piecesB_utf8 (max : Nat) (ps : List Str) :
    (piecesB max (ps.map Spec.utf8)).map text = scanPieces max ps := by
  induction ps with
  | nil => rfl
  | cons p ps ih =>
    have hd : text (Scanner.dropCR (Spec.utf8 p)) = Go.dropCR p := by rw [dropCR_utf8, text_utf8]
    cases ps with
    | nil =>
      have he : (Spec.utf8 p).isEmpty = p.isEmpty := by
        cases p with
        | nil => rfl
        | cons c cs =>
          have hne : String.utf8EncodeChar c ≠ [] := by
            rcases encode_cases c with ⟨-, h⟩ | ⟨_, _, h, -⟩ <;> rw [h] <;> simp
          simp [Spec.utf8, hne]
      simp only [List.map_cons, List.map_nil, piecesB, scanPieces, he, byteLen_utf8]
      split
      · rfl
      · split
        · rfl
        · simp [hd]
    | cons q qs =>
      simp only [List.map_cons, piecesB, scanPieces, byteLen_utf8] at ih ⊢
      split
      · rfl
      · rw [List.map_cons, hd, ih]

end GosuPP
