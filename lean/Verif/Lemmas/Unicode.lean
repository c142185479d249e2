import Verif.Go.Unicode
import Verif.Spec.Encodings
import Verif.Lemmas.Scanner

/-! Lemmas about the decoder in front of the scanner. -/

namespace GosuPP
open Go

theorem char_range (c : Char) : c.toNat < 0xD800 ∨ (0xDFFF < c.toNat ∧ c.toNat < 0x110000) := by
  rcases c.valid with h | ⟨h, h'⟩
  · exact .inl h
  · exact .inr ⟨h, h'⟩

theorem ofNat_toNat {n : Nat} (h : n.isValidChar) : (Char.ofNat n).val.toNat = n := by
  rw [Char.ofNat, dif_pos h]
  rfl

theorem utf8_nil : Spec.utf8 [] = [] := rfl

theorem utf8_cons (c : Char) (s : Str) : Spec.utf8 (c :: s) = String.utf8EncodeChar c ++ Spec.utf8 s := rfl

theorem runeError_eq : runeError = String.utf8EncodeChar (Char.ofNat 0xFFFD) := by decide

namespace Unicode

theorem decode1 {a : UInt8} (h : a.toNat < 0x80) (r : Bytes) : UTF8.decode (a :: r) = a :: UTF8.decode r := by
  rw [UTF8.decode.eq_def]
  simp only [h, if_true]

theorem decode2 {a b : UInt8} {lo hi : Nat} (h : ¬ a.toNat < 0x80) (hf : UTF8.first a.toNat = some (2, lo, hi))
    (hb : ¬ (b.toNat < lo ∨ hi < b.toNat)) (r : Bytes) : UTF8.decode (a :: b :: r) = a :: b :: UTF8.decode r := by
  rw [UTF8.decode.eq_def]
  simp only [h, if_false, hf, hb, if_true]

theorem decode3 {a b c : UInt8} {lo hi : Nat} (h : ¬ a.toNat < 0x80) (hf : UTF8.first a.toNat = some (3, lo, hi))
    (hb : ¬ (b.toNat < lo ∨ hi < b.toNat)) (hc : ¬ (c.toNat < 0x80 ∨ 0xBF < c.toNat)) (r : Bytes) :
    UTF8.decode (a :: b :: c :: r) = a :: b :: c :: UTF8.decode r := by
  rw [UTF8.decode.eq_def]
  simp only [h, if_false, hf, hb, if_true, hc, show ¬ (3 = 2) by decide]

theorem decode4 {a b c d : UInt8} {lo hi : Nat} (h : ¬ a.toNat < 0x80) (hf : UTF8.first a.toNat = some (4, lo, hi))
    (hb : ¬ (b.toNat < lo ∨ hi < b.toNat)) (hc : ¬ (c.toNat < 0x80 ∨ 0xBF < c.toNat))
    (hd : ¬ (d.toNat < 0x80 ∨ 0xBF < d.toNat)) (r : Bytes) :
    UTF8.decode (a :: b :: c :: d :: r) = a :: b :: c :: d :: UTF8.decode r := by
  rw [UTF8.decode.eq_def]
  simp only [h, if_false, hf, hb, hc, hd, show ¬ (4 = 2) by decide, show ¬ (4 = 3) by decide]

/-- A character passes the UTF-8 decoder. -/
theorem decode_char (c : Char) (r : Bytes) :
    UTF8.decode (String.utf8EncodeChar c ++ r) = String.utf8EncodeChar c ++ UTF8.decode r := by
  have hr := char_range c
  have hv : c.toNat = c.val.toNat := rfl
  rw [hv] at hr
  unfold String.utf8EncodeChar
  simp only
  generalize c.val.toNat = n at hr
  split
  · exact decode1 (by simp only [UInt8.toNat_ofNat']; omega) r
  split
  · refine decode2 (lo := 0x80) (hi := 0xBF) ?_ ?_ ?_ r
    · simp only [UInt8.toNat_ofNat']; omega
    · simp only [UInt8.toNat_ofNat', UTF8.first]
      rw [if_pos (by omega)]
    · simp only [UInt8.toNat_ofNat']; omega
  split
  · by_cases h1 : n / 4096 = 0
    · refine decode3 (lo := 0xA0) (hi := 0xBF) ?_ ?_ ?_ ?_ r
      · simp only [UInt8.toNat_ofNat']; omega
      · simp only [UInt8.toNat_ofNat', UTF8.first]
        rw [if_neg (by omega), if_pos (by omega)]
      · simp only [UInt8.toNat_ofNat']; omega
      · simp only [UInt8.toNat_ofNat']; omega
    by_cases h2 : n / 4096 = 13
    · refine decode3 (lo := 0x80) (hi := 0x9F) ?_ ?_ ?_ ?_ r
      · simp only [UInt8.toNat_ofNat']; omega
      · simp only [UInt8.toNat_ofNat', UTF8.first]
        rw [if_neg (by omega), if_neg (by omega), if_pos (by omega)]
      · simp only [UInt8.toNat_ofNat']; omega
      · simp only [UInt8.toNat_ofNat']; omega
    · refine decode3 (lo := 0x80) (hi := 0xBF) ?_ ?_ ?_ ?_ r
      · simp only [UInt8.toNat_ofNat']; omega
      · simp only [UInt8.toNat_ofNat', UTF8.first]
        rw [if_neg (by omega), if_neg (by omega), if_neg (by omega), if_pos (by omega)]
      · simp only [UInt8.toNat_ofNat']; omega
      · simp only [UInt8.toNat_ofNat']; omega
  · by_cases h1 : n / 262144 = 0
    · refine decode4 (lo := 0x90) (hi := 0xBF) ?_ ?_ ?_ ?_ ?_ r
      · simp only [UInt8.toNat_ofNat']; omega
      · simp only [UInt8.toNat_ofNat', UTF8.first]
        rw [if_neg (by omega), if_neg (by omega), if_neg (by omega), if_neg (by omega), if_pos (by omega)]
      all_goals simp only [UInt8.toNat_ofNat']; omega
    by_cases h2 : n / 262144 = 4
    · refine decode4 (lo := 0x80) (hi := 0x8F) ?_ ?_ ?_ ?_ ?_ r
      · simp only [UInt8.toNat_ofNat']; omega
      · simp only [UInt8.toNat_ofNat', UTF8.first]
        rw [if_neg (by omega), if_neg (by omega), if_neg (by omega), if_neg (by omega), if_neg (by omega), if_neg (by omega),
          if_pos (by omega)]
      all_goals simp only [UInt8.toNat_ofNat']; omega
    · refine decode4 (lo := 0x80) (hi := 0xBF) ?_ ?_ ?_ ?_ ?_ r
      · simp only [UInt8.toNat_ofNat']; omega
      · simp only [UInt8.toNat_ofNat', UTF8.first]
        rw [if_neg (by omega), if_neg (by omega), if_neg (by omega), if_neg (by omega), if_neg (by omega), if_pos (by omega)]
      all_goals simp only [UInt8.toNat_ofNat']; omega

theorem decode_append (s : Str) (r : Bytes) : UTF8.decode (Spec.utf8 s ++ r) = Spec.utf8 s ++ UTF8.decode r := by
  induction s with
  | nil => rfl
  | cons c cs ih => rw [utf8_cons, List.append_assoc, decode_char, ih, List.append_assoc]

theorem decode_utf8 (s : Str) : UTF8.decode (Spec.utf8 s) = Spec.utf8 s := by
  have h := decode_append s []
  simpa [UTF8.decode] using h

theorem encodeRune_char (c : Char) : UTF16.encodeRune c.toNat = String.utf8EncodeChar c := by
  unfold UTF16.encodeRune
  rw [if_pos (show c.toNat.isValidChar from c.valid), Char.ofNat_toNat]

theorem encodeRune_some (n : Nat) : ∃ c, UTF16.encodeRune n = String.utf8EncodeChar c := by
  unfold UTF16.encodeRune
  split
  · exact ⟨_, rfl⟩
  · exact ⟨_, runeError_eq⟩

theorem unit_bytes (big : Bool) {u : Nat} (h : u < 65536) :
    ∃ a b, Spec.unitBytes big u = [a, b] ∧ UTF16.unit big a b = u := by
  cases big
  · refine ⟨_, _, rfl, ?_⟩
    simp only [UTF16.unit, UInt8.toNat_ofNat', Bool.false_eq_true, if_false]
    omega
  · refine ⟨_, _, rfl, ?_⟩
    simp only [UTF16.unit, UInt8.toNat_ofNat', if_true]
    omega

/-- A character passes the UTF-16 decoder. -/
theorem decode16_char (big : Bool) (c : Char) (r : Bytes) :
    UTF16.decode big ((Spec.units c).flatMap (Spec.unitBytes big) ++ r) = String.utf8EncodeChar c ++ UTF16.decode big r := by
  have hr := char_range c
  unfold Spec.units
  split
  · rename_i h
    obtain ⟨a, b, hab, hu⟩ := unit_bytes big (u := c.toNat) (by omega)
    have hs : UTF16.isSurrogate c.toNat = false := by
      simp only [UTF16.isSurrogate, decide_eq_false_iff_not]
      omega
    simp only [List.flatMap_cons, List.flatMap_nil, List.append_nil, hab, List.cons_append, List.nil_append]
    rw [UTF16.decode.eq_def]
    simp only [hu, hs, Bool.false_eq_true, if_false, encodeRune_char]
  · rename_i h
    obtain ⟨a, b, hab, hu⟩ := unit_bytes big (u := 0xD800 + (c.toNat - 0x10000) / 0x400) (by omega)
    obtain ⟨a', b', hab', hu'⟩ := unit_bytes big (u := 0xDC00 + (c.toNat - 0x10000) % 0x400) (by omega)
    have hs : UTF16.isSurrogate (0xD800 + (c.toNat - 0x10000) / 0x400) = true := by
      simp only [UTF16.isSurrogate, decide_eq_true_eq]
      omega
    have hs' : UTF16.isSecond (0xDC00 + (c.toNat - 0x10000) % 0x400) = true := by
      simp only [UTF16.isSecond, decide_eq_true_eq]
      omega
    have hd : UTF16.decodeRune (0xD800 + (c.toNat - 0x10000) / 0x400) (0xDC00 + (c.toNat - 0x10000) % 0x400) = c.toNat := by
      unfold UTF16.decodeRune
      rw [if_pos (by omega)]
      omega
    simp only [List.flatMap_cons, List.flatMap_nil, List.append_nil, hab, hab', List.cons_append, List.nil_append]
    rw [UTF16.decode.eq_def]
    simp only [hu, hu', hs, hs', if_true, hd, encodeRune_char]

theorem decode16 (big : Bool) (s : Str) : UTF16.decode big (Spec.utf16 big s) = Spec.utf8 s := by
  induction s with
  | nil => rfl
  | cons c cs ih =>
    rw [utf8_cons, ← ih, ← decode16_char]
    rfl

/-- What the UTF-16 decoder gives is a text. -/
theorem decode16_some (big : Bool) (b : Bytes) : ∃ s, UTF16.decode big b = Spec.utf8 s := by
  have key : ∀ (n : Nat) (t : Bytes), (∃ s, t = Spec.utf8 s) → ∃ s, UTF16.encodeRune n ++ t = Spec.utf8 s := by
    rintro n t ⟨s, rfl⟩
    obtain ⟨c, hc⟩ := encodeRune_some n
    exact ⟨c :: s, by rw [utf8_cons, hc]⟩
  fun_induction UTF16.decode big b with
  | case1 => exact ⟨[], rfl⟩
  | case2 => exact ⟨[Char.ofNat 0xFFFD], by rw [utf8_cons, utf8_nil, runeError_eq, List.append_nil]⟩
  | _ => first
    | exact key _ _ (by assumption)
    | (rw [← List.append_nil (UTF16.encodeRune _)]; exact key _ _ ⟨[], rfl⟩)

theorem byte_eq {a : UInt8} {n : Nat} (h : n = a.toNat) : UInt8.ofNat n = a := by
  subst h
  exact UInt8.ofNat_toNat

theorem first_cases {a size lo hi : Nat} (h : UTF8.first a = some (size, lo, hi)) :
    (size = 2 ∧ 0xC2 ≤ a ∧ a ≤ 0xDF ∧ lo = 0x80 ∧ hi = 0xBF) ∨
    (size = 3 ∧ 0xE0 ≤ a ∧ a ≤ 0xEF ∧ 0x80 ≤ lo ∧ hi ≤ 0xBF ∧ (a = 0xE0 → lo = 0xA0) ∧ (a = 0xED → hi = 0x9F)) ∨
    (size = 4 ∧ 0xF0 ≤ a ∧ a ≤ 0xF4 ∧ 0x80 ≤ lo ∧ hi ≤ 0xBF ∧ (a = 0xF0 → lo = 0x90) ∧ (a = 0xF4 → hi = 0x8F)) := by
  unfold UTF8.first at h
  split_ifs at h <;> simp only [Option.some.injEq, Prod.mk.injEq] at h <;> omega

theorem char2 {a b : UInt8} (ha : 0xC2 ≤ a.toNat ∧ a.toNat ≤ 0xDF) (hb : 0x80 ≤ b.toNat ∧ b.toNat ≤ 0xBF) :
    ∃ c, String.utf8EncodeChar c = [a, b] := by
  have hv : ((a.toNat - 0xC0) * 64 + (b.toNat - 0x80)).isValidChar := .inl (by omega)
  refine ⟨Char.ofNat ((a.toNat - 0xC0) * 64 + (b.toNat - 0x80)), ?_⟩
  unfold String.utf8EncodeChar
  simp only [ofNat_toNat hv]
  rw [if_neg (by omega), if_pos (by omega), byte_eq (a := a) (by omega), byte_eq (a := b) (by omega)]

theorem char3 {a b c : UInt8} (ha : 0xE0 ≤ a.toNat ∧ a.toNat ≤ 0xEF) (hb : 0x80 ≤ b.toNat ∧ b.toNat ≤ 0xBF)
    (hc : 0x80 ≤ c.toNat ∧ c.toNat ≤ 0xBF) (h0 : a.toNat = 0xE0 → 0xA0 ≤ b.toNat) (h1 : a.toNat = 0xED → b.toNat ≤ 0x9F) :
    ∃ x, String.utf8EncodeChar x = [a, b, c] := by
  have hv : ((a.toNat - 0xE0) * 4096 + (b.toNat - 0x80) * 64 + (c.toNat - 0x80)).isValidChar := by
    unfold Nat.isValidChar
    omega
  refine ⟨Char.ofNat ((a.toNat - 0xE0) * 4096 + (b.toNat - 0x80) * 64 + (c.toNat - 0x80)), ?_⟩
  unfold String.utf8EncodeChar
  simp only [ofNat_toNat hv]
  rw [if_neg (by omega), if_neg (by omega), if_pos (by omega), byte_eq (a := a) (by omega), byte_eq (a := b) (by omega),
    byte_eq (a := c) (by omega)]

theorem char4 {a b c d : UInt8} (ha : 0xF0 ≤ a.toNat ∧ a.toNat ≤ 0xF4) (hb : 0x80 ≤ b.toNat ∧ b.toNat ≤ 0xBF)
    (hc : 0x80 ≤ c.toNat ∧ c.toNat ≤ 0xBF) (hd : 0x80 ≤ d.toNat ∧ d.toNat ≤ 0xBF) (h0 : a.toNat = 0xF0 → 0x90 ≤ b.toNat)
    (h1 : a.toNat = 0xF4 → b.toNat ≤ 0x8F) : ∃ x, String.utf8EncodeChar x = [a, b, c, d] := by
  have hv : ((a.toNat - 0xF0) * 262144 + (b.toNat - 0x80) * 4096 + (c.toNat - 0x80) * 64 + (d.toNat - 0x80)).isValidChar := by
    unfold Nat.isValidChar
    omega
  refine ⟨Char.ofNat ((a.toNat - 0xF0) * 262144 + (b.toNat - 0x80) * 4096 + (c.toNat - 0x80) * 64 + (d.toNat - 0x80)), ?_⟩
  unfold String.utf8EncodeChar
  simp only [ofNat_toNat hv]
  rw [if_neg (by omega), if_neg (by omega), if_neg (by omega), byte_eq (a := a) (by omega), byte_eq (a := b) (by omega),
    byte_eq (a := c) (by omega), byte_eq (a := d) (by omega)]

/-- What the UTF-8 decoder gives is a text. -/
theorem decode_some (b : Bytes) : ∃ s, UTF8.decode b = Spec.utf8 s := by
  have key : ∀ (l t : Bytes), (∃ c, String.utf8EncodeChar c = l) → (∃ s, t = Spec.utf8 s) → ∃ s, l ++ t = Spec.utf8 s := by
    rintro _ _ ⟨c, rfl⟩ ⟨s, rfl⟩
    exact ⟨c :: s, rfl⟩
  have err : ∃ c, String.utf8EncodeChar c = runeError := ⟨_, runeError_eq.symm⟩
  have alone : ∃ s, runeError = Spec.utf8 s := by
    rw [← List.append_nil runeError]
    exact key _ _ err ⟨[], rfl⟩
  fun_induction UTF8.decode b with
  | case1 => exact ⟨[], rfl⟩
  | case2 c rest h ih =>
    refine key [c] _ ⟨Char.ofNat c.toNat, ?_⟩ ih
    have hv : c.toNat.isValidChar := .inl (by omega)
    unfold String.utf8EncodeChar
    simp only [ofNat_toNat hv]
    rw [if_pos (by omega), byte_eq rfl]
  | _ => first
    | exact alone
    | exact key _ _ err (by assumption)
    | (have hf := first_cases (by assumption)
       first
       | (refine key [_, _] (UTF8.decode _) (char2 ?_ ?_) (by assumption) <;> omega)
       | (refine key [_, _, _] (UTF8.decode _) (char3 ?_ ?_ ?_ ?_ ?_) (by assumption) <;> omega)
       | (refine key [_, _, _, _] (UTF8.decode _) (char4 ?_ ?_ ?_ ?_ ?_ ?_) (by assumption) <;> omega))

theorem decode_stray {x : UInt8} {r : Bytes} (hx : Spec.Stray x r.head?) :
    UTF8.decode (x :: r) = runeError ++ UTF8.decode r := by
  have h : ¬ x.toNat < 0x80 := by
    unfold Spec.Stray at hx
    omega
  rw [UTF8.decode.eq_def]
  simp only [h, if_false]
  split
  · rfl
  · rename_i size lo hi hf
    have hc := first_cases hf
    have hx' : ∀ y ∈ r.head?, y.toNat < 0x80 ∨ 0xC0 ≤ y.toNat := by
      rcases hx with h | h | h
      · omega
      · omega
      · exact h.2
    cases r with
    | nil => rfl
    | cons y r =>
      have := hx' y rfl
      simp only
      rw [if_pos (by omega)]

theorem decode_garbled {s : Str} {b : Bytes} (h : Spec.Garbled s b) : UTF8.decode b = Spec.utf8 s := by
  induction h with
  | nil => rfl
  | char c _ ih => rw [decode_char, ih, utf8_cons]
  | stray hx _ ih => rw [decode_stray hx, ih, utf8_cons, runeError_eq]

theorem decode_unmarked {b : Bytes} (h : ¬ Spec.Marked b) : decodeFile b = UTF8.decode b := by
  unfold decodeFile
  split
  · exact absurd (.inr (.inl ⟨_, rfl⟩)) h
  · exact absurd (.inr (.inr ⟨_, rfl⟩)) h
  · exact absurd (.inl ⟨_, rfl⟩) h
  · rfl

theorem utf8_unmarked {s : Str} (h : s.head? ≠ some (Char.ofNat 0xFEFF)) : ¬ Spec.Marked (Spec.utf8 s) := by
  cases s with
  | nil =>
    rintro (⟨_, h⟩ | ⟨_, h⟩ | ⟨_, h⟩) <;> cases h
  | cons c cs =>
    have hc : c.val.toNat ≠ 0xFEFF := fun hc => h (by rw [List.head?_cons, char_of_toNat (d := Char.ofNat 0xFEFF) hc])
    have hr := char_range c
    have hv : c.toNat = c.val.toNat := rfl
    rw [hv] at hr
    rw [utf8_cons]
    unfold String.utf8EncodeChar
    simp only
    generalize c.val.toNat = n at hr hc
    unfold Spec.Marked
    have e : ∀ (m : Nat) (x : UInt8), UInt8.ofNat m = x → m % 256 = x.toNat := by
      rintro m _ rfl
      rw [UInt8.toNat_ofNat']
    split
    · rintro (⟨t, h⟩ | ⟨t, h⟩ | ⟨t, h⟩) <;>
        (simp only [List.cons_append, List.nil_append, List.cons.injEq] at h
         have h1 := e _ _ h.1.symm
         simp at h1
         omega)
    split
    · rintro (⟨t, h⟩ | ⟨t, h⟩ | ⟨t, h⟩) <;>
        (simp only [List.cons_append, List.nil_append, List.cons.injEq] at h
         have h1 := e _ _ h.1.symm
         simp at h1
         omega)
    split
    · rintro (⟨t, h⟩ | ⟨t, h⟩ | ⟨t, h⟩)
      · simp only [List.cons_append, List.nil_append, List.cons.injEq] at h
        have h1 := e _ _ h.1.symm
        have h2 := e _ _ h.2.1.symm
        have h3 := e _ _ h.2.2.1.symm
        simp at h1 h2 h3
        omega
      all_goals
        (simp only [List.cons_append, List.nil_append, List.cons.injEq] at h
         have h1 := e _ _ h.1.symm
         simp at h1
         omega)
    · rintro (⟨t, h⟩ | ⟨t, h⟩ | ⟨t, h⟩) <;>
        (simp only [List.cons_append, List.nil_append, List.cons.injEq] at h
         have h1 := e _ _ h.1.symm
         simp at h1
         omega)

theorem decode_encodes {s : Str} {b : Bytes} (h : Spec.Encodes s b) : decodeFile b = Spec.utf8 s := by
  cases h with
  | plain h => rw [decode_unmarked (utf8_unmarked h), decode_utf8]
  | utf8 =>
    have : String.utf8EncodeChar (Char.ofNat 0xFEFF) = [0xEF, 0xBB, 0xBF] := by decide
    rw [utf8_cons, this]
    rfl
  | utf16 big =>
    have : Spec.utf16 big (Char.ofNat 0xFEFF :: s) =
        (Spec.units (Char.ofNat 0xFEFF)).flatMap (Spec.unitBytes big) ++ Spec.utf16 big s := rfl
    rw [this, ← decode16 big s]
    cases big
    · have : (Spec.units (Char.ofNat 0xFEFF)).flatMap (Spec.unitBytes false) = [0xFF, 0xFE] := by decide
      rw [this]
      rfl
    · have : (Spec.units (Char.ofNat 0xFEFF)).flatMap (Spec.unitBytes true) = [0xFE, 0xFF] := by decide
      rw [this]
      rfl

theorem decodeFile_some {b : Bytes} (h : ¬ [0xEF, 0xBB, 0xBF] <+: b) : ∃ s, decodeFile b = Spec.utf8 s := by
  unfold decodeFile
  split
  · exact decode16_some _ _
  · exact decode16_some _ _
  · exact absurd ⟨_, rfl⟩ h
  · exact decode_some _

end Unicode
end GosuPP
