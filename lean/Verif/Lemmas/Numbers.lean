import Verif.Spec.Written
import Mathlib.Tactic.Linarith
import Mathlib.Tactic.FieldSimp
import Mathlib.Tactic.Ring
import Mathlib.Tactic.NormNum
import Mathlib.Tactic.IntervalCases

/-!
# Reading back written numbers
-/

namespace GosuPP
open Go

theorem digitChar_nat {n : Nat} (h : n < 10) : (Char.ofNat (48 + n)).toNat = 48 + n := by
  interval_cases n <;> rfl

theorem digitChar_digit {n : Nat} (h : n < 10) : isDigit (Char.ofNat (48 + n)) = true := by
  interval_cases n <;> rfl

theorem digitChar_val {n : Nat} (h : n < 10) : digitVal (Char.ofNat (48 + n)) = n := by
  interval_cases n <;> rfl

theorem digits_all (n : Nat) : ∀ c ∈ Spec.digits n, isDigit c = true := by
  induction n using Nat.strong_induction_on with
  | _ n ih =>
    intro c hc
    unfold Spec.digits at hc
    split at hc
    · rename_i h
      simp only [List.mem_singleton] at hc
      subst hc
      exact digitChar_digit h
    · rename_i h
      rcases List.mem_append.mp hc with hc | hc
      · exact ih (n / 10) (by omega) c hc
      · simp only [List.mem_singleton] at hc
        subst hc
        exact digitChar_digit (by omega)

theorem digits_ne (n : Nat) : Spec.digits n ≠ [] := by
  unfold Spec.digits
  split <;> simp

theorem digits_cons (n : Nat) : ∃ c s, Spec.digits n = c :: s ∧ isDigit c = true := by
  cases h : Spec.digits n with
  | nil => exact absurd h (digits_ne n)
  | cons c s => exact ⟨c, s, rfl, digits_all n c (by rw [h]; exact List.mem_cons_self)⟩

/-- Digits followed by something else. -/
theorem parseUint_digits (n : Nat) (h : n ≤ 18446744073709551615) (rest : Str) :
    parseUintLoop (Spec.digits n ++ rest) 0 = parseUintLoop rest n := by
  induction n using Nat.strong_induction_on generalizing rest with
  | _ n ih =>
    unfold Spec.digits
    split
    · rename_i h'
      rw [List.singleton_append, parseUintLoop, if_pos (digitChar_digit h')]
      simp only [digitChar_val h']
      rw [if_neg (by omega)]
      simp
    · rename_i h'
      rw [List.append_assoc, ih (n / 10) (by omega) (by omega), List.singleton_append, parseUintLoop,
        if_pos (digitChar_digit (by omega))]
      simp only [digitChar_val (show n % 10 < 10 by omega)]
      rw [show 10 * (n / 10) + n % 10 = n by omega, if_neg (by omega)]

theorem splitSign_digit {c : Char} {s : Str} (h : isDigit c = true) : splitSign (c :: s) = (false, c :: s) := by
  unfold splitSign
  split
  · rename_i e; cases e; exact absurd h (by decide)
  · rename_i e; cases e; exact absurd h (by decide)
  · rfl

theorem splitSign_neg (s : Str) : splitSign ('-' :: s) = (true, s) := rfl

/-- `strconv.ParseInt` and `strconv.Atoi` read back what is written. -/
theorem parseInt_showInt {n : Int} (h : Spec.File.Int64 n) : parseInt (Spec.showInt n) = n := by
  obtain ⟨h1, h2⟩ := h
  have hu : parseUint (Spec.digits n.natAbs) = .ok n.natAbs := by
    unfold parseUint
    rw [if_neg (by simpa using digits_ne _), ← List.append_nil (Spec.digits _), parseUint_digits _ (by omega)]
    rfl
  unfold parseInt Spec.showInt
  by_cases hn : n < 0
  · rw [if_pos hn]
    rw [List.singleton_append, splitSign_neg]
    simp only [hu, if_true]
    rw [if_neg (by omega)]
    omega
  · rw [if_neg hn, List.nil_append]
    obtain ⟨c, s, e, hc⟩ := digits_cons n.natAbs
    have : splitSign (Spec.digits n.natAbs) = (false, Spec.digits n.natAbs) := by rw [e]; exact splitSign_digit hc
    rw [this]
    simp only [hu]
    rw [if_neg (by simp), if_neg (by omega)]
    omega

theorem hexVal_digit {c : Char} (h : isDigit c = true) : hexVal c = digitVal c := by
  unfold hexVal
  rw [if_pos h]

theorem readMant_digit {c : Char} (h : isDigit c = true) (cs : Str) (st : MantState) :
    readMant false (c :: cs) st = readMant false cs { st with
        mant := 10 * st.mant + digitVal c
        frac := if st.sawDot then st.frac + 1 else st.frac
        sawDigits := true } := by
  rw [readMant, if_neg, if_neg, if_pos (by simp [h]), hexVal_digit h]
  · simp
  · rintro rfl; exact absurd h (by decide)
  · rintro rfl; exact absurd h (by decide)

theorem readMant_digits (n : Nat) (rest : Str) :
    readMant false (Spec.digits n ++ rest) {} = readMant false rest { mant := n, sawDigits := true } := by
  induction n using Nat.strong_induction_on generalizing rest with
  | _ n ih =>
    unfold Spec.digits
    split
    · rename_i h'
      rw [List.singleton_append, readMant_digit (digitChar_digit h')]
      simp [digitChar_val h']
    · rename_i h'
      rw [List.append_assoc, ih (n / 10) (by omega), List.singleton_append, readMant_digit (digitChar_digit (by omega))]
      simp only [digitChar_val (show n % 10 < 10 by omega)]
      rw [show 10 * (n / 10) + n % 10 = n by omega]
      rfl

/-- Digits behind the point. -/
theorem readMant_frac (fs : List (Fin 10)) (st : MantState) (hd : st.sawDot = true) (hs : st.sawDigits = true) :
    ∃ m : Nat, readMant false (fs.map (fun x => Char.ofNat (48 + x.val))) st =
        ({ st with mant := m, frac := st.frac + fs.length }, []) ∧
      (m : ℚ) = 10 ^ fs.length * (st.mant + Spec.fracValue fs) := by
  induction fs generalizing st with
  | nil =>
    refine ⟨st.mant, rfl, ?_⟩
    simp [Spec.fracValue]
  | cons x fs ih =>
    rw [List.map_cons, readMant_digit (digitChar_digit x.2)]
    obtain ⟨m, h1, h2⟩ := ih { st with
        mant := 10 * st.mant + digitVal (Char.ofNat (48 + x.val))
        frac := if st.sawDot then st.frac + 1 else st.frac
        sawDigits := true } hd rfl
    refine ⟨m, ?_, ?_⟩
    · rw [h1]
      simp only [hd, if_true, List.length_cons, hs]
      rw [show st.frac + 1 + fs.length = st.frac + (fs.length + 1) by omega]
    · rw [h2, digitChar_val x.2]
      simp only [Spec.fracValue, List.length_cons]
      push_cast
      field_simp
      ring

theorem special_digit {c : Char} {s : Str} (h : isDigit c = true) : special (c :: s) = none := by
  have hl : ∃ d, lowerAscii c = d ∧ isDigit d = true := by
    refine ⟨c, ?_, h⟩
    unfold lowerAscii
    simp only [isDigit, Bool.and_eq_true, decide_eq_true_eq] at h
    rw [if_neg]
    simp only [Bool.and_eq_true, decide_eq_true_eq, not_and]
    omega
  obtain ⟨d, hd, hdig⟩ := hl
  have ne : ∀ (x : Char) (t : Str), isDigit x = false → d :: s.map lowerAscii ≠ x :: t := by
    intro x t hx e
    cases e
    rw [hdig] at hx
    cases hx
  unfold special
  rw [List.map_cons, hd]
  simp only [Bool.or_eq_true, decide_eq_true_eq]
  refine (if_neg (ne 'n' _ (by decide))).trans ?_
  rw [if_neg, if_neg]
  · rintro (e | e) <;> exact ne '-' _ (by decide) e
  · rintro (((e | e) | e) | e)
    · exact ne 'i' _ (by decide) e
    · exact ne 'i' _ (by decide) e
    · exact ne '+' _ (by decide) e
    · exact ne '+' _ (by decide) e

theorem special_neg_digit {c : Char} {s : Str} (h : isDigit c = true) : special ('-' :: c :: s) = none := by
  have hl : ∃ d, lowerAscii c = d ∧ isDigit d = true := by
    refine ⟨c, ?_, h⟩
    unfold lowerAscii
    simp only [isDigit, Bool.and_eq_true, decide_eq_true_eq] at h
    rw [if_neg]
    simp only [Bool.and_eq_true, decide_eq_true_eq, not_and]
    omega
  obtain ⟨d, hd, hdig⟩ := hl
  have ne1 : ∀ (x : Char) (t : Str), x ≠ '-' → '-' :: d :: s.map lowerAscii ≠ x :: t := by
    intro x t hx e
    cases e
    exact hx rfl
  have ne : ∀ (x : Char) (t : Str), isDigit x = false → '-' :: d :: s.map lowerAscii ≠ '-' :: x :: t := by
    intro x t hx e
    cases e
    rw [hdig] at hx
    cases hx
  unfold special
  rw [List.map_cons, List.map_cons, hd, show lowerAscii '-' = '-' by decide]
  simp only [Bool.or_eq_true, decide_eq_true_eq]
  refine (if_neg (ne1 'n' _ (by decide))).trans ?_
  rw [if_neg, if_neg]
  · rintro (e | e) <;> exact ne 'i' _ (by decide) e
  · rintro (((e | e) | e) | e)
    · exact ne1 'i' _ (by decide) e
    · exact ne1 'i' _ (by decide) e
    · exact ne1 '+' _ (by decide) e
    · exact ne1 '+' _ (by decide) e

/-- The text of a number without its sign. -/
def body (d : Spec.Dec) : Str :=
  Spec.digits d.whole ++ (if d.frac = [] then [] else '.' :: d.frac.map (fun x => Char.ofNat (48 + x.val)))

theorem body_mant (d : Spec.Dec) : ∃ m : Nat,
    (readMant false (body d) {}).2 = [] ∧ (readMant false (body d) {}).1.sawDigits = true ∧
    (readMant false (body d) {}).1.underscores = false ∧ (readMant false (body d) {}).1.mant = m ∧
    (readMant false (body d) {}).1.frac = d.frac.length ∧
    (m : ℚ) = 10 ^ d.frac.length * (d.whole + Spec.fracValue d.frac) := by
  unfold body
  rw [readMant_digits]
  by_cases hf : d.frac = []
  · rw [if_pos hf, hf]
    exact ⟨d.whole, rfl, rfl, rfl, rfl, rfl, by simp [Spec.fracValue]⟩
  · rw [if_neg hf]
    obtain ⟨m, h1, h2⟩ := readMant_frac d.frac { mant := d.whole, sawDigits := true, sawDot := true } rfl rfl
    have e : readMant false ('.' :: d.frac.map (fun x => Char.ofNat (48 + x.val))) { mant := d.whole, sawDigits := true } =
        readMant false (d.frac.map (fun x => Char.ofNat (48 + x.val))) { mant := d.whole, sawDigits := true, sawDot := true } := by
      rw [readMant, if_neg (by decide), if_pos rfl]
      rfl
    rw [e, h1]
    exact ⟨m, rfl, rfl, rfl, rfl, by simp, h2⟩

theorem body_shape (d : Spec.Dec) : ∃ c s, body d = c :: s ∧ isDigit c = true ∧ (∀ x ∈ s.head?, lowerAscii x ≠ 'x') := by
  have hlow : ∀ x, isDigit x = true → lowerAscii x ≠ 'x' := by
    intro x h
    unfold lowerAscii
    simp only [isDigit, Bool.and_eq_true, decide_eq_true_eq] at h
    rw [if_neg]
    · rintro rfl
      exact absurd h (by decide)
    · simp only [Bool.and_eq_true, decide_eq_true_eq, not_and]
      omega
  obtain ⟨c, s, e, hc⟩ := digits_cons d.whole
  unfold body
  rw [e]
  refine ⟨c, _, rfl, hc, ?_⟩
  intro x hx
  cases s with
  | cons y ys =>
    change some y = some x at hx
    cases hx
    exact hlow x (digits_all d.whole x (by rw [e]; simp))
  | nil =>
    by_cases hf : d.frac = []
    · rw [if_pos hf] at hx; cases hx
    · rw [if_neg hf] at hx
      cases hx
      decide

theorem ratPow_neg (n : Nat) : ratPow 10 (0 - (n : Int)) = 1 / 10 ^ n := by
  cases n with
  | zero => simp [ratPow]
  | succ k =>
    rw [show (0 : Int) - ((k + 1 : Nat) : Int) = Int.negSucc k by omega]
    simp [ratPow]

theorem show_body (d : Spec.Dec) : d.show = (if d.neg then ['-'] else []) ++ body d := by
  unfold Spec.Dec.show body
  rw [List.append_assoc]

/-- `strconv.readFloat` reads back what is written, exactly. -/
theorem readFloat_show (d : Spec.Dec) : readFloat d.show = some (d.neg, d.whole + Spec.fracValue d.frac) := by
  obtain ⟨c, s, e, hc, hx⟩ := body_shape d
  obtain ⟨m, m1, m2, m3, m4, m5, m6⟩ := body_mant d
  have hs : splitSign d.show = (d.neg, body d) := by
    rw [show_body]
    cases d.neg with
    | true => rfl
    | false =>
      show splitSign (body d) = _
      rw [e]
      exact splitSign_digit hc
  unfold readFloat
  rw [hs]
  simp only
  have fin : ∀ r : MantState × Str, r = readMant false (body d) {} →
      (if (!r.1.sawDigits) = true then none
        else if (r.1.underscores || false) && !underscoreOK d.show then none
        else some (d.neg, (r.1.mant : ℚ) * ratPow 10 (0 - (r.1.frac : Int)))) =
      some (d.neg, (d.whole : ℚ) + Spec.fracValue d.frac) := by
    rintro r rfl
    rw [m2, m3, m4, m5, ratPow_neg, m6]
    simp only [Bool.not_true, Bool.false_or, Bool.false_and, Bool.false_eq_true, if_false]
    congr 2
    field_simp
  rw [e]
  split
  · rename_i x c' rest he
    cases he
    rw [if_neg (hx x rfl), ← e, m1]
    exact fin _ rfl
  · rw [← e, m1]
    exact fin _ rfl

/-- `strconv.ParseFloat` reads back what is written: the nearest float. -/
theorem parseFloat_show {F : Type} [GoFloat F] (d : Spec.Dec) : (parseFloat d.show : F) = d.value := by
  have hsp : special d.show = none := by
    obtain ⟨c, s, e, hc, -⟩ := body_shape d
    rw [show_body, e]
    cases d.neg with
    | true => exact special_neg_digit hc
    | false => exact special_digit hc
  unfold parseFloat Spec.Dec.value
  rw [hsp, readFloat_show]

theorem showInt_dec (n : Int) : Spec.showInt n = (Spec.Dec.int n).show := by
  unfold Spec.showInt Spec.Dec.int Spec.Dec.show
  simp

/-- Characters of written numbers. -/
def numChar (c : Char) : Prop := isDigit c = true ∨ c = '-' ∨ c = '.'

theorem show_chars (d : Spec.Dec) : ∀ c ∈ d.show, numChar c := by
  intro c hc
  unfold Spec.Dec.show at hc
  rcases List.mem_append.mp hc with hc | hc
  · rcases List.mem_append.mp hc with hc | hc
    · cases h : d.neg with
      | false => rw [h] at hc; cases hc
      | true =>
        rw [h] at hc
        simp only [if_true, List.mem_singleton] at hc
        exact .inr (.inl hc)
    · exact .inl (digits_all _ c hc)
  · by_cases hf : d.frac = []
    · rw [if_pos hf] at hc; cases hc
    · rw [if_neg hf] at hc
      rcases List.mem_cons.mp hc with hc | hc
      · exact .inr (.inr hc)
      · obtain ⟨x, -, rfl⟩ := List.mem_map.mp hc
        exact .inl (digitChar_digit x.2)

theorem showInt_chars (n : Int) : ∀ c ∈ Spec.showInt n, numChar c := by
  rw [showInt_dec]
  exact show_chars _

theorem show_ne (d : Spec.Dec) : d.show ≠ [] := by
  rw [show_body]
  obtain ⟨c, s, e, -⟩ := body_shape d
  rw [e]
  simp

theorem showInt_ne (n : Int) : Spec.showInt n ≠ [] := by rw [showInt_dec]; exact show_ne _

end GosuPP
