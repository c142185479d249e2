import Verif.Lemmas.ModScore
import Verif.Go.Real

/-!
# Properties of mods: C01 - C05
-/

namespace GosuPP.Props
open Go GosuPP

/-- C01. `ParseMods(m.String())` never panics and gives back the named mods of `m`, closed
under the implications NC → DT, PF → SD, DC → HT. -/
theorem C01_round_trip (m : Modifier) :
    Modifier.parseMods (Modifier.string m) = .ok (Spec.closure (m &&& Spec.allNamed)) :=
  parse_string m

/-- C01, second half: the round trip is the identity on closed sets of named mods. -/
theorem C01_round_trip_closed (m : Modifier) (hn : m &&& Spec.allNamed = m)
    (hc : Spec.closure m = m) : Modifier.parseMods (Modifier.string m) = .ok m := by
  rw [C01_round_trip, hn, hc]

/-- `HDDTNC` (values 8, 64, 512) is closed and made of named mods; it prints as `HDNC`. -/
example : (Mod.Hidden ||| Mod.DoubleTime ||| Mod.Nightcore) &&& Spec.allNamed
      = Mod.Hidden ||| Mod.DoubleTime ||| Mod.Nightcore ∧
    Spec.closure (Mod.Hidden ||| Mod.DoubleTime ||| Mod.Nightcore)
      = Mod.Hidden ||| Mod.DoubleTime ||| Mod.Nightcore ∧
    Modifier.string (Mod.Hidden ||| Mod.DoubleTime ||| Mod.Nightcore) = "HDNC".toList := by
  decide +kernel

/-- A modifier that is not closed: Nightcore alone comes back with DoubleTime. -/
example : Spec.closure (Mod.Nightcore &&& Spec.allNamed) = Mod.Nightcore ||| Mod.DoubleTime := by
  decide +kernel

/-- C02. On a string of two-character ASCII chunks `ParseMods` returns the union of the named
mods, closed under the implications. -/
theorem C02_parse_chunks (chunks : List Str) (hc : ∀ c ∈ chunks, Spec.IsChunk c) :
    Modifier.parseMods chunks.flatten = .ok (Spec.closure (Spec.namedUnion chunks)) := by
  rw [parseMods_chunks chunks hc, collect_eq, addImplied_eq]

/-- C02, second half: order and multiplicity of the chunks are irrelevant. -/
theorem C02_order_irrelevant (a b : List Str) (ha : ∀ c ∈ a, Spec.IsChunk c)
    (hab : ∀ c, c ∈ a ↔ c ∈ b) :
    Modifier.parseMods a.flatten = Modifier.parseMods b.flatten := by
  rw [C02_parse_chunks a ha, C02_parse_chunks b (fun c hc => ha c ((hab c).mpr hc))]
  have : Spec.namedUnion a = Spec.namedUnion b := by
    unfold Spec.namedUnion
    simp only [hab]
  rw [this]

example : (∀ c ∈ ["DT".toList, "xx".toList, "HD".toList], Spec.IsChunk c) ∧
    Spec.namedUnion ["DT".toList, "xx".toList, "HD".toList] = Mod.Hidden ||| Mod.DoubleTime := by
  constructor
  · intro c hc
    simp only [List.mem_cons, List.not_mem_nil, or_false] at hc
    rcases hc with rfl | rfl | rfl <;> unfold Spec.IsChunk <;> decide
  · decide +kernel

/-- C03. `ParseMods` panics on exactly the strings with an odd number of bytes whose last
character is a single byte; it always returns. -/
theorem C03_parse_panics (s : Str) :
    (Modifier.parseMods s = .error .panic ↔
      byteLen s % 2 = 1 ∧ ∃ c, s.getLast? = some c ∧ c.toNat < 128) ∧
    Modifier.parseMods s ≠ .error .hang := by
  refine ⟨?_, (parseMods_panic s).2⟩
  rw [(parseMods_panic s).1]
  have h : ∀ c : Char, c.utf8Size = 1 ↔ c.toNat < 128 := by
    intro c
    refine ⟨fun h => ?_, utf8Size_ascii⟩
    rw [Char.utf8Size_eq_one_iff] at h
    have := UInt32.le_iff_toNat_le.mp h
    simp only [UInt32.reduceToNat] at this
    have h2 : c.toNat = c.val.toNat := rfl
    omega
  simp only [h]

/-- C03 for ASCII strings: a panic exactly for odd lengths. -/
theorem C03_parse_panics_ascii (s : Str) (ha : ∀ c ∈ s, c.toNat < 128) :
    Modifier.parseMods s = .error .panic ↔ s.length % 2 = 1 := by
  rw [(C03_parse_panics s).1]
  have hb : byteLen s = s.length := by
    clear * - ha
    induction s with
    | nil => rfl
    | cons a s ih =>
      rw [byteLen_cons, utf8Size_ascii (ha a (by simp)), ih (fun c hc => ha c (by simp [hc])),
        List.length_cons, Nat.add_comm]
  rw [hb]
  refine ⟨fun h => h.1, fun h => ⟨h, ?_⟩⟩
  have hne : s ≠ [] := by rintro rfl; simp at h
  exact ⟨s.getLast hne, List.getLast?_eq_some_getLast hne, ha _ (List.getLast_mem hne)⟩

/-- The expectation "ParseMods never panics" is false: `ParseMods("HDD")`. -/
example : Modifier.parseMods "HDD".toList = .error .panic := by decide +kernel

/-- C04. `Compatible` says exactly that Target is absent and no conflicting pair is present. -/
theorem C04_compatible_iff (m : Modifier) :
    Modifier.compatible m = true ↔
      ¬ Spec.has m Mod.Target ∧ ∀ p ∈ Spec.conflicts, ¬ (Spec.has m p.1 ∧ Spec.has m p.2) := by
  have key : Modifier.compatible m = true ↔
      ¬ (Spec.has m Mod.Target ∨ ∃ p ∈ Spec.conflicts, (Spec.has m p.1 ∧ Spec.has m p.2)) := by
    unfold Modifier.compatible
    by_cases h0 : m = Mod.None
    · subst h0
      simp only [beq_self_eq_true, if_true, true_iff]
      decide
    · have hb : (m == Mod.None) = false := by simpa using h0
      rw [hb]
      simp only [Bool.false_eq_true, if_false]
      unfold Spec.conflicts Mod.Target Mod.HardRock Mod.Easy Mod.Nightcore Mod.DoubleTime
        Mod.HalfTime Mod.Daycore Mod.Perfect Mod.SuddenDeath Mod.NoFail Mod.Relax Mod.Relax2
        Mod.Autoplay Mod.SpunOut
      simp only [active_iff_has m (by decide : (23 : Nat) < 63), active_iff_has m (by decide : (4 : Nat) < 63),
        active_iff_has m (by decide : (1 : Nat) < 63), active_iff_has m (by decide : (9 : Nat) < 63),
        active_iff_has m (by decide : (6 : Nat) < 63), active_iff_has m (by decide : (8 : Nat) < 63),
        active_iff_has m (by decide : (31 : Nat) < 63), active_iff_has m (by decide : (14 : Nat) < 63),
        active_iff_has m (by decide : (5 : Nat) < 63), active_iff_has m (by decide : (0 : Nat) < 63),
        active_iff_has m (by decide : (7 : Nat) < 63), active_iff_has m (by decide : (13 : Nat) < 63),
        active_iff_has m (by decide : (11 : Nat) < 63), active_iff_has m (by decide : (12 : Nat) < 63),
        List.mem_cons, List.not_mem_nil, or_false, exists_eq_or_imp, exists_eq_left]
      rw [Bool.ite_eq_true_distrib]
      simp only [Bool.or_eq_true, Bool.and_eq_true, decide_eq_true_eq, Bool.false_eq_true,
        or_and_right, and_or_left, not_or, ite_prop_iff_and, imp_false, implies_true, and_true,
        and_assoc]
      generalize Spec.has m (Mod.bit 23) = a1
      generalize Spec.has m (Mod.bit 4) = a2
      generalize Spec.has m (Mod.bit 1) = a3
      generalize Spec.has m (Mod.bit 9) = a4
      generalize Spec.has m (Mod.bit 6) = a5
      generalize Spec.has m (Mod.bit 8) = a6
      generalize Spec.has m (Mod.bit 31) = a7
      generalize Spec.has m (Mod.bit 14) = a8
      generalize Spec.has m (Mod.bit 5) = a9
      generalize Spec.has m (Mod.bit 0) = a10
      generalize Spec.has m (Mod.bit 7) = a11
      generalize Spec.has m (Mod.bit 13) = a12
      generalize Spec.has m (Mod.bit 11) = a13
      generalize Spec.has m (Mod.bit 12) = a14
      clear h0 hb
      constructor <;> intro h <;> and_intros <;> simp only [h, not_false_eq_true]
  rw [key, not_or, not_exists]
  simp only [not_and]

/-- C04, downward closure: every subset of a compatible set is compatible. -/
theorem C04_downward_closed (m m' : Modifier) (hsub : m' &&& m = m')
    (hm : Modifier.compatible m = true) : Modifier.compatible m' = true := by
  rw [C04_compatible_iff] at *
  have mono : ∀ a, Spec.has m' a → Spec.has m a := by
    intro a ha h0
    apply ha
    rw [← hsub, BitVec.and_assoc, h0]
    simp
  exact ⟨fun h => hm.1 (mono _ h), fun p hp h => hm.2 p hp ⟨mono _ h.1, mono _ h.2⟩⟩

example : Modifier.compatible (Mod.Hidden ||| Mod.DoubleTime ||| Mod.HardRock) = true ∧
    Modifier.compatible (Mod.HardRock ||| Mod.Easy) = false := by decide +kernel

/-- C05. In IEEE arithmetic the score multiplier is (positive) zero for every mod set with
Relax or Autopilot and positive (and below 2) for every other one. -/
theorem C05_score_multiplier_sign (m : Modifier) :
    ((Spec.has m Mod.Relax ∨ Spec.has m Mod.Relax2) →
      (Modifier.getScoreMultiplier m : F64) = .fin 0 false) ∧
    (¬ (Spec.has m Mod.Relax ∨ Spec.has m Mod.Relax2) →
      ((lit 0 : F64) <. Modifier.getScoreMultiplier m) = true ∧
      ((Modifier.getScoreMultiplier m : F64) <. lit 2) = true) := by
  have h7 := has_bit m (by decide : (7 : Nat) < 63)
  have h13 := has_bit m (by decide : (13 : Nat) < 63)
  rw [score_eq, show Mod.Relax = Mod.bit 7 from rfl, show Mod.Relax2 = Mod.bit 13 from rfl, h7, h13,
    ← Bool.or_eq_true]
  have := scoreOfBits_sign (m.getLsbD 0) (m.getLsbD 1) (m.getLsbD 8) (m.getLsbD 3) (m.getLsbD 4)
        (m.getLsbD 6) (m.getLsbD 10) (m.getLsbD 7) (m.getLsbD 13) (m.getLsbD 12) (m.getLsbD 29)
  rw [Bool.not_eq_true]
  exact this

/-- C05, second half, in any arithmetic: only the listed mods matter. -/
theorem C05_score_multiplier_depends {D : Type} [GoFloat D] (m m' : Modifier)
    (h : m &&& Spec.scoreMods = m' &&& Spec.scoreMods) :
    (Modifier.getScoreMultiplier m : D) = Modifier.getScoreMultiplier m' := by
  have key : ∀ i, Spec.scoreMods.getLsbD i = true → m.getLsbD i = m'.getLsbD i := by
    intro i hi
    have := congrArg (fun x => BitVec.getLsbD x i) h
    simp only [BitVec.getLsbD_and, hi, Bool.and_true] at this
    exact this
  rw [score_eq, score_eq, key 0 (by decide), key 1 (by decide), key 8 (by decide),
    key 3 (by decide), key 4 (by decide), key 6 (by decide), key 10 (by decide), key 7 (by decide),
    key 13 (by decide), key 12 (by decide), key 29 (by decide)]

/-- The bits that matter are the eleven named mods, no more. -/
example : Spec.has Spec.scoreMods Mod.Hidden ∧ ¬ Spec.has Spec.scoreMods Mod.Perfect ∧
    (Mod.HardRock ||| Mod.Perfect) &&& Spec.scoreMods = Mod.HardRock &&& Spec.scoreMods := by
  decide

/-- C05. In exact arithmetic the multiplier is the product of the factors of the mods in the set. -/
theorem C05_score_multiplier_value (m : Modifier) : (Modifier.getScoreMultiplier m : ℝ) =
    ((Spec.scoreFactors (decide (Spec.has m Mod.ScoreV2))).map fun p => if Spec.has m p.1 then (p.2 : ℝ) else 1).prod := by
  have key : ∀ i, i < 63 → (Spec.has m (Mod.bit i) ↔ m.getLsbD i = true) := fun i hi => has_bit m hi
  rw [score_eq]
  unfold Spec.scoreFactors
  simp only [List.map_cons, List.map_nil, List.prod_cons, List.prod_nil]
  simp only [Mod.NoFail, Mod.ScoreV2, Mod.Easy, Mod.HalfTime, Mod.Hidden, Mod.HardRock, Mod.DoubleTime, Mod.Flashlight,
    Mod.Relax, Mod.Relax2, Mod.SpunOut, key 0 (by decide), key 1 (by decide), key 8 (by decide), key 3 (by decide), key 4 (by decide),
    key 6 (by decide), key 10 (by decide), key 7 (by decide), key 13 (by decide), key 12 (by decide), key 29 (by decide),
    Bool.decide_eq_true]
  generalize m.getLsbD 0 = b0
  generalize m.getLsbD 1 = b1
  generalize m.getLsbD 8 = b8
  generalize m.getLsbD 3 = b3
  generalize m.getLsbD 4 = b4
  generalize m.getLsbD 6 = b6
  generalize m.getLsbD 10 = b10
  generalize m.getLsbD 7 = b7
  generalize m.getLsbD 13 = b13
  generalize m.getLsbD 12 = b12
  generalize m.getLsbD 29 = b29
  have step : ∀ (b : Bool) (x c : ℝ), (if b = true then x *. c else x) = x * (if b = true then c else 1) := by
    intro b x c
    cases b
    · exact (mul_one x).symm
    · rfl
  have step2 : ∀ (b v : Bool) (x c c' : ℝ), (if b = true then (if v = true then x *. c else x *. c') else x) =
      x * (if b = true then (if v = true then c else c') else 1) := by
    intro b v x c c'
    cases b
    · exact (mul_one x).symm
    · cases v <;> rfl
  have step3 : ∀ (b v : Bool) (x c : ℝ), (if (b && !v) = true then x *. c else x) =
      x * (if b = true then (if v = true then 1 else c) else 1) := by
    intro b v x c
    cases b <;> cases v <;> first | exact (mul_one x).symm | rfl
  have step4 : ∀ (b v : Bool) (x : ℝ), (if (b || v) = true then (lit 0 : ℝ) else x) =
      x * (if b = true then ((0 : ℚ) : ℝ) else 1) * (if v = true then ((0 : ℚ) : ℝ) else 1) := by
    intro b v x
    cases b <;> cases v <;> simp [RealArith.lit]
  unfold scoreOfBits
  simp only [step3, step4]
  simp only [step, step2, RealArith.lit, apply_ite (fun q : ℚ => (q : ℝ)), Rat.cast_one, one_mul, mul_one]
  ring

/-- Hidden and DoubleTime with HardRock. -/
example : (Modifier.getScoreMultiplier (Mod.Hidden ||| Mod.DoubleTime ||| Mod.HardRock) : ℝ) = 1.06 * 1.06 * 1.12 := by
  rw [C05_score_multiplier_value, show decide (Spec.has (Mod.Hidden ||| Mod.DoubleTime ||| Mod.HardRock) Mod.ScoreV2) = false by decide]
  unfold Spec.scoreFactors
  simp only [List.map_cons, List.map_nil, List.prod_cons, List.prod_nil]
  simp +decide
  norm_num

end GosuPP.Props
