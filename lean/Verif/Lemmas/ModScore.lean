import Verif.Go.IEEE
import Verif.Lemmas.ModStrings

/-! Helper lemmas for `Compatible` and `GetScoreMultiplier`. -/

namespace GosuPP
open Go

theorem has_bit (m : Modifier) {i : Nat} (hi : i < 63) :
    Spec.has m (Mod.bit i) ↔ m.getLsbD i = true := by
  rw [← active_bit m hi]
  unfold Spec.has Modifier.active
  rw [and_bit]
  cases h : m.getLsbD i
  · simp [Modifier.pos]
  · simp only [if_true, pos_bit hi, iff_true, ne_eq]
    intro h0
    have := pos_bit hi
    rw [h0] at this
    simp [Modifier.pos] at this

theorem active_iff_has (m : Modifier) {i : Nat} (hi : i < 63) :
    Modifier.active m (Mod.bit i) = decide (Spec.has m (Mod.bit i)) := by
  rw [Bool.eq_iff_iff, decide_eq_true_eq, has_bit m hi, active_bit m hi]

/-- The score multiplier of `m` as a function of the eleven bits it reads. -/
def scoreOfBits {D : Type} [GoFloat D] (nf ez ht hd hr dt fl rx ap so v2 : Bool) : D :=
  let m : D := lit 1
  let m := if nf && !v2 then m *. lit 0.5 else m
  let m := if ez then m *. lit 0.5 else m
  let m := if ht then m *. lit 0.3 else m
  let m := if hd then m *. lit 1.06 else m
  let m := if hr then (if v2 then m *. lit 1.10 else m *. lit 1.06) else m
  let m := if dt then (if v2 then m *. lit 1.20 else m *. lit 1.12) else m
  let m := if fl then m *. lit 1.12 else m
  let m := if rx || ap then lit 0 else m
  if so then m *. lit 0.9 else m

theorem score_eq {D : Type} [GoFloat D] (m : Modifier) :
    (Modifier.getScoreMultiplier m : D) =
      scoreOfBits (m.getLsbD 0) (m.getLsbD 1) (m.getLsbD 8) (m.getLsbD 3) (m.getLsbD 4)
        (m.getLsbD 6) (m.getLsbD 10) (m.getLsbD 7) (m.getLsbD 13) (m.getLsbD 12) (m.getLsbD 29) := by
  have hv : ((m &&& Mod.bit 29) == 0) = !(m.getLsbD 29) := by
    rw [and_bit]
    cases m.getLsbD 29 <;> decide
  have hrx : Modifier.pos ((m &&& Mod.bit 7) ||| (m &&& Mod.bit 13)) =
      (m.getLsbD 7 || m.getLsbD 13) := by
    rw [and_bit, and_bit]
    cases m.getLsbD 7 <;> cases m.getLsbD 13 <;> decide
  unfold Modifier.getScoreMultiplier scoreOfBits Mod.NoFail Mod.ScoreV2 Mod.Easy Mod.HalfTime
    Mod.Hidden Mod.HardRock Mod.DoubleTime Mod.Flashlight Mod.Relax Mod.Relax2 Mod.SpunOut
  simp only [hv, hrx, active_bit m (by decide : (0 : Nat) < 63), active_bit m (by decide : (1 : Nat) < 63),
    active_bit m (by decide : (8 : Nat) < 63), active_bit m (by decide : (3 : Nat) < 63),
    active_bit m (by decide : (4 : Nat) < 63), active_bit m (by decide : (6 : Nat) < 63),
    active_bit m (by decide : (10 : Nat) < 63), active_bit m (by decide : (12 : Nat) < 63),
    active_bit m (by decide : (29 : Nat) < 63)]

set_option maxRecDepth 10000 in
theorem scoreOfBits_sign : ∀ nf ez ht hd hr dt fl rx ap so v2 : Bool,
    ((rx || ap) = true → (scoreOfBits nf ez ht hd hr dt fl rx ap so v2 : F64) = .fin 0 false) ∧
    ((rx || ap) = false → ((lit 0 : F64) <. scoreOfBits nf ez ht hd hr dt fl rx ap so v2) = true ∧
      ((scoreOfBits nf ez ht hd hr dt fl rx ap so v2 : F64) <. lit 2) = true) := by
  decide +kernel

end GosuPP
