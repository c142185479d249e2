import Verif.Model.Mods

/-! Helper lemmas about `Modifier` bits. -/

namespace GosuPP
open Go

theorem bit_getLsbD (i j : Nat) : (Mod.bit i).getLsbD j = (decide (j < 64) && decide (j = i)) := by
  unfold Mod.bit
  rw [BitVec.getLsbD_shiftLeft]
  by_cases h : j = i
  · subst h; simp
  · by_cases hlt : j < i
    · simp [hlt, h]
    · have : j - i ≠ 0 := by omega
      simp [hlt, h, BitVec.getLsbD_one, this]

theorem and_bit (m : Modifier) (i : Nat) :
    m &&& Mod.bit i = if m.getLsbD i then Mod.bit i else 0 := by
  apply BitVec.eq_of_getLsbD_eq
  intro j hj
  rw [BitVec.getLsbD_and, bit_getLsbD]
  by_cases h : j = i
  · subst h; cases hm : m.getLsbD j <;> simp [bit_getLsbD, hj]
  · cases hm : m.getLsbD i <;> simp [bit_getLsbD, h]

theorem pos_bit {i : Nat} (h : i < 63) : Modifier.pos (Mod.bit i) = true := by
  have : ∀ i : Fin 63, Modifier.pos (Mod.bit i) = true := by decide +kernel
  exact this ⟨i, h⟩

/-- On a single bit (below the sign bit) `Active` reads that bit. -/
theorem active_bit (m : Modifier) {i : Nat} (h : i < 63) :
    Modifier.active m (Mod.bit i) = m.getLsbD i := by
  unfold Modifier.active
  rw [and_bit]
  cases hm : m.getLsbD i
  · rfl
  · simpa using pos_bit h

end GosuPP
