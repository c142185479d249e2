import Verif.Spec.Names
import Verif.Lemmas.ModScore

/-!
# Names of mods: C112
-/

namespace GosuPP.Props
open Go GosuPP Spec

theorem fullLoop_eq (names : List Str) (m : Modifier) : Modifier.stringFullLoop names m = printed names m := by
  induction names generalizing m with
  | nil => rfl
  | cons n ns ih => rw [Modifier.stringFullLoop, printed, and_one_eq, ih]

/-- The printed names are those at the places of the bits that are set. -/
theorem printed_filter (names : List Str) (m : Modifier) (k : ℕ) (h : names.length + k ≤ 64) :
    printed names (m.sshiftRight k) =
      ((names.zipIdx k).filter fun p => m.getLsbD p.2).map Prod.fst := by
  induction names generalizing k with
  | nil => rfl
  | cons n ns ih =>
    rw [List.length_cons] at h
    rw [printed, List.zipIdx_cons, List.filter_cons, sshiftRight_getLsbD m k 0 (by omega), Nat.zero_add,
      ← BitVec.sshiftRight_add, ih (k + 1) (by omega)]
    cases m.getLsbD k <;> rfl

theorem listed_bit (m : Modifier) (i : ℕ) (h : i < 32) : (Modifier.dropImplied m).getLsbD i = listed m (Mod.bit i) := by
  have e : ∀ j, j < 32 → (Mod.bit i = Mod.bit j ↔ i = j) := by
    intro j hj
    refine ⟨fun hb => ?_, fun hb => hb ▸ rfl⟩
    have := congrArg (fun b => BitVec.getLsbD b i) hb
    simp only [bit_getLsbD] at this
    by_contra hne
    simp [hne, show i < 64 by omega] at this
  unfold listed
  rw [dropImplied_getLsbD, show Mod.DoubleTime = Mod.bit 6 from rfl, show Mod.HalfTime = Mod.bit 8 from rfl,
    show Mod.SuddenDeath = Mod.bit 5 from rfl, show Mod.Nightcore = Mod.bit 9 from rfl, show Mod.Daycore = Mod.bit 31 from rfl,
    show Mod.Perfect = Mod.bit 14 from rfl]
  simp only [has_bit m (show i < 63 by omega), has_bit m (by decide : 9 < 63), has_bit m (by decide : 31 < 63),
    has_bit m (by decide : 14 < 63), e 6 (by decide), e 8 (by decide), e 5 (by decide), Bool.decide_eq_true]

/-- Names are listed in the order of a table whose mods are the bits in order. -/
theorem listed_names (names : List Str) (table : List (String × Modifier)) (m : Modifier) (hl : names.length = 32)
    (ht : table = (names.zipIdx 0).map fun p => (String.ofList p.1, Mod.bit p.2)) :
    printed names (Modifier.dropImplied m) = (table.filter fun p => listed m p.2).map fun p => p.1.toList := by
  have h0 : (Modifier.dropImplied m).sshiftRight 0 = Modifier.dropImplied m := BitVec.sshiftRight_zero
  have := printed_filter names (Modifier.dropImplied m) 0 (by omega)
  rw [h0] at this
  rw [this, ht, List.filter_map, List.map_map]
  have hf : (names.zipIdx 0).filter (fun p => (Modifier.dropImplied m).getLsbD p.2) =
      (names.zipIdx 0).filter ((fun p : String × Modifier => listed m p.2) ∘ fun p => (String.ofList p.1, Mod.bit p.2)) := by
    apply List.filter_congr
    intro p hp
    have := (List.mem_zipIdx hp).2.1
    exact listed_bit m p.2 (by omega)
  rw [hf]
  apply List.map_congr_left
  intro p _
  simp

/-- C112. `StringFull` lists, in the order of the table and each once, the full names of the mods in the set, except
DoubleTime beside Nightcore, HalfTime beside Daycore and SuddenDeath beside Perfect. -/
theorem C112_full (m : Modifier) :
    Modifier.stringFull m = (fullNames.filter fun p => listed m p.2).map fun p => p.1.toList := by
  unfold Modifier.stringFull
  rw [fullLoop_eq]
  exact listed_names _ _ m (by decide +kernel) (by decide +kernel)

/-- C112. `String` writes the acronyms of the same mods in the same order one after the other. -/
theorem C112_short (m : Modifier) :
    Modifier.string m = (modTable.filter fun p => listed m p.2).flatMap fun p => p.1.toList := by
  unfold Modifier.string
  rw [stringLoop_eq, listed_names modsString modTable m (by decide +kernel) (by decide +kernel), List.flatMap_def]

/-- The two tables have the same mods in the same order. -/
example : modTable.map Prod.snd = fullNames.map Prod.snd := by decide +kernel

example : Modifier.stringFull (Mod.Hidden ||| Mod.DoubleTime ||| Mod.Nightcore) = ["Hidden".toList, "Nightcore".toList] ∧
    Modifier.string (Mod.Hidden ||| Mod.DoubleTime ||| Mod.Nightcore) = "HDNC".toList := by decide +kernel

end GosuPP.Props
