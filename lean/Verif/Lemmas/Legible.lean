import Verif.Spec.Legible
import Verif.Lemmas.Followed
import Verif.Lemmas.Stacking
import Verif.Lemmas.ParserObjects
import Verif.Lemmas.Stats

/-!
# Lemmas about map files without undefined numbers
-/

namespace GosuPP.Exactly
open Go Spec
attribute [local instance] exactLibm

/-! ### Reading numbers -/

theorem lower_n {c : Char} (h : lowerAscii c = 'n') : c = 'n' ∨ c = 'N' := by
  unfold lowerAscii at h
  split at h
  · rename_i hc
    simp only [Bool.and_eq_true, decide_eq_true_eq] at hc
    right
    have hv : (c.toNat + 32).isValidChar := by left; omega
    have : c.toNat + 32 = 110 := by
      have := congrArg Char.toNat h
      rw [Char.ofNat, dif_pos hv] at this
      exact this
    apply Char.ext
    apply UInt32.toNat_inj.mp
    show c.toNat = 78
    omega
  · exact .inl h

theorem special_none {s : Str} (h : WithoutN s) : special s = none := by
  have hn : 'n' ∉ s.map lowerAscii := by
    intro hm
    obtain ⟨c, hc, e⟩ := List.mem_map.mp hm
    rcases lower_n e with rfl | rfl
    · exact h.1 hc
    · exact h.2 hc
  have ne : ∀ t : Str, 'n' ∈ t → s.map lowerAscii ≠ t := fun t ht e => hn (e ▸ ht)
  unfold special
  simp only [Bool.or_eq_true, decide_eq_true_eq]
  rw [if_neg (ne _ (by decide)), if_neg, if_neg]
  · rintro (h | h) <;> exact ne _ (by decide) h
  · rintro (((h | h) | h) | h) <;> exact ne _ (by decide) h

theorem parse_num {s : Str} (h : WithoutN s) : IsNumber (parseFloat s : Option ℝ) := by
  unfold parseFloat
  rw [special_none h]
  dsimp only
  split
  · exact num_lit 0
  · split
    · exact num_neg (num_lit _)
    · exact num_lit _

theorem split_chars (c : Char) : ∀ (s : Str) (p : Str), p ∈ split c s → ∀ x ∈ p, x ∈ s
  | [], p, hp => by simp [split] at hp; subst hp; simp
  | y :: s, p, hp => by
    intro x hx
    unfold split at hp
    split at hp
    · rcases List.mem_cons.mp hp with rfl | hp
      · cases hx
      · exact List.mem_cons_of_mem _ (split_chars c s p hp x hx)
    · cases hq : split c s with
      | nil =>
        rw [hq] at hp
        simp only [List.mem_singleton] at hp
        subst hp
        simp only [List.mem_singleton] at hx
        subst hx
        exact List.mem_cons_self
      | cons q qs =>
        rw [hq] at hp
        rcases List.mem_cons.mp hp with rfl | hp
        · rcases List.mem_cons.mp hx with rfl | hx
          · exact List.mem_cons_self
          · exact List.mem_cons_of_mem _ (split_chars c s q (by rw [hq]; simp) x hx)
        · exact List.mem_cons_of_mem _ (split_chars c s p (by rw [hq]; exact List.mem_cons_of_mem _ hp) x hx)

theorem split_without {c : Char} {s p : Str} (h : WithoutN s) (hp : p ∈ split c s) : WithoutN p :=
  ⟨fun hx => h.1 (split_chars c s p hp _ hx), fun hx => h.2 (split_chars c s p hp _ hx)⟩

theorem points_somewhere : ∀ (l : List Str) {ps : List (Vec (Option ℝ))}, (∀ p ∈ l, WithoutN p) → parsePoints l = .ok ps → ∀ v ∈ ps, Somewhere v
  | [], _, _, e => by cases e; simp
  | p :: l, ps, h, e => by
    unfold parsePoints at e
    obtain ⟨f, hf, e⟩ := bind_ok e
    obtain ⟨g, hg, e⟩ := bind_ok e
    obtain ⟨qs, hq, e⟩ := bind_ok e
    cases e
    have hp := h p (by simp)
    intro v hv
    rcases List.mem_cons.mp hv with rfl | hv
    · exact somewhere_iff.mpr ⟨parse_num (split_without hp (List.mem_of_getElem? (index_ok (n := 0) hf))),
        parse_num (split_without hp (List.mem_of_getElem? (index_ok (n := 1) hg)))⟩
    · exact points_somewhere l (fun p hp => h p (List.mem_cons_of_mem _ hp)) hq v hv

/-- What a line gives: defined numbers, and no stacking yet. -/
structure Given (o : Obj (Option ℝ) (Option ℝ)) : Prop where
  time : IsNumber o.base.startTime
  start : Somewhere o.base.startPosRaw
  stop : Somewhere o.base.endPosRaw
  slider : ∀ s, o.kind = .slider s → Drawn s.multiCurve ∧ IsNumber s.pixelLength ∧ s.scorePoints = []
  stack : Somewhere o.base.stackOffset ∧ Somewhere o.base.stackOffsetEZ ∧ Somewhere o.base.stackOffsetHR

theorem common_given {arr : List Str} (h : CleanRecord arr) {b : HitObject (Option ℝ) (Option ℝ)} (e : commonParse arr = .ok b) :
    IsNumber b.startTime ∧ Somewhere b.startPosRaw ∧ Somewhere b.endPosRaw ∧
      Somewhere b.stackOffset ∧ Somewhere b.stackOffsetEZ ∧ Somewhere b.stackOffsetHR := by
  unfold commonParse at e
  obtain ⟨f0, h0, e⟩ := bind_ok e
  obtain ⟨f1, h1, e⟩ := bind_ok e
  obtain ⟨f2, h2, e⟩ := bind_ok e
  obtain ⟨f3, h3, e⟩ := bind_ok e
  obtain ⟨f4, h4, e⟩ := bind_ok e
  cases e
  have hp : Somewhere (⟨parseFloat f0, parseFloat f1⟩ : Vec (Option ℝ)) :=
    somewhere_iff.mpr ⟨parse_num (h.common 0 f0 (by omega) (index_ok (n := 0) h0)), parse_num (h.common 1 f1 (by omega) (index_ok (n := 1) h1))⟩
  exact ⟨parse_num (h.common 2 f2 (by omega) (index_ok (n := 2) h2)), hp, hp, some_zero, some_zero, some_zero⟩

theorem create_given {fuel : ℕ} {arr : List Str} (h : CleanRecord arr) {o : Obj (Option ℝ) (Option ℝ)}
    (e : createObject fuel arr = .ok (some o)) : Given o := by
  unfold createObject at e
  obtain ⟨ty, hty, e⟩ := bind_ok e
  simp only at e
  split at e
  · obtain ⟨x, hx, e⟩ := bind_ok e
    cases e
    unfold newCircle at hx
    obtain ⟨b, hb, hx⟩ := bind_ok hx
    cases hx
    obtain ⟨a1, a2, a3, a4⟩ := common_given h hb
    exact ⟨a1, a2, a3, fun s hs => (by cases hs), a4⟩
  split at e
  · obtain ⟨x, hx, e⟩ := bind_ok e
    cases e
    unfold newSpinner at hx
    obtain ⟨b, hb, hx⟩ := bind_ok hx
    obtain ⟨_, -, hx⟩ := bind_ok hx
    cases hx
    obtain ⟨a1, a2, a3, a4⟩ := common_given h hb
    exact ⟨a1, a2, a3, fun s hs => (by cases hs), a4⟩
  split at e
  · rename_i hsl
    have hsl' : (parseInt ty / 2) % 2 = 1 := by
      unfold typeSlider intBit at hsl
      simpa using hsl
    have h3 : arr[3]? = some ty := index_ok (n := 3) hty
    obtain ⟨x, hx, e⟩ := bind_ok e
    cases e
    unfold newSlider at hx
    obtain ⟨b, hb, hx⟩ := bind_ok hx
    obtain ⟨f7, h7, hx⟩ := bind_ok hx
    obtain ⟨_, -, hx⟩ := bind_ok hx
    obtain ⟨f5, h5, hx⟩ := bind_ok hx
    obtain ⟨more, hmore, hx⟩ := bind_ok hx
    obtain ⟨_, -, hx⟩ := bind_ok hx
    obtain ⟨mc, hmc, hx⟩ := bind_ok hx
    obtain ⟨ep, hep, hx⟩ := bind_ok hx
    obtain ⟨_, -, hx⟩ := bind_ok hx
    obtain ⟨_, -, hx⟩ := bind_ok hx
    obtain ⟨_, -, hx⟩ := bind_ok hx
    cases hx
    obtain ⟨a1, a2, a3, a4⟩ := common_given h hb
    have n7 := parse_num (h.slider ty f7 h3 hsl' (.inr (index_ok (n := 7) h7)))
    have n5 := h.slider ty f5 h3 hsl' (.inl (index_ok (n := 5) h5))
    have hd : Drawn mc := by
      refine newT_drawn (fun v hv => ?_) n7 hmc
      rcases List.mem_cons.mp hv with rfl | hv
      · exact a2
      · exact points_somewhere _ (fun p hp => split_without n5 (List.mem_of_mem_tail hp)) hmore v hv
    obtain ⟨v, hv, sv⟩ := drawn_pointAt hd (num_lit 1)
    rw [hep] at hv
    cases hv
    exact ⟨a1, a2, sv, fun s hs => by cases hs; exact ⟨hd, n7, rfl⟩, a4⟩
  · cases e

/-! ### Stacking -/

/-- The stack offsets are defined. -/
def Offsets (o : Obj (Option ℝ) (Option ℝ)) : Prop :=
  Somewhere o.base.stackOffset ∧ Somewhere o.base.stackOffsetEZ ∧ Somewhere o.base.stackOffsetHR

theorem offsets_index (o : Obj (Option ℝ) (Option ℝ)) (v : Int) (m : Modifier) : Offsets (o.setStackIndex v m) = Offsets o := by
  unfold Obj.setStackIndex HitObject.setStackIndex
  split
  · rfl
  · split <;> rfl

theorem offsets_finish {diff : Difficulty (Option ℝ)} (hr : IsNumber diff.circleRadius) {o : Obj (Option ℝ) (Option ℝ)} (h : Offsets o) :
    Offsets (Stacking.finish diff o) := by
  unfold Stacking.finish
  split
  · rw [offsets_index, offsets_index, offsets_index]
    exact h
  · have hn : IsNumber (fneg (ofInt (o.base.getStackIndex diff.mods)) *. down diff.circleRadius /. (lit 10 : Option ℝ)) :=
      num_div (num_mul (num_neg (num_ofInt _)) hr) (num_lit _) (by rw [Exact.lit]; simp)
    have hv : Somewhere (Vec.scl ⟨lit 1, lit 1⟩ (fneg (ofInt (o.base.getStackIndex diff.mods)) *. down diff.circleRadius /. (lit 10 : Option ℝ))) :=
      some_scl (somewhere_iff.mpr ⟨num_lit 1, num_lit 1⟩) hn
    obtain ⟨h1, h2, h3⟩ := h
    unfold Obj.setStackOffset HitObject.setStackOffset
    dsimp only
    split
    · exact ⟨h1, h2, hv⟩
    · split
      · exact ⟨h1, hv, h3⟩
      · exact ⟨hv, h2, h3⟩

theorem offsets_process {version : Int} {diff : Difficulty (Option ℝ)} (hr : IsNumber diff.circleRadius) {sl : Option ℝ}
    {objs : List (Obj (Option ℝ) (Option ℝ))} (h : ∀ o ∈ objs, Offsets o) : ∀ o ∈ Stacking.process version diff sl objs, Offsets o := by
  have all : ∀ {l l' : List (Obj (Option ℝ) (Option ℝ))}, l'.map Offsets = l.map Offsets → (∀ o ∈ l, Offsets o) → ∀ o ∈ l', Offsets o := by
    intro l l' e hl o ho
    have : Offsets o ∈ l.map Offsets := e ▸ List.mem_map_of_mem ho
    obtain ⟨o', ho', e'⟩ := List.mem_map.mp this
    exact e' ▸ hl o' ho'
  have h0 : ∀ o ∈ objs.map (fun o => o.setStackIndex 0 diff.mods), Offsets o := by
    refine all ?_ h
    rw [List.map_map]
    exact List.map_congr_left fun o _ => offsets_index o 0 diff.mods
  intro o ho
  unfold Stacking.process at ho
  simp only at ho
  obtain ⟨o', ho', rfl⟩ := List.mem_map.mp ho
  apply offsets_finish hr
  split at ho'
  · exact all (Stacking.applyNew_frame (fun o v => offsets_index o v _) _ _) h0 o' ho'
  · unfold Stacking.applyOld at ho'
    exact all (Stacking.oldLoop_frame (fun o v => offsets_index o v _) _ _ _ _) h0 o' ho'

theorem radius_num (d : Difficulty (Option ℝ)) (h : IsNumber d.cs) : IsNumber d.calculate.circleRadius := by
  obtain ⟨x, hx⟩ := h
  obtain ⟨y, -, ey, -⟩ := Exactly.adjust_mono d.mods (k := 1.3) (by norm_num) (show (10 : ℝ) ≤ 12 by norm_num) (le_refl x)
  refine ⟨54.4 - 4.48 * y, ?_⟩
  show difficultyRate (Difficulty.adjust d.mods 1.3 d.cs) _ _ _ = _
  rw [hx, ey, radius_exact]

theorem offsets_calculate {version : Int} {d : Difficulty (Option ℝ)} (hc : IsNumber d.cs) {sl : Option ℝ}
    {objs : List (Obj (Option ℝ) (Option ℝ))} (h : ∀ o ∈ objs, Offsets o) : ∀ o ∈ Stacking.calculate version d sl objs, Offsets o := by
  unfold Stacking.calculate
  dsimp only
  refine offsets_process (radius_num _ ?_) (offsets_process (radius_num _ ?_) (offsets_process (radius_num _ ?_) h)) <;> exact hc

end GosuPP.Exactly
