import Verif.Lemmas.Notes
import Verif.Lemmas.Flash
import Verif.Spec.Memory

/-! The flashlight skill on arbitrary maps. -/

namespace GosuPP.Exactly
open Go Spec
attribute [local instance] exactLibm

variable {d : Difficulty (Option ℝ)} {c r : ℝ} {x : ℕ → Note}

theorem dst_exact (p q : ℂ) :
    (Vec.dst (⟨some p.re, some p.im⟩ : Vec (Option ℝ)) ⟨some q.re, some q.im⟩ : Option ℝ) = some ‖p - q‖ := by
  unfold Vec.dst Math32.sqrt
  simp only [Exact.mul, Exact.sub, Exact.add, Exact.up, Exact.down]
  rw [Exact.sqrt (by nlinarith), Complex.norm_def, Complex.normSq_apply]
  congr 2
  simp only [Complex.sub_re, Complex.sub_im]
  ring

theorem sum_down {f : ℕ → ℝ} {k i : ℕ} (h : i ≤ k) :
    ∑ j ∈ Finset.Icc (k - i) k, f j = (∑ j ∈ Finset.Icc (k - i + 1) k, f j) + f (k - i) := by
  rw [Finset.Icc_eq_cons_Ioc (by omega), Finset.sum_cons, add_comm]
  congr 2
  ext j
  simp only [Finset.mem_Ioc, Finset.mem_Icc]
  omega

theorem remembered_nonneg (n j : ℕ) : 0 ≤ rememberedFor r x n j :=
  Finset.sum_nonneg fun m _ => by
    split
    · exact le_rfl
    · exact le_trans (by norm_num) (gap_ge (r := r) (x := x) m)

theorem memory_loop (hc : 0 < c) (er : d.circleRadius = some c) {cur : DiffObject (Option ℝ) (Option ℝ)} {k : ℕ}
    (hcur : Shown d c r x (k + 1) cur) {l : List (DiffObject (Option ℝ) (Option ℝ))} {i : ℕ}
    (hl : ∀ (j : ℕ) o, l[j]? = some o → Shown d c r x (k - (i + j)) o) (hi : i + l.length ≤ k)
    {st : Flashlight.State (Option ℝ)}
    (h1 : st.smallDistNerf = some (if i = 0 then 1 else inSight x (k + 1)))
    (h2 : st.cumulativeStrainTime = some (rememberedFor r x (k + 1) (k - i + 1)))
    (h3 : st.result = some (∑ j ∈ Finset.Icc (k - i + 1) k, if (x j).spinner then 0 else recall c r x (k + 1) j)) :
    (Flashlight.loop d cur i l st).smallDistNerf = some (if i + l.length = 0 then 1 else inSight x (k + 1)) ∧
      (Flashlight.loop d cur i l st).result =
        some (∑ j ∈ Finset.Icc (k - (i + l.length) + 1) k, if (x j).spinner then 0 else recall c r x (k + 1) j) := by
  induction l generalizing i st with
  | nil => exact ⟨h1, h3⟩
  | cons o l ih =>
    have ho := hl 0 o rfl
    rw [Nat.add_zero] at ho
    rw [List.length_cons] at hi
    have hik : i ≤ k := by omega
    have hki : k - (i + 1) + 1 = k - i := by omega
    have hrest : ∀ (j : ℕ) o, l[j]? = some o → Shown d c r x (k - (i + 1 + j)) o := fun j o hj => by
      rw [show i + 1 + j = i + (j + 1) by omega]; exact hl (j + 1) o hj
    have hr' : rememberedFor r x (k + 1) (k - i) = rememberedFor r x (k + 1) (k - i + 1) +
        (if (x (k - i)).spinner then 0 else gap r x (k - i)) := by
      unfold rememberedFor
      rw [Nat.add_sub_cancel, sum_down hik]
    rw [List.length_cons, show i + (l.length + 1) = i + 1 + l.length by omega, Flashlight.loop]
    by_cases hsp : (x (k - i)).spinner = true
    · rw [if_pos (by rw [ho.spinner]; exact hsp)]
      refine ih hrest (by omega) ?_ ?_ ?_
      · rw [h1]
        by_cases h0 : i = 0
        · subst h0
          rw [Nat.sub_zero] at hsp
          simp [inSight, hsp]
        · rw [if_neg h0, if_neg (by omega)]
      · rw [h2, hki, hr', if_pos hsp, add_zero]
      · rw [h3, hki, sum_down hik, if_pos hsp, add_zero]
    · have hsp' : (x (k - i)).spinner = false := by simpa using hsp
      rw [if_neg (by rw [ho.spinner]; exact hsp)]
      have hcs : (52 / c : ℝ) ≠ 0 := by positivity
      have e1 : lit 52 /. d.circleRadius = some (52 / c) := by
        rw [er, Exact.lit, Exact.div _ hc.ne']; norm_num
      have ej : (Go.up ((cur.baseObject.obj.base.getStackedStartPositionMod d.mods).dst
          (o.baseObject.obj.base.getStackedEndPositionMod d.mods)) : Option ℝ) = some ‖(x (k + 1)).head - (x (k - i)).tail‖ := by
        rw [hcur.head, ho.tail, Exact.up, dst_exact]
      have et : st.cumulativeStrainTime +. o.strainTime = some (rememberedFor r x (k + 1) (k - i)) := by
        rw [h2, ho.strainTime, Exact.add, hr', if_neg hsp]
      have hpos : rememberedFor r x (k + 1) (k - i) ≠ 0 := by
        rw [hr', if_neg hsp]
        have := remembered_nonneg (r := r) (x := x) (k + 1) (k - i + 1)
        have := gap_ge (r := r) (x := x) (k - i)
        linarith
      dsimp only
      rw [ej, et, e1]
      refine ih hrest (by omega) ?_ ?_ ?_
      · show (if i = 0 then _ else _) = _
        rw [show (if i + 1 = 0 then (1 : ℝ) else inSight x (k + 1)) = inSight x (k + 1) from if_neg (by omega)]
        by_cases h0 : i = 0
        · subst h0
          rw [if_pos rfl, Exact.lit 75, Exact.div _ (by norm_num), Exact.lit, Exact.fmin]
          unfold inSight
          rw [if_pos ⟨by omega, hsp'⟩, Nat.add_sub_cancel, Nat.sub_zero]
          norm_num
        · rw [if_neg h0, h1, if_neg h0]
      · rw [hki]
      · show st.result +. _ = _
        rw [h3, ho.jump, Exact.div _ hcs, Exact.lit 25, Exact.div _ (by norm_num), Exact.lit 1, Exact.fmin,
          Exact.lit 0.8, Exact.ofInt, Exact.pow, Exact.mul, Exact.mul, Exact.mul, Exact.div _ hpos, Exact.add, hki, sum_down hik, if_neg hsp]
        congr 2
        unfold recall
        rw [show k + 1 - 1 - (k - i) = i by omega, show (((i : ℤ) : ℝ)) = ((i : ℕ) : ℝ) by norm_num, Real.rpow_natCast]
        norm_num

theorem flashHit_exact (hc : 0 < c) (er : d.circleRadius = some c) {sk : Skill (Option ℝ) (Option ℝ)} (hd : sk.diff = d)
    {cur : DiffObject (Option ℝ) (Option ℝ)} {k : ℕ} (hcur : Shown d c r x (k + 1) cur)
    (hp : ∀ (i : ℕ) o, sk.previous.reverse[i]? = some o → Shown d c r x (k - i) o)
    (hlen : sk.previous.length = min k 10) : Flashlight.strainValue sk cur = some (flashHit c r x (k + 1)) := by
  have hz : (lit 0 : Option ℝ) = some 0 := by rw [Exact.lit]; norm_num
  have h1 : (lit 1 : Option ℝ) = some 1 := by rw [Exact.lit]; norm_num
  unfold Flashlight.strainValue flashHit
  by_cases hsp : (x (k + 1)).spinner = true
  · rw [if_pos (by rw [hcur.spinner]; exact hsp), if_pos hsp, hz]
  rw [if_neg (by rw [hcur.spinner]; exact hsp), if_neg hsp, hd]
  have hempty : Finset.Icc (k - 0 + 1) k = ∅ := Finset.Icc_eq_empty (by omega)
  obtain ⟨r1, r2⟩ := memory_loop (i := 0) (l := sk.previous.reverse) hc er hcur (fun j o ho => by rw [Nat.zero_add]; exact hp j o ho)
    (by rw [List.length_reverse, hlen]; omega)
    (st := { smallDistNerf := lit 1, cumulativeStrainTime := lit 0, result := lit 0 })
    (by rw [if_pos rfl]; exact h1) (by unfold rememberedFor; rw [Nat.add_sub_cancel, hempty, Finset.sum_empty]; exact hz)
    (by rw [hempty, Finset.sum_empty]; exact hz)
  dsimp only
  rw [r1, r2, Exact.mul, Exact.lit, Exact.pow, List.length_reverse, hlen, Nat.zero_add]
  congr 1
  rw [show (((2 : ℚ) : ℝ)) = ((2 : ℕ) : ℝ) by norm_num, Real.rpow_natCast, Nat.add_sub_cancel,
    show k - min k 10 + 1 = max 1 (k + 1 - 10) by omega]
  by_cases hk0 : k = 0
  · subst hk0
    simp
  · rw [if_neg (by omega)]

end GosuPP.Exactly
