import Verif.Lemmas.Turning
import Verif.Spec.Flash
import Mathlib.Algebra.BigOperators.Ring.Finset

/-! The flashlight skill on straight steady maps. -/

namespace GosuPP.Exactly
open Go Spec
attribute [local instance] exactLibm

theorem decaying_succ (v : ℕ → ℝ) (q : ℝ) (n : ℕ) : decaying v q (n + 1) = decaying v q n * q + v n := by
  unfold decaying
  rw [Finset.sum_range_succ, Finset.sum_mul]
  congr 1
  · apply Finset.sum_congr rfl
    intro i hi
    rw [Finset.mem_range] at hi
    rw [mul_assoc, ← pow_succ, show n + 1 - 1 - i = n - 1 - i + 1 by omega]
  · rw [show n + 1 - 1 - n = 0 by omega, pow_zero, mul_one]

theorem decaying_mono {v : ℕ → ℝ} {q : ℝ} (hv : ∀ n, v n ≤ v (n + 1)) (h0 : 0 ≤ v 0) (hq : 0 ≤ q) (n : ℕ) :
    decaying v q n ≤ decaying v q (n + 1) := by
  induction n with
  | zero => rw [decaying_succ]; simp [decaying, h0]
  | succ n ih =>
    rw [decaying_succ v q (n + 1)]
    nth_rewrite 1 [decaying_succ]
    exact add_le_add (mul_le_mul_of_nonneg_right ih hq) (hv n)

/-- A difficulty object of a straight map: where its circle is shown. -/
def Placed (d : Difficulty (Option ℝ)) (T J δ : ℝ) (pos : ℕ → ℝ × ℝ) (i : ℕ) (o : DiffObject (Option ℝ) (Option ℝ)) : Prop :=
  Even T J δ o ∧ o.baseObject.obj.base.getStackedStartPositionMod d.mods = ⟨some (pos (i + 1)).1, some (pos (i + 1)).2⟩ ∧
    o.baseObject.obj.base.getStackedEndPositionMod d.mods = ⟨some (pos (i + 1)).1, some (pos (i + 1)).2⟩

variable {d : Difficulty (Option ℝ)} {T J δ c dist : ℝ}

theorem flash_loop (hT : 0 < T) (hc : 0 < c) (er : d.circleRadius = some c) {cur : DiffObject (Option ℝ) (Option ℝ)}
    {l : List (DiffObject (Option ℝ) (Option ℝ))} {i : ℕ} (hl : ∀ o ∈ l, Even T J δ o)
    (hd : ∀ (j : ℕ) o, l[j]? = some o → (Go.up ((cur.baseObject.obj.base.getStackedStartPositionMod d.mods).dst
      (o.baseObject.obj.base.getStackedEndPositionMod d.mods)) : Option ℝ) = some ((i + j + 1 : ℕ) * dist))
    {st : Flashlight.State (Option ℝ)} (h1 : st.smallDistNerf = some (if i = 0 then 1 else min 1 (dist / 75)))
    (h2 : st.cumulativeStrainTime = some (i * T))
    (h3 : st.result = some (min 1 (J / (52 / c) / 25) * (52 / c) * (dist / T) * (5 * (1 - 0.8 ^ i)))) :
    (Flashlight.loop d cur i l st).smallDistNerf = some (if i + l.length = 0 then 1 else min 1 (dist / 75)) ∧
      (Flashlight.loop d cur i l st).result =
        some (min 1 (J / (52 / c) / 25) * (52 / c) * (dist / T) * (5 * (1 - 0.8 ^ (i + l.length)))) := by
  induction l generalizing i st with
  | nil => exact ⟨h1, h3⟩
  | cons o l ih =>
    have ho := hl o List.mem_cons_self
    have hj := hd 0 o rfl
    rw [Flashlight.loop, if_neg (by rw [ho.spinner]; simp)]
    have hcs : (52 / c : ℝ) ≠ 0 := by positivity
    have hiT : ((i : ℝ) * T + T) ≠ 0 := by positivity
    have e1 : lit 52 /. d.circleRadius = some (52 / c) := by
      rw [er, Exact.lit, Exact.div _ hc.ne']; norm_num
    dsimp only
    have e := ih (i := i + 1) (fun o ho => hl o (List.mem_cons_of_mem _ ho)) (fun j o ho => by
      rw [show i + 1 + j + 1 = i + (j + 1) + 1 by omega]; exact hd (j + 1) o ho)
      (st := { smallDistNerf := if i = 0 then fmin (lit 1) ((Go.up ((cur.baseObject.obj.base.getStackedStartPositionMod d.mods).dst
          (o.baseObject.obj.base.getStackedEndPositionMod d.mods)) : Option ℝ) /. lit 75) else st.smallDistNerf
               cumulativeStrainTime := st.cumulativeStrainTime +. o.strainTime
               result := st.result +. GoLibm.pow (lit 0.8) (ofInt i) *. fmin (lit 1) ((o.jumpDistance /. (lit 52 /. d.circleRadius)) /. lit 25) *.
                  (lit 52 /. d.circleRadius) *.
                (Go.up ((cur.baseObject.obj.base.getStackedStartPositionMod d.mods).dst
                  (o.baseObject.obj.base.getStackedEndPositionMod d.mods)) : Option ℝ) /. (st.cumulativeStrainTime +. o.strainTime) })
      (by
        dsimp only
        rw [show (if i + 1 = 0 then (1 : ℝ) else min 1 (dist / 75)) = min 1 (dist / 75) from if_neg (by omega)]
        by_cases hi : i = 0
        · rw [if_pos hi, hj, hi, Exact.lit 75, Exact.div _ (by norm_num), Exact.lit, Exact.fmin]
          norm_num
        · rw [if_neg hi, h1, if_neg hi])
      (by
        dsimp only
        rw [h2, ho.strainTime, Exact.add]
        congr 1; push_cast; ring)
      (by
        dsimp only
        rw [h3, h2, hj, ho.strainTime, ho.jump, e1, Exact.div _ hcs, Exact.lit 25, Exact.div _ (by norm_num), Exact.lit 1, Exact.fmin,
          Exact.lit 0.8, Exact.ofInt, Exact.pow, Exact.mul, Exact.mul, Exact.mul, Exact.add, Exact.div _ hiT, Exact.add]
        congr 1
        rw [show (((i : ℤ) : ℝ)) = ((i : ℕ) : ℝ) by norm_num, Real.rpow_natCast, pow_succ]
        push_cast
        have hi1 : (i : ℝ) + 1 ≠ 0 := by positivity
        have : ((i : ℝ) + 0 + 1) * dist / ((i : ℝ) * T + T) = dist / T := by
          rw [show (i : ℝ) * T + T = ((i : ℝ) + 1) * T by ring, add_zero, mul_div_mul_left _ _ hi1]
        rw [mul_div_assoc, this]
        norm_num
        ring)
    rw [List.length_cons, show i + (l.length + 1) = i + 1 + l.length by omega]
    exact e

theorem flash_value (hT : 0 < T) (hc : 0 < c) (hdist : 0 ≤ dist) (er : d.circleRadius = some c) {pos : ℕ → ℝ × ℝ} {n : ℕ}
    (hline : Straight dist pos n) (hJ : J = jumpLength c dist)
    {sk : Skill (Option ℝ) (Option ℝ)} (hd : sk.diff = d) {cur : DiffObject (Option ℝ) (Option ℝ)} {k : ℕ} (hk : k + 1 < n)
    (hcur : Placed d T J δ pos k cur)
    (hp : ∀ (i : ℕ) o, sk.previous.reverse[i]? = some o → Placed d T J δ pos (k - 1 - i) o)
    (hlen : sk.previous.length = min k 10) : Flashlight.strainValue sk cur = some (flashValue c dist T k) := by
  have hz : (lit 0 : Option ℝ) = some 0 := by rw [Exact.lit]; norm_num
  have h1 : (lit 1 : Option ℝ) = some 1 := by rw [Exact.lit]; norm_num
  obtain ⟨dx, dy, hdd, hpos⟩ := hline
  have ev : ∀ o ∈ sk.previous.reverse, Even T J δ o := by
    intro o ho
    obtain ⟨i, hi, rfl⟩ := List.getElem_of_mem ho
    exact (hp i _ (List.getElem?_eq_getElem hi)).1
  have hdst : ∀ (j : ℕ) o, sk.previous.reverse[j]? = some o → (Go.up ((cur.baseObject.obj.base.getStackedStartPositionMod d.mods).dst
      (o.baseObject.obj.base.getStackedEndPositionMod d.mods)) : Option ℝ) = some ((0 + j + 1 : ℕ) * dist) := by
    intro j o ho
    have hj : j < min k 10 := by
      have := (List.getElem?_eq_some_iff.mp ho).1
      rwa [List.length_reverse, hlen] at this
    have hjk : j + 1 ≤ k := by omega
    rw [hcur.2.1, (hp j o ho).2.2, show k - 1 - j + 1 = k - j by omega, hpos (k + 1) hk, hpos (k - j) (by omega)]
    unfold Vec.dst Math32.sqrt
    simp only [Exact.mul, Exact.sub, Exact.add, Exact.up, Exact.down]
    have e : ((k - j : ℕ) : ℝ) = (k : ℝ) - j := by rw [Nat.cast_sub (by omega)]
    have e2 : ((pos 0).1 + ((k - j : ℕ) : ℝ) * dx - ((pos 0).1 + ((k + 1 : ℕ) : ℝ) * dx)) *
        ((pos 0).1 + ((k - j : ℕ) : ℝ) * dx - ((pos 0).1 + ((k + 1 : ℕ) : ℝ) * dx)) +
        ((pos 0).2 + ((k - j : ℕ) : ℝ) * dy - ((pos 0).2 + ((k + 1 : ℕ) : ℝ) * dy)) *
        ((pos 0).2 + ((k - j : ℕ) : ℝ) * dy - ((pos 0).2 + ((k + 1 : ℕ) : ℝ) * dy)) = (((0 + j + 1 : ℕ) : ℝ) * dist) ^ 2 := by
      rw [e]
      push_cast
      linear_combination ((j : ℝ) + 1) ^ 2 * hdd
    rw [e2, Exact.sqrt (by positivity), Real.sqrt_sq (by positivity)]
  obtain ⟨r1, r2⟩ := flash_loop (i := 0) hT hc er ev hdst (st := { smallDistNerf := lit 1, cumulativeStrainTime := lit 0, result := lit 0 })
    (by rw [if_pos rfl]; exact h1) (by rw [Nat.cast_zero, zero_mul]; exact hz)
    (by rw [pow_zero, sub_self, mul_zero, mul_zero]; exact hz)
  unfold Flashlight.strainValue
  rw [if_neg (by rw [hcur.1.spinner]; simp), hd]
  dsimp only
  rw [r1, r2, Exact.mul, Exact.lit, Exact.pow, List.length_reverse, hlen, Nat.zero_add]
  unfold flashValue
  rw [← hJ]
  congr 1
  rw [show (((2 : ℚ) : ℝ)) = ((2 : ℕ) : ℝ) by norm_num, Real.rpow_natCast]
  by_cases hk0 : min k 10 = 0
  · rw [hk0]; simp
  · rw [if_neg hk0]

theorem flashValue_mono {T : ℝ} (hT : 0 < T) (hc : 0 < c) (hdist : 0 ≤ dist) (k : ℕ) :
    flashValue c dist T k ≤ flashValue c dist T (k + 1) := by
  have hJ := jumpLength_nonneg hc hdist
  have h1 : (0 : ℝ) ≤ min 1 (dist / 75) := le_min zero_le_one (by positivity)
  have h2 : (0 : ℝ) ≤ min 1 (jumpLength c dist / (52 / c) / 25) := le_min zero_le_one (by positivity)
  have h3 : (0.8 : ℝ) ^ min (k + 1) 10 ≤ 0.8 ^ min k 10 := pow_le_pow_of_le_one (by norm_num) (by norm_num) (by omega)
  have h4 : (0.8 : ℝ) ^ min k 10 ≤ 1 := pow_le_one₀ (by norm_num) (by norm_num)
  unfold flashValue
  apply pow_le_pow_left₀
  · apply mul_nonneg h1
    apply mul_nonneg (by positivity)
    linarith
  · apply mul_le_mul_of_nonneg_left _ h1
    apply mul_le_mul_of_nonneg_left _ (by positivity)
    linarith

theorem peakLoop_flash {fuel : ℕ} {ds : List (DiffObject (Option ℝ) (Option ℝ))} {sk sk' : PeakSkills (Option ℝ) (Option ℝ)}
    {f : Skill (Option ℝ) (Option ℝ)} (hf : sk.flashlight = some f) (h : peakLoop fuel ds sk = .ok sk') :
    ∃ f', sk'.flashlight = some f' ∧ ds.foldlM (fun s o => s.process fuel o) f = .ok f' := by
  induction ds generalizing sk f with
  | nil => cases h; exact ⟨f, hf, rfl⟩
  | cons c ds ih =>
    rw [peakLoop] at h
    obtain ⟨a, h1, h⟩ := bind_ok h
    obtain ⟨s, h2, h⟩ := bind_ok h
    obtain ⟨g, h3, h⟩ := bind_ok h
    rw [hf] at h3
    unfold SkillSet.processOpt at h3
    obtain ⟨f1, h4, h3⟩ := bind_ok h3
    obtain ⟨f', r1, r2⟩ := ih (sk := { aim := a, speed := s, flashlight := g }) (f := f1) (Except.ok.inj h3).symm h
    refine ⟨f', r1, ?_⟩
    rw [List.foldlM_cons, h4]
    exact r2

end GosuPP.Exactly
