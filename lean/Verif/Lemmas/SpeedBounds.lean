import Verif.Lemmas.StrainBounds

/-! Bounds of speed and flashlight strains. -/

namespace GosuPP
open Go Fl Spec
open GosuPP.Fl (NN0)

/-- Interpolation between two times stays near them. -/
theorem lerp_in {p s r : F64} (hp : In 25 (2 ^ 51) p) (hs : In 25 (2 ^ 51) s) (hr : In 0 1 r) (hlt : (s <. p) = true) :
    In 1 (2 ^ 51) (lerpF64 p s r) := by
  unfold lerpF64
  obtain ⟨p, zp, rfl, p1, p2⟩ := hp
  obtain ⟨s, zs, rfl, s1, s2⟩ := hs
  obtain ⟨r, zr, rfl, r1, r2⟩ := hr
  have hlt : s < p := by simpa [go_lt, Fl.lt] using hlt
  have hq : |s + -p| ≤ pow2 51 := by
    rw [show pow2 51 = 2 ^ 51 from pow2_nat 51, abs_le]
    constructor <;> linarith
  have herr := rnd_error_rel (f := fmt64) (s + -p)
  have h3 : pow2 (-(fmt64.p : ℤ)) = 1 / 2 ^ 53 := by
    show pow2 (-((53 : ℕ) : ℤ)) = _
    rw [pow2_eq, zpow_neg]; norm_num
  have h4 : pow2 (fmt64.emin - 1) ≤ 1 / 4 := by
    have : pow2 (fmt64.emin - 1) ≤ pow2 (-2) := pow2_mono (by decide)
    have e : pow2 (-2) = 1 / 4 := by rw [show (-2 : ℤ) = -((2 : ℕ) : ℤ) from rfl, pow2_eq, zpow_neg]; norm_num
    rwa [e] at this
  have herr2 : |rnd fmt64 (s + -p) - (s + -p)| ≤ 1 := by
    rw [show pow2 51 = 2 ^ 51 from pow2_nat 51] at hq
    rw [h3] at herr
    linarith
  have hsub : ∃ t, ((fin s zs : F64) -. fin p zp) = fin (rnd fmt64 (s + -p)) t := fin_of_ofRat hq (by decide) (by decide)
  obtain ⟨td, ed⟩ := hsub
  rw [ed]
  have hrep : Rep fmt64 (rnd fmt64 (s + -p)) := rnd_rep _
  have hneg : rnd fmt64 (s + -p) ≤ 0 := rnd_le Rep.zero (by linarith)
  have hlow : -(2 ^ 51) ≤ rnd fmt64 (s + -p) := le_rnd (nice_pow 51 (by norm_num)).neg.1 (by linarith)
  generalize rnd fmt64 (s + -p) = d at herr2 hrep hneg hlow ⊢
  have herr3 := abs_le.mp herr2
  have hdr : |d * r| ≤ pow2 51 := by
    rw [show pow2 51 = 2 ^ 51 from pow2_nat 51, abs_le]
    constructor <;> nlinarith
  have hmul : ∃ t, ((fin d td : F64) *. fin r zr) = fin (rnd fmt64 (d * r)) t := fin_of_ofRat hdr (by decide) (by decide)
  obtain ⟨tm, em⟩ := hmul
  rw [em]
  have m1 : rnd fmt64 (d * r) ≤ 0 := rnd_le Rep.zero (mul_nonpos_of_nonpos_of_nonneg hneg r1)
  have m2 : d ≤ rnd fmt64 (d * r) := le_rnd hrep (by nlinarith)
  exact in_ofRat _ nice_one (nice_pow 51 (by norm_num)) (by linarith) (by linarith)

/-- The hit window of a difficulty at its speed. -/
def GwOk (g : F64) : Prop := In (1 / 2 ^ 10) (2 ^ 22) g

theorem gw_ok {d : Difficulty F64} (hs : In (1 / 1024) 1024 d.speed) (hh : In 1 4096 d.hit300) : GwOk (d.hit300 /. d.speed) :=
  hh.div' hs (by norm_num) (by norm_num) (nice_neg_pow 10 (by norm_num)) (nice_pow 22 (by norm_num)) (by norm_num) (by norm_num)

variable [GoLibm F64] (hl : PowLaws) (ht : TrigLaws)

section speed
include hl

theorem speedValue_in {sk : Skill F32 F64} {cur : DiffObject F32 F64} {d : Difficulty F64}
    (hp : ∀ o ∈ sk.previous, ObjOk d o) (hc : ObjOk d cur) (hg : GwOk (sk.diff.hit300 /. sk.diff.speed)) :
    In 0 8 (Speed.strainValue sk cur) := by
  unfold Speed.strainValue
  split
  · exact in_zero.mono le_rfl (by norm_num)
  · simp only
    have n23 : Nice (2 ^ 23) := nice_pow 23 (by norm_num)
    have n51 : Nice (2 ^ 51) := nice_pow 51 (by norm_num)
    have n52 : Nice (2 ^ 52) := nice_pow 52 (by norm_num)
    have n61 : Nice (2 ^ 61) := nice_pow 61 (by norm_num)
    have n62 : Nice (2 ^ 62) := nice_pow 62 (by norm_num)
    have n8 : Nice 8 := by exact nice_nat 8 (by norm_num)
    have hw : In (1 / 2 ^ 10) (2 ^ 23) (sk.diff.hit300 /. sk.diff.speed *. lit 2) :=
      hg.mul (in_lit (q := 2) (a := 2) (b := 2) nice2 nice2 le_rfl le_rfl) (by norm_num) (by norm_num) (nice_neg_pow 10 (by norm_num)) n23
        (by norm_num) (by norm_num)
    generalize sk.diff.hit300 /. sk.diff.speed *. lit 2 = w at hw
    have key : ∀ t : F64, In 1 (2 ^ 51) t → In 0 8 (((if t /. clampF64 ((t /. w) /. lit 0.93) (lit 0.92) (lit 1) <. lit 75 then
          lit 1 +. lit 0.75 *. GoLibm.pow ((lit 75 -. t /. clampF64 ((t /. w) /. lit 0.93) (lit 0.92) (lit 1)) /. lit 40) (lit 2)
        else (lit 1 : F64)) +.
        (if t /. clampF64 ((t /. w) /. lit 0.93) (lit 0.92) (lit 1) <. lit 75 then
          lit 1 +. lit 0.75 *. GoLibm.pow ((lit 75 -. t /. clampF64 ((t /. w) /. lit 0.93) (lit 0.92) (lit 1)) /. lit 40) (lit 2)
        else (lit 1 : F64)) *.
        GoLibm.pow (fmin (lit 125) (cur.travelDistance +. cur.jumpDistance) /. lit 125) (lit 3.5)) /.
        (t /. clampF64 ((t /. w) /. lit 0.93) (lit 0.92) (lit 1))) := by
      intro t ht
      have hq : In 0 (2 ^ 62) ((t /. w) /. lit 0.93) := by
        have b1 := (ht.mono (a' := 0) (b' := 2 ^ 51) (by norm_num) le_rfl).div hw le_rfl (by norm_num) n61 (by norm_num)
        exact b1.div (in_lit (q := 0.93) (a := 1 / 2) (b := 1) nice_half nice_one (by norm_num) (by norm_num)) le_rfl (by norm_num) n62 (by norm_num)
      have hcl : In (1 / 2) 1 (clampF64 ((t /. w) /. lit 0.93) (lit 0.92) (lit 1)) :=
        (clamp_in hq.nn (in_lit (q := 0.92) (a := 1 / 2) (b := 1) nice_half nice_one (by norm_num) (by norm_num)) in_one).mono
          (by norm_num) le_rfl
      have hu : In 1 (2 ^ 52) (t /. clampF64 ((t /. w) /. lit 0.93) (lit 0.92) (lit 1)) :=
        ht.div' hcl (by norm_num) (by norm_num) nice_one n52 (by norm_num) (by norm_num)
      generalize t /. clampF64 ((t /. w) /. lit 0.93) (lit 0.92) (lit 1) = u at hu ⊢
      have hb : In 0 4 (if u <. lit 75 then lit 1 +. lit 0.75 *. GoLibm.pow ((lit 75 -. u) /. lit 40) (lit 2) else (lit 1 : F64)) := by
        split
        · rename_i hlt
          obtain ⟨v, z, rfl, v1, v2⟩ := hu
          have e75 : (lit 75 : F64) = fin 75 false := by decide +kernel
          rw [e75] at hlt ⊢
          have hv : v < 75 := by simpa [go_lt, Fl.lt] using hlt
          have n80 : Nice 80 := by exact nice_nat 80 (by norm_num)
          have c1 : In 0 80 ((fin 75 false : F64) -. fin v z) := in_ofRat _ nice_zero n80 (by linarith) (by linarith)
          have c2 := c1.div (in_lit (q := 40) (a := 40) (b := 40) (by exact nice_nat 40 (by norm_num)) (by exact nice_nat 40 (by norm_num))
            le_rfl le_rfl) le_rfl (by norm_num) (b' := 2) nice2 (by norm_num)
          have c3 := pow_sq hl 1 (by norm_num) (c2.mono (by norm_num) (by norm_num))
          have n3 : Nice 3 := by exact nice_nat 3 (by norm_num)
          have c4 : In 0 3 (lit 0.75 *. GoLibm.pow (((fin 75 false : F64) -. fin v z) /. lit 40) (lit 2)) :=
            (in_lit (q := 0.75) (a := 0) (b := 3 / 4) nice_zero (by
              have : Nice (3 * (1 / 2 ^ 2)) := by
                refine ⟨⟨3, -2, by decide, by decide, by rw [show (-2 : ℤ) = -((2 : ℕ) : ℤ) from rfl, pow2_eq, zpow_neg]; norm_num⟩, ?_⟩
                refine _root_.lt_of_lt_of_le ?_ (pow2_mono (by norm_num : (0 : ℤ) ≤ 1024))
                norm_num [pow2, abs_lt]
              norm_num at this ⊢; exact this) (by norm_num) (by norm_num)).mul c3 le_rfl le_rfl nice_zero n3 (by norm_num) (by norm_num)
          exact in_one.add c4 nice_zero nice4 (by norm_num) (by norm_num)
        · exact in_one.mono (by norm_num) (by norm_num)
      have hd : In 0 1 (fmin (lit 125) (cur.travelDistance +. cur.jumpDistance) /. lit 125) := by
        have n125 : Nice 125 := by exact nice_nat 125 (by norm_num)
        have l125 : In 125 125 (lit 125 : F64) := in_lit n125 n125 le_rfl le_rfl
        have b1 := hc.travel.add hc.jump nice_zero (nice_pow 69 (by norm_num)) (by norm_num) (by norm_num)
        have b2 := (l125.fmin b1).mono (a' := 0) (b' := 125) (by norm_num) (by norm_num)
        exact b2.div l125 le_rfl (by norm_num) nice_one (by norm_num)
      have hpw := pow_unit hl hd (in_lit (q := 3.5) (a := 0) (b := 4) nice_zero nice4 (by norm_num) (by norm_num))
      have hm := hb.mul hpw le_rfl le_rfl nice_zero nice4 (by norm_num) (by norm_num)
      exact (hb.add hm nice_zero n8 (by norm_num) (by norm_num)).div hu le_rfl (by norm_num) n8 (by norm_num)
    refine key _ ?_
    split
    · rename_i previous hpr
      split
      · rename_i hcond
        rw [Bool.and_eq_true] at hcond
        have hpo := hp _ (getPrevious_mem hpr)
        refine lerp_in hpo.strain hc.strain ?_ hcond.2
        exact (hc.strain.mono (a' := 0) (b' := 2 ^ 51) (by norm_num) le_rfl).div_le hw (by norm_num) (le_of_lt hcond.1)
      · exact hc.strain.mono (by norm_num) le_rfl
    · exact hc.strain.mono (by norm_num) le_rfl

end speed

/-! ### Rhythm -/

/-- Bounds of the variables of the rhythm loop after `n` steps. -/
structure RhythmOk (n : ℕ) (r : Speed.Rhythm F64) : Prop where
  complexity : In 0 (n * 16) r.complexitySum
  ratio : In 0 4 r.startRatio
  island : r.islandSize ≤ 7
  previous : r.previousIslandSize ≤ 7

theorem nice16 {n : ℕ} (h : n ≤ 2 ^ 40) : Nice (n * 16) := by
  have := nice_nat (n * 16) (by omega)
  push_cast at this
  exact this

theorem RhythmOk.mono {n m : ℕ} {r : Speed.Rhythm F64} (h : RhythmOk n r) (hnm : n ≤ m) : RhythmOk m r := by
  refine ⟨h.complexity.mono le_rfl ?_, h.ratio, h.island, h.previous⟩
  have : (n : ℚ) ≤ m := by exact_mod_cast hnm
  linarith

theorem island_sqrt {n : ℕ} (h : n ≤ 7) : In 0 4 (GoFloat.sqrt (lit 4 +. ofInt n) : F64) := by
  have n16 : Nice 16 := by exact nice_nat 16 (by norm_num)
  have h1 : In 0 16 (lit 4 +. ofInt n : F64) :=
    (in_lit (q := 4) (a := 4) (b := 4) nice4 nice4 le_rfl le_rfl).add
      (in_ofInt (n := n) (a := 0) (b := 7) nice_zero (by exact nice_nat 7 (by norm_num)) (by exact_mod_cast Nat.zero_le n)
        (by exact_mod_cast h)) nice_zero n16 (by norm_num) (by norm_num)
  exact h1.sqrt (z := false) (by decide +kernel)

theorem penalise_in {r : Speed.Rhythm F64} {cur prev last : DiffObject F32 F64} {x : F64} (h : In 0 4 x) :
    In 0 4 (Speed.penalise r cur prev last x) := by
  have m : ∀ {x : F64} {q : ℚ}, 0 ≤ q → q ≤ 1 → In 0 4 x → In 0 4 (x *. lit q) := by
    intro x q h0 h1 h
    exact h.mul (lit_unit h0 h1) le_rfl le_rfl nice_zero nice4 (by norm_num) (by norm_num)
  have step : ∀ {b : Prop} [Decidable b] {x : F64} {q : ℚ}, 0 ≤ q → q ≤ 1 → In 0 4 x → In 0 4 (if b then x *. lit q else x) := by
    intro b _ x q h0 h1 h
    split
    · exact m h0 h1 h
    · exact h
  unfold Speed.penalise
  simp only
  exact step (by norm_num) (by norm_num) (step (by norm_num) (by norm_num) (step (by norm_num) (by norm_num)
    (step (by norm_num) (by norm_num) (step (by norm_num) (by norm_num) h))))

section rhythm
include hl ht

theorem rhythmStep_in {d : Difficulty F64} {gw : F64} (hg : GwOk gw) {len i n : ℕ} (hi : i ≤ len) (hi1 : 1 ≤ len) (hlen : len ≤ 2 ^ 40)
    (hn : n < 2 ^ 40) {current cur prev last : DiffObject F32 F64} (h0 : ObjOk d current) (h1 : ObjOk d cur) (h2 : ObjOk d prev)
    {r : Speed.Rhythm F64} (h : RhythmOk n r) :
    RhythmOk (n + 1) (Speed.rhythmStep gw len i current cur prev last r) := by
  unfold Speed.rhythmStep
  simp only
  have n52 : Nice (2 ^ 52) := nice_pow 52 (by norm_num)
  have hdec0 : In 0 (2 ^ 52) (fmax (lit 0) (lit 5000 -. (current.startTime -. cur.startTime)) /. lit 5000) := by
    have n51 : Nice (2 ^ 51) := nice_pow 51 (by norm_num)
    have n5000 : Nice 5000 := by exact nice_nat 5000 (by norm_num)
    have l5000 : In 5000 5000 (lit 5000 : F64) := in_lit n5000 n5000 le_rfl le_rfl
    have b1 := h0.start.sub h1.start n51.neg n51 (by norm_num) (by norm_num)
    have b2 := l5000.sub b1 n52.neg n52 (by norm_num) (by norm_num)
    have b3 := (in_zero.fmax b2).mono (a' := 0) (b' := 2 ^ 52) (by norm_num) (by norm_num)
    exact b3.div l5000 le_rfl (by norm_num) n52 (by norm_num)
  generalize fmax (lit 0) (lit 5000 -. (current.startTime -. cur.startTime)) /. lit 5000 = dec at hdec0
  have hdec : In 0 1 (fmin (ofInt ((len : ℤ) - i) /. ofInt len) dec) := by
    have b0 := in_pos (n := (len : ℤ)) 40 (by norm_num) (by omega) (by exact_mod_cast hlen)
    have b1 := (in_nat (n := (len : ℤ) - i) 40 (by norm_num) (by omega) (by omega)).div_le b0 (by norm_num) (ofInt_le (by omega))
    exact (b1.fmin hdec0).mono (by norm_num) (by norm_num)
  have hst : In 25 (2 ^ 51) (fmin prev.strainTime cur.strainTime) := (h2.strain.fmin h1.strain).mono (by norm_num) (by norm_num)
  have hst' : In 25 (2 ^ 51) (fmax prev.strainTime cur.strainTime) := (h2.strain.fmax h1.strain).mono (by norm_num) (by norm_num)
  have hratio : In 0 4 (lit 1 +. lit 6 *. fmin (lit 0.5) (GoLibm.pow (GoLibm.sin (lit piConst /.
      (fmin prev.strainTime cur.strainTime /. fmax prev.strainTime cur.strainTime))) (lit 2)) : F64) := by
    have b1 : In (1 / 2 ^ 51) (2 ^ 51) (fmin prev.strainTime cur.strainTime /. fmax prev.strainTime cur.strainTime) :=
      hst.div' hst' (by norm_num) (by norm_num) (nice_neg_pow 51 (by norm_num)) (nice_pow 51 (by norm_num)) (by norm_num) (by norm_num)
    have b2 : In 0 (2 ^ 60) (lit piConst /. (fmin prev.strainTime cur.strainTime /. fmax prev.strainTime cur.strainTime)) :=
      (in_lit (q := piConst) (a := 0) (b := 4) nice_zero nice4 (by norm_num [piConst]) (by norm_num [piConst])).div b1 le_rfl (by norm_num)
        (nice_pow 60 (by norm_num)) (by norm_num)
    have b3 := ((in_lit (q := 0.5) (a := 0) (b := 1 / 2) nice_zero nice_half (by norm_num) (by norm_num)).fmin
      (sinsq hl ht b2.fin)).mono (a' := 0) (b' := 1 / 2) (by norm_num) (by norm_num)
    have n3 : Nice 3 := by exact nice_nat 3 (by norm_num)
    have n6 : Nice 6 := by exact nice_nat 6 (by norm_num)
    have b4 := (in_lit (q := 6) (a := 6) (b := 6) n6 n6 le_rfl le_rfl).mul b3 (by norm_num) le_rfl (a' := 0) (b' := 3) nice_zero n3
      (by norm_num) (by norm_num)
    exact in_one.add b4 nice_zero nice4 (by norm_num) (by norm_num)
  have hpen : In 0 1 (fmin (lit 1) (fmin (lit 1) (fmax (lit 0)
      (GoFloat.abs (prev.strainTime -. cur.strainTime) -. gw *. lit 0.6) /. (gw *. lit 0.6)))) := by
    have b0 : In (1 / 2 ^ 11) (2 ^ 22) (gw *. lit 0.6) :=
      hg.mul (in_lit (q := 0.6) (a := 1 / 2) (b := 1) nice_half nice_one (by norm_num) (by norm_num)) (by norm_num) (by norm_num)
        (nice_neg_pow 11 (by norm_num)) (nice_pow 22 (by norm_num)) (by norm_num) (by norm_num)
    have n51 : Nice (2 ^ 51) := nice_pow 51 (by norm_num)
    have b1 := In.abs (h2.strain.sub h1.strain n51.neg n51 (by norm_num) (by norm_num))
    have b2 := b1.sub b0 n52.neg n52 (by norm_num) (by norm_num)
    have b3 := (in_zero.fmax b2).mono (a' := 0) (b' := 2 ^ 52) (by norm_num) (by norm_num)
    have b4 := b3.div b0 le_rfl (by norm_num) (nice_pow 70 (by norm_num)) (by norm_num)
    exact fmin_one_in (fmin_one_in b4 le_rfl) le_rfl
  have heff : In 0 4 (fmin (lit 1) (fmin (lit 1) (fmax (lit 0)
      (GoFloat.abs (prev.strainTime -. cur.strainTime) -. gw *. lit 0.6) /. (gw *. lit 0.6))) *.
      (lit 1 +. lit 6 *. fmin (lit 0.5) (GoLibm.pow (GoLibm.sin (lit piConst /.
      (fmin prev.strainTime cur.strainTime /. fmax prev.strainTime cur.strainTime))) (lit 2)))) :=
    hpen.mul hratio le_rfl le_rfl nice_zero nice4 (by norm_num) (by norm_num)
  generalize fmin (lit 1) (fmin (lit 1) (fmax (lit 0)
      (GoFloat.abs (prev.strainTime -. cur.strainTime) -. gw *. lit 0.6) /. (gw *. lit 0.6))) *.
      (lit 1 +. lit 6 *. fmin (lit 0.5) (GoLibm.pow (GoLibm.sin (lit piConst /.
      (fmin prev.strainTime cur.strainTime /. fmax prev.strainTime cur.strainTime))) (lit 2))) = eff at heff
  have hm := h.mono (Nat.le_succ n)
  split
  · split
    · split
      · split
        · rename_i hlt
          exact ⟨hm.complexity, hm.ratio, by show r.islandSize + 1 ≤ 7; omega, hm.previous⟩
        · exact hm
      · have hpn := penalise_in (r := r) (cur := cur) (prev := prev) (last := last) heff
        refine ⟨?_, hpn, by norm_num, h.island⟩
        have n16 : Nice 16 := by exact nice_nat 16 (by norm_num)
        have n8 : Nice 8 := by exact nice_nat 8 (by norm_num)
        have n32 : Nice 32 := by exact nice_nat 32 (by norm_num)
        have l2 : In 2 2 (lit 2 : F64) := in_lit nice2 nice2 le_rfl le_rfl
        have b1 := (hpn.mul h.ratio le_rfl le_rfl (a' := 0) (b' := 16) nice_zero n16 (by norm_num) (by norm_num)).sqrt (d := 4) (z := false) (by decide +kernel)
        have b2 := b1.mul hdec le_rfl le_rfl (a' := 0) (b' := 4) nice_zero nice4 (by norm_num) (by norm_num)
        have b3 := b2.mul (island_sqrt h.island) le_rfl le_rfl (a' := 0) (b' := 16) nice_zero n16 (by norm_num) (by norm_num)
        have b4 := b3.div l2 le_rfl (by norm_num) (b' := 8) n8 (by norm_num)
        have b5 := b4.mul (island_sqrt h.previous) le_rfl le_rfl (a' := 0) (b' := 32) nice_zero n32 (by norm_num) (by norm_num)
        have b6 := b5.div l2 le_rfl (by norm_num) (b' := 16) n16 (by norm_num)
        exact h.complexity.add b6 nice_zero (nice16 (by omega)) (by norm_num) (by push_cast; linarith)
    · split
      · exact ⟨hm.complexity, heff, by norm_num, hm.previous⟩
      · exact hm
  · exact hm

theorem rhythmLoop_in {d : Difficulty F64} {gw : F64} (hg : GwOk gw) {sk : Skill F32 F64} {current : DiffObject F32 F64}
    (hp : ∀ o ∈ sk.previous, ObjOk d o) (hc : ObjOk d current) (hlen : sk.previous.length ≤ 2 ^ 39) {i n : ℕ}
    (hi : i ≤ sk.previous.length) (hn : n + i ≤ 2 ^ 39) {r r' : Speed.Rhythm F64} (h : RhythmOk n r)
    (hr : Speed.rhythmLoop gw sk current i r = .ok r') : RhythmOk (2 ^ 39) r' := by
  induction i generalizing r n with
  | zero => cases hr; exact h.mono (by omega)
  | succ i ih =>
    rw [Speed.rhythmLoop] at hr
    obtain ⟨a, ha, hr⟩ := bind_ok hr
    obtain ⟨b, hb, hr⟩ := bind_ok hr
    obtain ⟨c, -, hr⟩ := bind_ok hr
    exact ih (n := n + 1) (by omega) (by omega) (rhythmStep_in hl ht hg hi (by omega) (by omega) (by omega) hc (hp _ (derefPrevious_mem ha))
      (hp _ (derefPrevious_mem hb)) h) hr

theorem rhythm_in {d : Difficulty F64} {sk : Skill F32 F64} {current : DiffObject F32 F64} {v : F64}
    (hg : GwOk (sk.diff.hit300 /. sk.diff.speed)) (hp : ∀ o ∈ sk.previous, ObjOk d o) (hc : ObjOk d current)
    (hlen : sk.previous.length ≤ 2 ^ 39) (h : Speed.rhythm sk current = .ok v) : In 0 (2 ^ 22) v := by
  unfold Speed.rhythm at h
  split at h
  · rw [← Except.ok.inj h]; exact in_zero.mono le_rfl (by norm_num)
  · simp only at h
    obtain ⟨r, hr, h⟩ := bind_ok h
    rw [← Except.ok.inj h]
    have := rhythmLoop_in hl ht hg hp hc hlen (n := 0) (by omega) (by omega)
      (r := { previousIslandSize := 0, complexitySum := lit 0, islandSize := 1, startRatio := lit 0, firstDeltaSwitch := false })
      ⟨in_zero.mono le_rfl (by norm_num), in_zero.mono le_rfl (by norm_num), by norm_num, by norm_num⟩ hr
    have b1 := this.complexity.mul (lit_unit (q := 0.75) (by norm_num) (by norm_num)) le_rfl le_rfl (a' := 0) (b' := 2 ^ 43) nice_zero
      (nice_pow 43 (by norm_num)) (by norm_num) (by norm_num)
    have b2 := (in_lit (q := 4) (a := 4) (b := 4) nice4 nice4 le_rfl le_rfl).add b1 (a' := 0) (b' := 2 ^ 44) nice_zero (nice_pow 44 (by norm_num))
      (by norm_num) (by norm_num)
    have b3 := b2.sqrt (d := 2 ^ 22) (z := false) (by decide +kernel)
    exact b3.div (in_lit (q := 2) (a := 2) (b := 2) nice2 nice2 le_rfl le_rfl) le_rfl (by norm_num) (nice_pow 22 (by norm_num)) (by norm_num)

end rhythm

/-! ### Flashlight -/

/-- Bounds of the variables of the flashlight loop after `n` steps. -/
structure FlOk (n : ℕ) (st : Flashlight.State F64) : Prop where
  nerf : In 0 1 st.smallDistNerf
  time : In 0 (n * 2 ^ 51) st.cumulativeStrainTime
  result : In 0 (n * 2 ^ 24) st.result

theorem nice_mul {n k : ℕ} (h : n ≤ 2 ^ 53) (hk : k ≤ 900) : Nice (n * 2 ^ k) := by
  refine ⟨⟨n, k, by show (-1074 : ℤ) ≤ k; omega, ?_, ?_⟩, ?_⟩
  · rw [abs_of_nonneg (by positivity)]
    exact_mod_cast h
  · rw [pow2_nat]; norm_cast
  · rw [abs_of_nonneg (by positivity)]
    have h1 : (n : ℚ) ≤ 2 ^ 53 := by exact_mod_cast h
    have h2 : (n : ℚ) * 2 ^ k ≤ pow2 ((53 + k : ℕ) : ℤ) := by
      rw [pow2_nat, pow_add]
      exact mul_le_mul_of_nonneg_right h1 (by positivity)
    refine _root_.lt_of_le_of_lt h2 (pow2_lt.mpr ?_)
    push_cast
    omega

section flashlight
include hl

theorem flLoop_in {d : Difficulty F64} (hr : In 1 1024 d.circleRadius) {current : DiffObject F32 F64} (hc : ObjOk d current) {i n : ℕ}
    {ps : List (DiffObject F32 F64)} (hp : ∀ o ∈ ps, ObjOk d o) (hi : i + ps.length ≤ 2 ^ 39) (hn : n + ps.length ≤ 2 ^ 39)
    {st : Flashlight.State F64} (h : FlOk n st) : FlOk (2 ^ 39) (Flashlight.loop d current i ps st) := by
  have weaken : ∀ {k m : ℕ} {s : Flashlight.State F64}, k ≤ m → FlOk k s → FlOk m s := by
    intro k m s hk hs
    have : (k : ℚ) ≤ m := by exact_mod_cast hk
    exact ⟨hs.nerf, hs.time.mono le_rfl (by nlinarith), hs.result.mono le_rfl (by nlinarith)⟩
  induction ps generalizing i n st with
  | nil => exact weaken (by simpa using hn) h
  | cons p ps ih =>
    rw [Flashlight.loop]
    simp only [List.length_cons] at hi hn
    split
    · exact ih (n := n + 1) (fun o ho => hp o (List.mem_cons_of_mem _ ho)) (by omega) (by omega) (weaken (Nat.le_succ n) h)
    · simp only
      have hpo := hp p (List.mem_cons_self ..)
      refine ih (n := n + 1) (fun o ho => hp o (List.mem_cons_of_mem _ ho)) (by omega) (by omega) ?_
      have n64 : Nice 64 := by exact nice_nat 64 (by norm_num)
      have hsf : In (1 / 2 ^ 5) 64 (lit 52 /. d.circleRadius) :=
        (in_lit (q := 52) (a := 52) (b := 52) (by exact nice_nat 52 (by norm_num)) (by exact nice_nat 52 (by norm_num)) le_rfl le_rfl).div' hr
          (by norm_num) (by norm_num) (nice_neg_pow 5 (by norm_num)) n64 (by norm_num) (by norm_num)
      have hjd : In 0 (2 ^ 22) (up ((current.baseObject.obj.base.getStackedStartPositionMod d.mods).dst
          (p.baseObject.obj.base.getStackedEndPositionMod d.mods)) : F64) :=
        in_of_nn0 (k := 22) (bd_up (VBd.dst (k := 20) hc.startPos hpo.endPos (by norm_num) (by decide +kernel)) (by norm_num) (by norm_num))
          (NN0.up (dst_nn0 _ _))
      generalize (up ((current.baseObject.obj.base.getStackedStartPositionMod d.mods).dst
          (p.baseObject.obj.base.getStackedEndPositionMod d.mods)) : F64) = jd at hjd
      have hct : In 25 ((n + 1 : ℕ) * 2 ^ 51) (st.cumulativeStrainTime +. p.strainTime) :=
        h.time.add hpo.strain nice_25 (nice_mul (by omega) (by norm_num)) (by norm_num) (by push_cast; linarith)
      have hstack : In 0 1 (fmin (lit 1) ((p.jumpDistance /. (lit 52 /. d.circleRadius)) /. lit 25)) := by
        have b1 := hpo.jump.div hsf le_rfl (by norm_num) (b' := 2 ^ 35) (nice_pow 35 (by norm_num)) (by norm_num)
        have b2 := b1.div lit25 le_rfl (by norm_num) (b' := 2 ^ 35) (nice_pow 35 (by norm_num)) (by norm_num)
        exact fmin_one_in b2 le_rfl
      have hpw : In 0 1 (GoLibm.pow (lit 0.8) (ofInt i) : F64) :=
        pow_unit hl (lit_unit (by norm_num) (by norm_num)) (in_nat (n := (i : ℤ)) 39 (by norm_num) (by omega) (by omega))
      have hadd : In 0 (2 ^ 24) (GoLibm.pow (lit 0.8) (ofInt i) *. fmin (lit 1) ((p.jumpDistance /. (lit 52 /. d.circleRadius)) /. lit 25) *.
          (lit 52 /. d.circleRadius) *. jd /. (st.cumulativeStrainTime +. p.strainTime)) := by
        have b1 := hpw.unit_mul hstack
        have b2 := b1.mul (hsf.mono (a' := 0) (b' := 64) (by norm_num) le_rfl) le_rfl le_rfl (a' := 0) (b' := 64) nice_zero n64 (by norm_num) (by norm_num)
        have b3 := b2.mul hjd le_rfl le_rfl (a' := 0) (b' := 2 ^ 28) nice_zero (nice_pow 28 (by norm_num)) (by norm_num) (by norm_num)
        exact b3.div hct le_rfl (by norm_num) (nice_pow 24 (by norm_num)) (by norm_num)
      refine ⟨?_, hct.mono (by norm_num) le_rfl, ?_⟩
      · show In 0 1 (if i = 0 then fmin (lit 1) (jd /. lit 75) else st.smallDistNerf)
        split
        · have b1 := hjd.div (in_lit (q := 75) (a := 75) (b := 75) (by exact nice_nat 75 (by norm_num)) (by exact nice_nat 75 (by norm_num)) le_rfl le_rfl)
            le_rfl (by norm_num) (b' := 2 ^ 22) (nice_pow 22 (by norm_num)) (by norm_num)
          exact fmin_one_in b1 le_rfl
        · exact h.nerf
      · exact h.result.add hadd nice_zero (nice_mul (by omega) (by norm_num)) (by norm_num) (by push_cast; linarith)

theorem flValue_in {d : Difficulty F64} (hr : In 1 1024 d.circleRadius) {sk : Skill F32 F64} (hd : sk.diff = d) {current : DiffObject F32 F64}
    (hp : ∀ o ∈ sk.previous, ObjOk d o) (hc : ObjOk d current) (hlen : sk.previous.length ≤ 2 ^ 39) :
    In 0 (2 ^ 126) (Flashlight.strainValue sk current) := by
  unfold Flashlight.strainValue
  split
  · exact in_zero.mono le_rfl (by norm_num)
  · simp only
    rw [hd]
    have h := flLoop_in hl hr hc (i := 0) (n := 0) (ps := sk.previous.reverse) (fun o ho => hp o (List.mem_reverse.mp ho))
      (by simpa using hlen) (by simpa using hlen)
      (st := { smallDistNerf := lit 1, cumulativeStrainTime := lit 0, result := lit 0 })
      ⟨in_one.mono (by norm_num) le_rfl, in_zero.mono le_rfl (by norm_num), in_zero.mono le_rfl (by norm_num)⟩
    have b1 := h.nerf.mul h.result le_rfl le_rfl (a' := 0) (b' := 2 ^ 63) nice_zero (nice_pow 63 (by norm_num)) (by norm_num) (by norm_num)
    exact pow_sq hl 63 (by norm_num) (b1.mono (by norm_num) le_rfl)

end flashlight

end GosuPP
