import Verif.Lemmas.CurveIEEE
import Verif.Lemmas.Slider
import Verif.Props.Timing

/-! Slider timing in IEEE arithmetic. -/

namespace Go.Fl
variable {f : Fmt}

/-- A zero or NaN. -/
def ZN (x : Fl f) : Prop := x = nan ∨ ∃ b, x = fin 0 b

theorem ZN.mul [f.Ok] {x : Fl f} (h : ZN x) (y : Fl f) : ZN (mul x y) := by
  rcases h with rfl | ⟨b, rfl⟩
  · left; cases y <;> rfl
  · cases y with
    | nan => left; rfl
    | inf t => left; simp [Fl.mul]
    | fin w c =>
      right
      refine ⟨Bool.xor (signbit (fin 0 b : Fl f)) (signbit (fin w c : Fl f)), ?_⟩
      show ofRat f (0 * w) _ = _
      rw [zero_mul]
      exact ofRat_zero _

theorem zero_div [f.Ok] {b : Bool} {y : Fl f} (hy : NN y) (h0 : ∀ c, y ≠ fin 0 c) : ∃ d, div (fin 0 b) y = fin 0 d := by
  cases y with
  | nan => exact absurd rfl hy
  | inf t => exact ⟨_, rfl⟩
  | fin w c =>
    have hw : w ≠ 0 := fun h => h0 c (by rw [h])
    exact GosuPP.zero_div_fin b c hw

theorem rep_up {q : ℚ} (h : Rep fmt32 q) : Rep fmt64 q := by
  obtain ⟨m, e, h1, h2, h3⟩ := h
  have hm : (2 : ℤ) ^ fmt32.p ≤ 2 ^ fmt64.p := by decide +kernel
  have he : fmt64.emin ≤ fmt32.emin := by decide +kernel
  exact ⟨m, e, he.trans h1, h2.trans hm, h3⟩

/-- Conversion to `float64` keeps the value. -/
theorem up_fin {v : ℚ} {b : Bool} (h : WF (fin v b : F32)) : (up (fin v b : F32) : F64) = fin v b := by
  show ofRat fmt64 v b = _
  have hp : pow2 fmt32.emax ≤ pow2 fmt64.emax := pow2_mono (show (128 : Int) ≤ 1024 by norm_num)
  have h64 : WF (fin v b : Fl fmt64) := ⟨rep_up h.1, _root_.lt_of_lt_of_le h.2.1 hp, h.2.2⟩
  exact ofRat_fin h64

theorem up_pos {x : F32} (hw : WF x) (h : lt (lit 0 : F32) x = true) : lt (lit 0 : F64) (up x) = true := by
  have h0 : (lit 0 : F32) = fin 0 false := ofRat_zero _
  have h0' : (lit 0 : F64) = fin 0 false := ofRat_zero _
  rw [h0] at h
  rw [h0']
  cases x with
  | nan => cases h
  | inf s => cases s <;> first | rfl | cases h
  | fin v b =>
    rw [up_fin hw]
    exact h

/-- Subtracting a zero from a positive number leaves it positive (or NaN). -/
theorem sub_zn_pos [f.Ok] {c m d : Fl f} (hw : WF c) (hc : lt (fin 0 false) c = true) (hm : ZN m)
    (hd : le d (fin 0 false) = true) : le (sub c m) d = false := by
  rcases hm with rfl | ⟨b, rfl⟩
  · have : sub c nan = nan := by cases c <;> rfl
    rw [this]
    rfl
  · have e : lt (fin 0 false) (sub c (fin 0 b)) = true := by
      cases c with
      | nan => cases hc
      | inf s => cases s <;> first | rfl | cases hc
      | fin v a =>
        show lt _ (ofRat f (v + -0) _) = true
        rw [neg_zero, add_zero, ofRat_of_rep hw.1 hw.2.1]
        simpa [lt] using hc
    by_contra hne
    have hle : le (sub c (fin 0 b)) d = true := by simpa using hne
    have := lt_of_lt_of_le e (le_trans hle hd)
    rw [lt_irrefl] at this
    cases this

theorem add_nonpos [f.Ok] {x y : Fl f} (hx : le x (fin 0 false) = true) (hy : le y (fin 0 false) = true) :
    le (add x y) (fin 0 false) = true := by
  have e : add (fin 0 false) (fin 0 false : Fl f) = fin 0 false := by
    show ofRat f (0 + 0) _ = _
    rw [add_zero]
    exact ofRat_zero _
  have hn : NN (add x y) := by
    cases x with
    | nan => cases hx
    | inf s =>
      have : s = true := by cases s <;> simp_all [le]
      subst this
      cases y with
      | nan => cases hy
      | inf t => cases t <;> simp_all [le, add]
      | fin w b => simp [add]
    | fin v a =>
      cases y with
      | nan => cases hy
      | inf t => simp [add]
      | fin w b => exact ofRat_nn _ _
  have := add_mono hx hy hn (by rw [e]; simp)
  rwa [e] at this

end Go.Fl

namespace GosuPP
open Go Fl

theorem foldl_wf (ls : List (Linear F32)) (p : F32) (hp : WF p) :
    WF (ls.foldl (fun acc l => acc +. l.getLength (D := F64)) p) := by
  induction ls generalizing p with
  | nil => exact hp
  | cons l ls ih => exact ih _ (add_wf hp cvt_wf)

theorem length_wf [GoLibm F64] {fuel : Nat} {typ : Str} {points : List (Vec F32)} {len : F64} {mc : MultiCurve F32}
    (h : MultiCurve.newT fuel typ points len = .ok mc) : WF mc.length := by
  rw [(newT_measured h).1]
  exact foldl_wf _ _ (ofRat_wf _ _)

/-- A test for finite values. -/
def isFin {f : Fmt} : Fl f → Bool
  | .fin _ _ => true
  | _ => false

theorem isFin_iff {f : Fmt} (x : Fl f) : isFin x = true ↔ Fin x := by
  cases x <;> simp [isFin, Fl.Fin]

namespace Slider

/-- A tick distance that is not positive makes the tick loop endless. -/
theorem tickLoop_hangs {td c m sst sd : F64} {rev : Bool} (hw : WF c) (hc : lt (fin 0 false) c = true) (hm : ZN m)
    (htd : le td (fin 0 false) = true) (fuel : Nat) (d : F64) (hd : le d (fin 0 false) = true) :
    tickLoop td c m sst sd rev false fuel d = .error .hang := by
  induction fuel generalizing d with
  | zero => rfl
  | succ fuel ih =>
    unfold tickLoop
    have h1 : (d <=. c && !false) = true := by
      simp only [Bool.not_false, Bool.and_true]
      exact Fl.le_trans hd (Fl.le_of_lt hc)
    have h2 : ¬ ((d >=. c -. m) = true) := by
      rw [Bool.not_eq_true]
      exact sub_zn_pos hw hc hm hd
    rw [if_pos h1, if_neg h2]
    have := ih (d +. td) (add_nonpos hd htd)
    simp only [this]
    rfl

theorem setTiming_hangs [GoSort] [GoLibm F64] {t : Timings F64} {tp : ControlPoint F64} {h : HitObject F32 F64}
    {s : SliderData F32 F64} {pf : Nat} {typ : Str} {points : List (Vec F32)} {len : F64}
    (hmc : MultiCurve.newT pf typ points len = .ok s.multiCurve) (htp : t.getPointAt h.startTime = .ok tp)
    (hnn : NN tp.beatLength) (hsm : (t.sliderMult ==. lit 0) = true) (htr : NN t.tickRate)
    (htr0 : (t.tickRate ==. lit 0) = false) (hc : (s.multiCurve.length >. lit 0) = true) (hR : 1 ≤ s.repeatCount)
    (fuel : Nat) : setTiming fuel t h s = .error .hang := by
  have h0 : (lit 0 : F64) = fin 0 false := ofRat_zero _
  rw [h0] at hsm htr0
  obtain ⟨b, hb⟩ : ∃ b, t.sliderMult = fin 0 b := by
    cases hx : t.sliderMult with
    | nan => rw [hx] at hsm; cases hsm
    | inf s => rw [hx] at hsm; cases hsm
    | fin v b =>
      rw [hx] at hsm
      have : v = 0 := of_decide_eq_true hsm
      exact ⟨b, by rw [this]⟩
  have htr0' : ∀ c, t.tickRate ≠ fin 0 c := fun c hc => eq_fin_false htr0 0 c hc rfl
  -- the scoring distance is zero
  obtain ⟨b1, hsd⟩ : ∃ b1, t.getScoringDistance = fin 0 b1 := by
    unfold Timings.getScoringDistance
    rw [hb]
    obtain ⟨c, hc⟩ := mul_zero_fin (f := fmt64) (x := lit 100) ((isFin_iff _).mp (by decide +kernel)) b
    rw [go_div, go_mul]
    rw [show mul (lit 100 : F64) (fin 0 b) = fin 0 c from hc]
    exact Fl.zero_div htr htr0'
  have hratio := Props.C17_ratio_bounds tp
  obtain ⟨b2, htd⟩ : ∃ b2, t.getTickDistance F32 tp = fin 0 b2 := by
    unfold Timings.getTickDistance
    rw [hsd]
    refine Fl.zero_div (le_nn hratio.1).2 ?_
    intro c hc
    have := hratio.1
    rw [hc] at this
    revert this
    cases c <;> decide +kernel
  have hv : ZN (t.getVelocity F32 tp) := by
    have h1 : ZN (t.getScoringDistance *. t.tickRate) := ZN.mul (.inr ⟨b1, hsd⟩) _
    unfold Timings.getVelocity
    simp only
    split
    · exact ZN.mul h1 _
    · exact h1
  have hdist : le (distance t tp s) (fin 0 false) = true := by
    unfold distance
    rw [htd]
    split
    · rename_i hh
      simp only [Bool.and_eq_true] at hh
      have h2 := hh.2
      cases b2
      · exact Fl.le_of_lt h2
      · exact Fl.le_trans (Fl.le_of_lt h2) (by decide)
    · simp [le]
  have hspan : spanLoop (args t tp h s) fuel s.repeatCount.toNat 0 = .error .hang := by
    obtain ⟨k, hk⟩ : ∃ k, s.repeatCount.toNat = k + 1 := ⟨s.repeatCount.toNat - 1, by omega⟩
    rw [hk]
    unfold spanLoop spanTicks
    have hnan : (args t tp h s).nanTimingPoint = false := (isNaN_false_iff _).mpr hnn
    rw [hnan]
    have hm : ZN (args t tp h s).minDistanceFromEnd := by
      show ZN (t.getVelocity F32 tp *. _)
      exact ZN.mul hv _
    have := tickLoop_hangs (sst := (args t tp h s).startTime +. ofInt 0 *. (args t tp h s).spanDuration)
      (sd := (args t tp h s).spanDuration) (rev := ((0 : Int) % 2 == 1)) (c := (args t tp h s).cLength)
      (td := (args t tp h s).tickDistance) (m := (args t tp h s).minDistanceFromEnd) cvt_wf
      (by rw [← h0]; exact up_pos (length_wf hmc) hc) hm hdist fuel (args t tp h s).tickDistance hdist
    simp only
    rw [this]
    rfl
  exact setTiming_error htp hspan

end Slider
end GosuPP
