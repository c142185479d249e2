import Verif.Lemmas.Rnd
import Verif.Lemmas.Placed
import Verif.Go.IEEE

/-! Exchanging the two coordinates, in IEEE arithmetic. -/

namespace GosuPP
open Go Spec

namespace Spec
/-- The reflection in the diagonal. -/
def swap {S : Type} (v : Vec S) : Vec S := ⟨v.y, v.x⟩
end Spec

namespace SwapIEEE
open Fl
variable {f g : Fmt}

theorem add_comm (x y : Fl f) : add x y = add y x := by
  cases x with
  | nan => cases y <;> rfl
  | inf s => cases y with
    | nan => rfl
    | inf t =>
      cases s <;> cases t <;> rfl
    | fin w b => rfl
  | fin v a => cases y with
    | nan => rfl
    | inf t => rfl
    | fin w b =>
      show ofRat f (v + w) _ = ofRat f (w + v) _
      rw [_root_.add_comm v w, Bool.and_comm]

theorem ofRat_neg (q : ℚ) (z z' : Bool) (h : q = 0 → z' = !z) : ofRat f (-q) z' = neg (ofRat f q z) := by
  unfold ofRat
  simp only [rnd_neg, abs_neg]
  split
  · rename_i hbig
    have hq : q ≠ 0 := by
      rintro rfl
      have : rnd f 0 = 0 := by simp [rnd]
      rw [this, abs_zero] at hbig
      have := pow2_pos f.emax
      linarith
    unfold neg
    congr 1
    rcases lt_or_gt_of_ne hq with h | h
    · simp [h, h.le]
    · simp [h, h.le]
  · unfold neg
    by_cases hr : rnd f q = 0
    · rw [hr]
      by_cases hq : q = 0
      · subst hq
        simp [h rfl]
      · rcases lt_or_gt_of_ne hq with h | h
        · simp [h, h.le, hq]
        · simp [h, h.le, hq]
    · simp [hr]

theorem cvt_neg (x : Fl f) : cvt g (neg x) = neg (cvt g x) := by
  cases x with
  | nan => rfl
  | inf s => rfl
  | fin v nz =>
    unfold cvt neg
    exact ofRat_neg v nz _ fun h => by simp [h]

theorem abs_neg' (x : Fl f) : Fl.abs (neg x) = Fl.abs x := by
  cases x with
  | nan => rfl
  | inf s => rfl
  | fin v nz =>
    unfold neg Fl.abs
    simp only [abs_neg]

theorem sub_swap (x y : Fl f) : sub y x = sub x y ∨ sub y x = neg (sub x y) := by
  unfold sub
  cases x with
  | nan => cases y <;> exact .inl rfl
  | inf s => cases y with
    | nan => exact .inl rfl
    | inf t => cases s <;> cases t <;> first | exact .inl rfl | exact .inr rfl
    | fin w b => exact .inr rfl
  | fin v a => cases y with
    | nan => exact .inl rfl
    | inf t => right; cases t <;> rfl
    | fin w b =>
      by_cases h : v = w
      · subst h
        unfold add neg
        simp only [add_neg_cancel]
        by_cases h0 : v = 0
        · subst h0
          have hz : ∀ z, ofRat f 0 z = fin 0 z := by
            intro z
            have := pow2_pos f.emax
            simp [ofRat, rnd, not_le.mpr this]
          rw [hz, hz]
          cases a <;> cases b <;> simp [signbit, neg]
        · left
          simp [signbit, h0]
      · right
        have e : w + -v = -(v + -w) := by ring
        show ofRat f (w + -v) _ = neg (ofRat f (v + -w) _)
        rw [e]
        exact ofRat_neg _ _ _ fun h0 => absurd (by linarith) h

/-- The absolute value after a conversion depends on the absolute value only. -/
theorem abs_cvt {x y : Fl f} (h : Fl.abs x = Fl.abs y) : Fl.abs (cvt g x) = Fl.abs (cvt g y) := by
  cases x with
  | nan => cases y with
    | nan => rfl
    | inf t => cases h
    | fin w b => cases h
  | inf s => cases y with
    | nan => cases h
    | inf t => rfl
    | fin w b => cases h
  | fin v a => cases y with
    | nan => cases h
    | inf t => cases h
    | fin w b =>
      unfold Fl.abs at h
      have hv : |v| = |w| := by injection h
      have key : ∀ (q : ℚ) (z z' : Bool), Fl.abs (ofRat g (-q) z') = Fl.abs (ofRat g q z) := by
        intro q z z'
        unfold ofRat
        simp only [rnd_neg, abs_neg]
        split
        · rfl
        · unfold Fl.abs
          simp only [abs_neg]
      have same : ∀ (q : ℚ) (z z' : Bool), Fl.abs (ofRat g q z') = Fl.abs (ofRat g q z) := by
        intro q z z'
        exact (key q z' z).symm.trans (key q z z)
      rcases abs_eq_abs.mp hv with e | e
      · subst e
        exact same _ _ _
      · subst e
        exact key _ _ _

theorem abs_sub_swap [GoLibm F64] (hl : EvenAtan F64) (p q r : F32) :
    (Math32.abs (Math32.atan2 (q -. p) r) : F32) = Math32.abs (Math32.atan2 (p -. q) r) := by
  rcases sub_swap p q with h | h
  · exact congrArg (fun z : F32 => (Math32.abs (Math32.atan2 z r) : F32)) h
  · refine (congrArg (fun z : F32 => (Math32.abs (Math32.atan2 z r) : F32)) h).trans ?_
    unfold Math32.abs Math32.atan2
    refine congrArg down ?_
    show Fl.abs (cvt fmt64 (cvt fmt32 (GoLibm.atan2 (cvt fmt64 (neg (sub p q))) (cvt fmt64 r)))) =
      Fl.abs (cvt fmt64 (cvt fmt32 (GoLibm.atan2 (cvt fmt64 (sub p q)) (cvt fmt64 r))))
    rw [cvt_neg]
    exact abs_cvt (abs_cvt (hl _ _))

theorem rigid_swap [GoLibm F64] (hl : EvenAtan F64) : Rigid (S := F32) (D := F64) swap where
  dst u v := congrArg Math32.sqrt (add_comm _ _)
  dstScl u v k := congrArg Math32.sqrt (add_comm _ _)
  len u v := congrArg Math32.sqrt (add_comm _ _)
  step u v k := rfl
  angle a b c e := by
    dsimp only
    have hd : ((swap a).sub (swap b)).dot ((swap c).sub (swap e)) = (a.sub b).dot (c.sub e) := add_comm _ _
    rw [hd]
    exact abs_sub_swap hl _ _ _

end SwapIEEE
end GosuPP
