import Verif.Lemmas.CurveIEEE
import Verif.Lemmas.Within32

/-! Positions on paths in IEEE arithmetic: they are on one of the lines, up to rounding. -/

namespace GosuPP
open Go Fl
open GosuPP.Fl (NN0)

/-! ### The clamped progress -/

theorem in32_of_le {x : F32} {a b : ℚ} {c d : Bool} (h1 : Fl.le (fin a c) x = true) (h2 : Fl.le x (fin b d) = true) :
    In32 a b x := by
  cases x with
  | nan => simp [Fl.le] at h1
  | inf s => cases s <;> simp_all [Fl.le]
  | fin v z => exact ⟨v, z, rfl, by simpa [Fl.le] using h1, by simpa [Fl.le] using h2⟩

theorem clamp_unit {t : F32} (ht : NN t) : In32 0 1 (clampF32 (D := F64) t (lit 0) (lit 1)) := by
  have h0 : (lit 0 : F32) = fin 0 false := ofRat_zero _
  have h1 : (lit 1 : F32) = fin 1 false := by decide +kernel
  unfold clampF32 Math32.max Math32.min
  rw [h0, h1, up_zero, up_one]
  have ht' : NN (cvt fmt64 t) := by
    cases t with
    | nan => exact absurd rfl ht
    | inf s => intro h; cases h
    | fin v b => exact ofRat_nn _ _
  obtain ⟨a1, -, -⟩ := fmax_spec (x := (fin 0 false : F64)) (y := cvt fmt64 t) (by simp) ht'
  have a2 : NonNeg (cvt fmt64 (cvt fmt32 (fmax (fin 0 false : F64) (cvt fmt64 t)))) := cvt_nonneg (cvt_nonneg a1)
  obtain ⟨b1, -, b3⟩ := fmin_spec (x := (fin 1 false : F64)) (y := cvt fmt64 (cvt fmt32 (fmax (fin 0 false : F64) (cvt fmt64 t))))
    (by simp) (le_nn a2).2
  show In32 0 1 (cvt fmt32 (fmin (fin 1 false : F64) (cvt fmt64 (cvt fmt32 (fmax (fin 0 false : F64) (cvt fmt64 t))))))
  have c1 := cvt_mono (g := fmt32) b1
  have e : cvt fmt32 (fin 1 false : F64) = fin 1 false := down_one
  rw [e] at c1
  refine in32_of_le (c := false) ?_ c1
  apply cvt_nonneg
  rcases b3 with h | h
  · rw [h]; exact nonNeg_fin.mpr zero_le_one
  · rw [h]; exact a2

/-! ### Sections -/

/-- The sections before and after each line. -/
theorem sections_spec (ls : List (Linear F32)) (p : F32) (hp : NonNeg p) (hw : WF p)
    (hf : Fin (ls.foldl (fun acc l => acc +. l.getLength (D := F64)) p)) :
    (∀ i (h : i < ls.length), ∃ a b, (p :: MultiCurve.sectionsFrom (D := F64) p ls)[i]? = some a ∧
      (p :: MultiCurve.sectionsFrom (D := F64) p ls)[i + 1]? = some b ∧ NonNeg a ∧ Fin a ∧ Fin b ∧ Fl.le a b = true) ∧
    (p :: MultiCurve.sectionsFrom (D := F64) p ls)[ls.length]? = some (ls.foldl (fun acc l => acc +. l.getLength (D := F64)) p) ∧
    (p :: MultiCurve.sectionsFrom (D := F64) p ls).length = ls.length + 1 := by
  induction ls generalizing p with
  | nil => exact ⟨fun i h => absurd h (by simp), rfl, rfl⟩
  | cons l ls ih =>
    have hf' := hf
    rw [List.foldl_cons] at hf'
    obtain ⟨fp, fl⟩ := foldl_fin _ _ hf
    obtain ⟨f1, -⟩ := foldl_fin _ _ hf'
    have gl := (getLength_fin (fl l (by simp))).1
    have wl : WF (l.getLength (D := F64)) := cvt_wf
    obtain ⟨i1, i2, i3⟩ := ih (p +. l.getLength (D := F64)) (add_nonneg hp gl) (add_wf hw wl) hf'
    refine ⟨?_, ?_, ?_⟩
    · intro i h
      cases i with
      | zero => exact ⟨p, _, rfl, rfl, hp, fp, f1, le_add_right hw hp gl⟩
      | succ i =>
        obtain ⟨a, b, h1, h2, h3⟩ := i1 i (by simpa using h)
        exact ⟨a, b, by simpa [MultiCurve.sectionsFrom] using h1, by simpa [MultiCurve.sectionsFrom] using h2, h3⟩
    · simpa [MultiCurve.sectionsFrom] using i2
    · simpa [MultiCurve.sectionsFrom] using i3

/-- Quotients of differences inside an interval. -/
theorem quotient_unit {a b d : F32} (ha : Fin a) (hb : Fin b) (h1 : Fl.le a d = true) (h2 : Fl.le d b = true)
    (h : (b -. a ==. lit 0) = false) (hab : Fin (b -. a)) : In32 0 1 ((d -. a) /. (b -. a)) := by
  obtain ⟨va, za, rfl⟩ := ha
  obtain ⟨vb, zb, rfl⟩ := hb
  obtain ⟨vd, zd, rfl, -, -⟩ := in32_of_le h1 h2
  have k1 : va ≤ vd := by simpa [Fl.le] using h1
  have k2 : vd ≤ vb := by simpa [Fl.le] using h2
  have hz : (lit 0 : F32) = fin 0 false := ofRat_zero _
  have e1 : Fl.le (fin 0 false : F32) (Fl.sub (fin vd zd) (fin va za)) = true := by
    have := ofRat_mono (f := fmt32) (q := 0) (q' := vd + -va) (by linarith) false (signbit (fin vd zd : F32) && signbit (neg (fin va za) : F32))
    rwa [ofRat_zero] at this
  have e2 : Fl.le (Fl.sub (fin vd zd : F32) (fin va za)) (Fl.sub (fin vb zb) (fin va za)) = true :=
    ofRat_mono (f := fmt32) (by linarith) _ _
  obtain ⟨w, c, hw⟩ := hab
  change Fl.sub (fin vb zb) (fin va za) = fin w c at hw
  rw [hw] at e2
  obtain ⟨v, z, hv, v1, v2⟩ := in32_of_le e1 e2
  have hw0 : w ≠ 0 := by
    intro h0
    have : (Fl.eq (Fl.sub (fin vb zb : F32) (fin va za)) (fin 0 false)) = true := by rw [hw, h0]; simp [Fl.eq]
    rw [hz] at h
    exact absurd this (by rw [show Fl.eq (Fl.sub (fin vb zb : F32) (fin va za)) (fin 0 false) = false from h]; decide)
  have hwp : 0 < w := _root_.lt_of_le_of_ne (v1.trans v2) (Ne.symm hw0)
  show In32 0 1 (Fl.div (Fl.sub (fin vd zd) (fin va za)) (Fl.sub (fin vb zb) (fin va za)))
  rw [hv, hw]
  have e3 : Fl.div (fin v z : F32) (fin w c) = ofRat fmt32 (v / w) (Bool.xor (signbit (fin v z : F32)) (signbit (fin w c : F32))) := by
    simp [Fl.div, hw0]
  rw [e3]
  have q0 : 0 ≤ v / w := by positivity
  have q1 : v / w ≤ 1 := by rw [div_le_one hwp]; exact v2
  have l0 := ofRat_mono (f := fmt32) q0 false (Bool.xor (signbit (fin v z : F32)) (signbit (fin w c : F32)))
  have l1 := ofRat_mono (f := fmt32) q1 (Bool.xor (signbit (fin v z : F32)) (signbit (fin w c : F32))) false
  rw [ofRat_zero] at l0
  have : ofRat fmt32 1 false = fin 1 false := by decide +kernel
  rw [this] at l1
  exact in32_of_le l0 l1

theorem sub_fin_of_le {a b : F32} (ha : NonNeg a) (fa : Fin a) (fb : Fin b) (wb : WF b) (h : Fl.le a b = true) :
    Fin (b -. a) := by
  obtain ⟨va, za, rfl⟩ := fa
  obtain ⟨vb, zb, rfl⟩ := fb
  have k : va ≤ vb := by simpa [Fl.le] using h
  have k0 := nonNeg_fin.mp ha
  have e1 := ofRat_mono (f := fmt32) (q := 0) (q' := vb + -va) (by linarith) false (signbit (fin vb zb : F32) && signbit (neg (fin va za) : F32))
  have e2 := ofRat_mono (f := fmt32) (q := vb + -va) (q' := vb) (by linarith) (signbit (fin vb zb : F32) && signbit (neg (fin va za) : F32)) zb
  rw [ofRat_zero] at e1
  rw [ofRat_fin wb] at e2
  obtain ⟨v, z, hv, -⟩ := in32_of_le e1 e2
  exact ⟨v, z, hv⟩

theorem sectionsFrom_wf (ls : List (Linear F32)) (p : F32) (hw : WF p) :
    ∀ s ∈ p :: MultiCurve.sectionsFrom (D := F64) p ls, WF s := by
  induction ls generalizing p with
  | nil => intro s hs; simp [MultiCurve.sectionsFrom] at hs; rwa [hs]
  | cons l ls ih =>
    intro s hs
    rw [List.mem_cons] at hs
    rcases hs with rfl | hs
    · exact hw
    · exact ih _ (add_wf hw cvt_wf) s hs

/-- Where a position is: the first point, the start of a line or a fraction of a line. -/
theorem pointAt_on {mc : MultiCurve F32} (hm : mc.Measured) (hf : Fin mc.length) {t : F32} (ht : NN t) :
    mc.pointAt (D := F64) t = .ok mc.firstPoint ∨
    ∃ l ∈ mc.lines, ∃ u, In32 0 1 u ∧ (mc.pointAt (D := F64) t = .ok l.p1 ∨ mc.pointAt (D := F64) t = .ok (l.pointAt u)) := by
  unfold MultiCurve.pointAt
  split
  · exact .inl rfl
  · rename_i hne
    right
    simp only [Bool.or_eq_true, beq_iff_eq, not_or] at hne
    have hz : (lit 0 : F32) = fin 0 false := ofRat_zero _
    obtain ⟨u, z, hu, u1, u2⟩ := clamp_unit ht
    rw [hu]
    have hfin := hf
    rw [hm.1] at hfin
    have w0 : WF (lit 0 : F32) := by rw [hz]; exact ⟨Rep.zero, by simpa using pow2_pos _, by simp⟩
    have n0 : NonNeg (lit 0 : F32) := by rw [hz]; rfl
    obtain ⟨s1, s2, s3⟩ := sections_spec mc.lines (lit 0) n0 w0 hfin
    have hwf := sectionsFrom_wf mc.lines (lit 0) w0
    change (∀ i (h : i < mc.lines.length), ∃ a b, (MultiCurve.mkSections (D := F64) mc.lines)[i]? = some a ∧
      (MultiCurve.mkSections (D := F64) mc.lines)[i + 1]? = some b ∧ _) at s1
    change (MultiCurve.mkSections (D := F64) mc.lines)[mc.lines.length]? = some (MultiCurve.totalLength (D := F64) mc.lines) at s2
    change (MultiCurve.mkSections (D := F64) mc.lines).length = _ at s3
    change ∀ s ∈ MultiCurve.mkSections (D := F64) mc.lines, WF s at hwf
    rw [← hm.2] at s1 s2 s3 hwf
    rw [← hm.1] at s2
    have wl : WF mc.length := hwf _ (List.mem_of_getElem? s2)
    -- the desired width is between zero and the length
    have hlen : NonNeg mc.length := by
      obtain ⟨k, hk⟩ : ∃ k, mc.lines.length = k + 1 := ⟨mc.lines.length - 1, by omega⟩
      obtain ⟨a, b, -, hb, ha, -, -, hab⟩ := s1 k (by omega)
      rw [← hk, s2] at hb
      cases hb
      exact Fl.le_trans ha hab
    obtain ⟨L, zl, hL⟩ := hf
    have L0 : 0 ≤ L := by rw [hL] at hlen; exact nonNeg_fin.mp hlen
    have d0 : Fl.le (fin 0 false) (mc.length *. fin u z) = true := by
      rw [hL]
      have := ofRat_mono (f := fmt32) (q := 0) (q' := L * u) (by positivity) false (Bool.xor (signbit (fin L zl : F32)) (signbit (fin u z : F32)))
      rwa [ofRat_zero] at this
    have d1 : Fl.le (mc.length *. fin u z) mc.length = true := by
      have := ofRat_mono (f := fmt32) (q := L * u) (q' := L) (by nlinarith) (Bool.xor (signbit (fin L zl : F32)) (signbit (fin u z : F32))) zl
      rw [hL] at wl ⊢
      rwa [ofRat_fin wl] at this
    generalize mc.length *. fin u z = dw at d0 d1 ⊢
    -- the index
    have hn : mc.sections.tail.length = mc.lines.length := by simp [s3]
    obtain ⟨i, hi, hidx, hlo, hhi⟩ : ∃ i, i < mc.lines.length ∧ mc.lineIndex dw = i ∧
        (∀ a, mc.sections[i]? = some a → NN a → Fl.le a dw = true) ∧
        (∀ b, mc.sections[i + 1]? = some b → Fl.le dw b = true) := by
      obtain ⟨p, hp, hx⟩ : ∃ p : Nat → Bool, (∀ i s, mc.sections[i + 1]? = some s → p i = (s >=. dw)) ∧
          mc.lineIndex dw = minI (search mc.sections.tail.length p : Nat) ((mc.lines.length : Int) - 1) := by
        refine ⟨_, ?_, rfl⟩
        intro i s hs
        simp only [List.getElem?_tail, hs]
      rw [hx]
      obtain ⟨q1, q2⟩ := search_switch mc.sections.tail.length p
      have q3 := search_le mc.sections.tail.length p
      generalize search mc.sections.tail.length p = k at q1 q2 q3 ⊢
      have hlt : k < mc.lines.length := by
        by_contra hc
        have he : k = mc.lines.length := by omega
        subst he
        have h1 := q2 (by omega)
        rw [hp _ mc.length (by rw [show mc.lines.length - 1 + 1 = mc.lines.length by omega]; exact s2)] at h1
        have d1' : (mc.length >=. dw) = true := d1
        rw [d1'] at h1
        cases h1
      refine ⟨k, hlt, ?_, ?_, ?_⟩
      · unfold minI
        split <;> omega
      · intro a ha na
        rcases Nat.eq_zero_or_pos k with h0 | h0
        · rw [h0, hm.2] at ha
          cases ha
          rw [hz]
          exact d0
        · have h1 := q2 h0
          rw [hp _ a (by rw [show k - 1 + 1 = k by omega]; exact ha)] at h1
          rcases Fl.le_total na (le_nn d0).2 with h | h
          · exact h
          · have h' : (a >=. dw) = true := h
            rw [h'] at h1
            cases h1
      · intro b hb
        have h1 := q1 (by omega)
        rwa [hp _ b hb] at h1
    obtain ⟨a, b, ha, hb, na, fa, fb, hab⟩ := s1 i hi
    have i1 : index mc.sections ((i : Int) + 1) = .ok b := by
      have : ((i : Int) + 1) = ((i + 1 : Nat) : Int) := by push_cast; ring
      rw [this]
      unfold index
      rw [if_neg (by omega), Int.toNat_natCast, hb]
    have i0 : index mc.sections (i : Int) = .ok a := by unfold index; simp [ha]
    have i2 : index mc.lines (i : Int) = .ok mc.lines[i] := by unfold index; simp [hi]
    simp only [hidx, i1, i0, i2, ok_bind]
    refine ⟨mc.lines[i], List.getElem_mem hi, ?_⟩
    by_cases he : (b -. a ==. lit 0) = true
    · rw [if_pos he]
      exact ⟨fin 0 false, ⟨0, false, rfl, le_rfl, zero_le_one⟩, .inl rfl⟩
    · rw [if_neg he]
      rw [Bool.not_eq_true] at he
      exact ⟨_, quotient_unit fa fb (hlo a ha fa.nn) (hhi b hb) he
        (sub_fin_of_le na fa fb (hwf _ (List.mem_of_getElem? hb)) hab), .inr rfl⟩

end GosuPP
