import Verif.Lemmas.BezierLines
import Verif.Lemmas.Returned
import Verif.Props.SliderFiles

/-!
# C107: written maps with Bézier sliders, from the file to the performance points
-/

namespace GosuPP.Props
open Go Fl Spec

/-- Points with coordinates from 1 to below 1024, or points with whole coordinates of at most 1023 in magnitude where the curves between
repeated points have at most six points. -/
def CurvePoints (ps : List (Dec × Dec)) : Prop :=
  (∀ p ∈ ps, (p.1.neg = false ∧ 1 ≤ p.1.whole ∧ p.1.whole < 2 ^ 10) ∧ p.2.neg = false ∧ 1 ≤ p.2.whole ∧ p.2.whole < 2 ^ 10) ∨
  (∀ p ∈ ps, p.1.frac = [] ∧ p.2.frac = [] ∧ p.1.whole < 2 ^ 10 ∧ p.2.whole < 2 ^ 10) ∧
    ShortPieces (fun p q => p.1.toInt = q.1.toInt ∧ p.2.toInt = q.2.toInt) 6 ps

/-- A slider that is neither a Catmull curve nor an arc through three points, through at most 64 such points, of a length from 1 to below
16384, where the number of spans times the length (and some more for each span, by the number of points) is at most 131072. -/
def CurvedLine (h : Head) (c : Char) (ps : List (Dec × Dec)) (r : ℤ) (len : Dec) : Prop :=
  c ≠ 'C' ∧ (c = 'P' → ps.length ≠ 2) ∧ CurvePoints ((h.x, h.y) :: ps) ∧ ps.length ≤ 63 ∧
    len.neg = false ∧ 1 ≤ len.whole ∧ len.whole < 2 ^ 14 ∧ 1 ≤ r ∧ r * (len.whole + 64 + (ps.length + 1) ^ 2) ≤ 2 ^ 17

/-- A written map of ordinary size: times within 8 years, coordinates of at most 131071, beat lengths from 1 to 65535 in
magnitude, slider multiplier and tick rate from a quarter to eight. -/
structure SizedFile (f : File) : Prop where
  good : f.Good
  points : f.points ≠ []
  named : ¬ (f.title = [] ∧ f.artist = [] ∧ f.creator = [])
  count : f.objects.length ≤ 2 ^ 29
  times : ∀ o ∈ f.objects, |o.head.time| ≤ 2 ^ 38
  places : ∀ o ∈ f.objects, o.head.x.whole < 2 ^ 17 ∧ o.head.y.whole < 2 ^ 17
  beats : ∀ p ∈ f.points, 1 ≤ p.beatLength.whole ∧ p.beatLength.whole < 2 ^ 16
  multiplier : f.sliderMultiplier.neg = false ∧ 1 / 4 ≤ f.sliderMultiplier.whole + fracValue f.sliderMultiplier.frac ∧
    f.sliderMultiplier.whole + fracValue f.sliderMultiplier.frac ≤ 8
  tickRate : f.tickRate.neg = false ∧ 1 / 4 ≤ f.tickRate.whole + fracValue f.tickRate.frac ∧ f.tickRate.whole + fracValue f.tickRate.frac ≤ 8

/-- A written map of ordinary size with such sliders and straight ones. -/
structure CurvedFile (f : File) : Prop extends SizedFile f where
  sliders : ∀ h c ps r len, ObjectLine.slider h c ps r len ∈ f.objects → StraightLine h c ps r len ∨ CurvedLine h c ps r len

theorem SizedFile.ranges {f : File} (hf : SizedFile f) :
    In (1 / 4) 8 (f.sliderMultiplier.value : F64) ∧ In (1 / 4) 8 (f.tickRate.value : F64) := by
  have n4 : Nice (1 / 4 : ℚ) := by have := nice_neg_pow 2 (by norm_num); norm_num at this ⊢; exact this
  have n8 : Nice (8 : ℚ) := by exact nice_nat 8 (by norm_num)
  exact ⟨dec_in hf.multiplier.1 n4 n8 hf.multiplier.2.1 hf.multiplier.2.2, dec_in hf.tickRate.1 n4 n8 hf.tickRate.2.1 hf.tickRate.2.2⟩

theorem dec_from_one {d : Dec} (hn : d.neg = false) (h1 : 1 ≤ d.whole) (h2 : d.whole < 2 ^ 10) : FromOne (d.value : F32) := by
  have hf := fracValue_range d.frac
  have q1 : (1 : ℚ) ≤ d.whole := by exact_mod_cast h1
  have q2 : (d.whole : ℚ) + 1 ≤ 2 ^ 10 := by exact_mod_cast h2
  have e : (d.value : F32) = ofRat fmt32 (d.whole + fracValue d.frac) false := by
    unfold Dec.value
    rw [hn]
    rfl
  obtain ⟨c, g⟩ := ofRat32_fin (q := d.whole + fracValue d.frac) (by
    rw [abs_of_nonneg (by linarith)]
    exact le_trans (by linarith) (by norm_num : (2:ℚ) ^ 10 ≤ 2 ^ 120)) false
  refine ⟨by rw [e]; exact ofRat_wf _ _, ?_⟩
  rw [e, g]
  exact le_rnd (by simpa using rep32_nat (n := 1) (by norm_num)) (by linarith)

theorem dec_grid {d : Dec} (hf : d.frac = []) (h : d.whole < 2 ^ 10) : GridF 0 (d.value : F32) := by
  obtain ⟨⟨z, e⟩, -⟩ := dec_int32 hf (by norm_num) h
  intro v z' hv
  rw [e] at hv
  cases hv
  exact ⟨d.toInt, by rw [show pow2 (-((0 : ℕ) : ℤ)) = 1 from rfl, mul_one]⟩

theorem same_point {p q : Dec × Dec} (hp : p.1.frac = [] ∧ p.2.frac = [] ∧ p.1.whole < 2 ^ 10 ∧ p.2.whole < 2 ^ 10)
    (hq : q.1.frac = [] ∧ q.2.frac = [] ∧ q.1.whole < 2 ^ 10 ∧ q.2.whole < 2 ^ 10) :
    (⟨p.1.value, p.2.value⟩ : Vec F32).eq ⟨q.1.value, q.2.value⟩ = true ↔ p.1.toInt = q.1.toInt ∧ p.2.toInt = q.2.toInt := by
  obtain ⟨⟨a, ha⟩, -⟩ := dec_int32 hp.1 (by norm_num) hp.2.2.1
  obtain ⟨⟨b, hb⟩, -⟩ := dec_int32 hp.2.1 (by norm_num) hp.2.2.2
  obtain ⟨⟨c, hc⟩, -⟩ := dec_int32 hq.1 (by norm_num) hq.2.2.1
  obtain ⟨⟨d, hd⟩, -⟩ := dec_int32 hq.2.1 (by norm_num) hq.2.2.2
  rw [ha, hb, hc, hd]
  show (Fl.eq (fin p.1.toInt a : F32) (fin q.1.toInt c) && Fl.eq (fin p.2.toInt b : F32) (fin q.2.toInt d)) = true ↔ _
  simp [Fl.eq]

/-- The points as they are read are fine enough. -/
theorem CurvePoints.read {ps : List (Dec × Dec)} (h : CurvePoints ps) {pts : List (Vec F32)} (hp : pts = ps.map (fun p => ⟨p.1.value, p.2.value⟩)) :
    AllIn 10 pts ∧ (AllFromOne pts ∨ AllGrid 0 pts ∧ ShortPieces (fun p q : Vec F32 => p.eq q = true) 6 pts) := by
  have hmem : ∀ v ∈ pts, ∃ p ∈ ps, v = ⟨p.1.value, p.2.value⟩ := by
    intro v hv
    rw [hp] at hv
    obtain ⟨p, hp, rfl⟩ := List.mem_map.mp hv
    exact ⟨p, hp, rfl⟩
  rcases h with h | ⟨h, hs⟩
  · refine ⟨fun v hv => ?_, .inl fun v hv => ?_⟩
    · obtain ⟨p, hp, rfl⟩ := hmem v hv
      obtain ⟨⟨-, -, h1⟩, -, -, h2⟩ := h p hp
      exact ⟨dec_bd h1 (by norm_num), dec_bd h2 (by norm_num)⟩
    · obtain ⟨p, hp, rfl⟩ := hmem v hv
      obtain ⟨⟨h1, h2, h3⟩, h4, h5, h6⟩ := h p hp
      exact ⟨dec_from_one h1 h2 h3, dec_from_one h4 h5 h6⟩
  · refine ⟨fun v hv => ?_, .inr ⟨fun v hv => ?_, ?_⟩⟩
    · obtain ⟨p, hp, rfl⟩ := hmem v hv
      obtain ⟨-, -, h1, h2⟩ := h p hp
      exact ⟨dec_bd h1 (by norm_num), dec_bd h2 (by norm_num)⟩
    · obtain ⟨p, hp, rfl⟩ := hmem v hv
      obtain ⟨h1, h2, h3, h4⟩ := h p hp
      exact ⟨dec_grid h1 h3, dec_grid h2 h4⟩
    · have get : ∀ {i : ℕ} {v : Vec F32}, pts[i]? = some v → ∃ p, ps[i]? = some p ∧ v = ⟨p.1.value, p.2.value⟩ := by
        intro i v hv
        rw [hp, List.getElem?_map, Option.map_eq_some_iff] at hv
        obtain ⟨p, e, rfl⟩ := hv
        exact ⟨p, e, rfl⟩
      have put : ∀ {i : ℕ} {p : Dec × Dec}, ps[i]? = some p → pts[i]? = some ⟨p.1.value, p.2.value⟩ := by
        intro i p e
        rw [hp, List.getElem?_map, e]
        rfl
      have hl : pts.length = ps.length := by rw [hp, List.length_map]
      intro i hi him
      obtain ⟨j, a, b, j1, j2, j3, ja, jb, hab⟩ := hs i (by
        rcases hi with hi | ⟨a, b, ha, hb, hab⟩
        · exact .inl hi
        · obtain ⟨p, hp, rfl⟩ := get ha
          obtain ⟨q, hq, rfl⟩ := get hb
          exact .inr ⟨p, q, hp, hq, (same_point (h p (List.mem_of_getElem? hp)) (h q (List.mem_of_getElem? hq))).mp hab⟩) (by rw [← hl]; exact him)
      exact ⟨j, _, _, j1, j2, by rw [hl]; exact j3, put ja, put jb,
        (same_point (h a (List.mem_of_getElem? ja)) (h b (List.mem_of_getElem? jb))).mpr hab⟩

section
variable [GoSort] [GoLibm F64]

/-- The path of the slider of a line is made, it is tame and its length times the number of spans is bounded. -/
def Laid (fuel : ℕ) : ObjectLine → Prop
  | .slider h c ps r len => ∃ (W : ℕ) (mc : MultiCurve F32) (P C : ℚ) (zP zC : Bool), 1 ≤ W ∧ 1 ≤ r ∧ r * W ≤ 2 ^ 17 ∧ 1 ≤ P ∧ 0 ≤ C ∧ C ≤ W ∧
      (len.value : F64) = fin P zP ∧ mc.length = fin C zC ∧ TamePath mc ∧
      MultiCurve.newT fuel [c] (⟨h.x.value, h.y.value⟩ :: ps.map (fun p => ⟨p.1.value, p.2.value⟩)) (len.value : F64) = .ok mc
  | _ => True

omit [GoSort] [GoLibm F64] in
/-- The length of a slider as it is read. -/
theorem len_in {len : Dec} (hneg : len.neg = false) (hl1 : 1 ≤ len.whole) (hl2 : len.whole < 2 ^ 14) :
    ∃ P zP, (len.value : F64) = fin P zP ∧ 1 ≤ P ∧ P ≤ len.whole + 1 ∧ P ≤ 2 ^ 14 := by
  have nl1 : Nice ((len.whole : ℚ) + 1) := by
    have := nice_nat (len.whole + 1) (by omega)
    push_cast at this; exact this
  have q1 : (1 : ℚ) ≤ len.whole := by exact_mod_cast hl1
  have q2 : (len.whole : ℚ) + 1 ≤ 2 ^ 14 := by exact_mod_cast hl2
  have hfr := fracValue_range len.frac
  obtain ⟨P, zP, hP, P1, P2⟩ : In 1 (len.whole + 1) (len.value : F64) := dec_in hneg nice_one nl1 (by linarith) (by linarith)
  exact ⟨P, zP, hP, P1, P2, P2.trans q2⟩

omit [GoSort] in
/-- The path of a straight slider or of one with Bézier curves is made. -/
theorem laid_slider {h : Head} {c : Char} {ps : List (Dec × Dec)} {r : ℤ} {len : Dec} (hs : StraightLine h c ps r len ∨ CurvedLine h c ps r len) :
    ∃ N, ∀ fuel ≥ N, Laid fuel (.slider h c ps r len) := by
  rcases hs with ⟨rfl, hpts, hn, hneg, hl1, hl2, hr1, hrw⟩ | ⟨hc, hP3, hpts, hn, hneg, hl1, hl2, hr1, hrw⟩
  · obtain ⟨P, zP, hP, P1, P2, P3⟩ := len_in hneg hl1 hl2
    refine ⟨0, fun fuel _ => ?_⟩
    rcases newT_cases (S := F32) (D := F64) fuel ['L'] ⟨h.x.value, h.y.value⟩ (ps.map (fun p => ⟨p.1.value, p.2.value⟩)) len.value with
      ⟨e, h1, -⟩ | ⟨-, mc, -, hmc⟩
    · cases h1
    · have hmc' := hmc
      rw [hP] at hmc'
      obtain ⟨hpath, C, zC, hC, C0, C1⟩ := straight_path (ps := (h.x, h.y) :: ps) hpts (by rw [List.length_cons]; omega) P1 P3 hmc'
      exact ⟨len.whole + 512, mc, P, C, zP, zC, by omega, hr1, by exact_mod_cast hrw, P1, C0, by push_cast; linarith, hP, hC, hpath, hmc⟩
  · obtain ⟨P, zP, hP, P1, P2, P3⟩ := len_in hneg hl1 hl2
    set pts : List (Vec F32) := ⟨h.x.value, h.y.value⟩ :: ps.map (fun p => ⟨p.1.value, p.2.value⟩) with hp
    have hlen : pts.length = ps.length + 1 := by rw [hp, List.length_cons, List.length_map]
    obtain ⟨hin, hone⟩ := hpts.read (pts := pts) hp
    obtain ⟨n0, raw, hraw, g⟩ := type_lines hc (ps := pts) (fun e => by rw [hlen]; have := hP3 e; omega) (by omega) hin hone
    refine ⟨n0, fun fuel hfu => ?_⟩
    rcases newT_cases (S := F32) (D := F64) fuel [c] ⟨h.x.value, h.y.value⟩ (ps.map (fun p => ⟨p.1.value, p.2.value⟩)) len.value with
      ⟨e, h1, -⟩ | ⟨-, mc, -, hmc⟩
    · rw [← hp, hraw fuel hfu] at h1
      cases h1
    · have hmc' := hmc
      rw [hP] at hmc'
      obtain ⟨hpath, C, zC, hC, C0, C1⟩ := lines_path (by omega) hin (hraw fuel hfu) g P1 P3 hmc'
      rw [hlen] at C1
      push_cast at C1
      exact ⟨len.whole + 64 + (ps.length + 1) ^ 2, mc, P, C, zP, zC, by omega, hr1, by exact_mod_cast hrw, P1, C0, by push_cast; linarith,
        hP, hC, hpath, hmc⟩

omit [GoSort] in
theorem CurvedFile.laid {f : File} (hf : CurvedFile f) : ∃ N, ∀ fuel ≥ N, ∀ l ∈ f.objects, Laid fuel l := by
  refine Exactly.uniform fun l hl => ?_
  cases l with
  | circle h => exact ⟨0, fun _ _ => trivial⟩
  | spinner h e => exact ⟨0, fun _ _ => trivial⟩
  | slider h c ps r len => exact laid_slider (hf.sliders _ _ _ _ _ hl)

/-- The timing of an object of such a file can be set, and its sliders are tame. -/
theorem SizedFile.timing {f : File} (hf : SizedFile f) {fuel : ℕ} (hfuel : 2 ^ 26 + 4 ≤ fuel) (hsh : ∀ l ∈ f.objects, Laid fuel l) {t : Timings F64} (ht : FairTiming t)
    {l : ObjectLine} (hl : l ∈ f.objects) {o0 o1 : Obj F32 F64} (h0 : LineDescribes fuel l o0)
    (hfresh : ∀ s, o0.kind = .slider s → s.scorePoints = []) (h1 : uncombo o1 = uncombo o0) :
    ∃ o2, o1.setTiming fuel t = .ok o2 ∧ ∀ s2, o2.kind = .slider s2 → TameSlider t s2 := by
  have hk : o1.kind = o0.kind := by
    have : (uncombo o1).kind = (uncombo o0).kind := by rw [h1]
    exact this
  have hs : o1.base.startTime = o0.base.startTime := by
    have : (uncombo o1).base.startTime = (uncombo o0).base.startTime := by rw [h1]
    exact this
  have hr := h0.rest
  cases l with
  | circle h =>
    refine ⟨o1, ?_, fun s e => ?_⟩
    · unfold Obj.setTiming; rw [hk, hr.1]
    · rw [hk, hr.1] at e; cases e
  | spinner h e =>
    refine ⟨o1, ?_, fun s e => ?_⟩
    · unfold Obj.setTiming; rw [hk, hr.1]
    · rw [hk, hr.1] at e; cases e
  | slider h c ps r len =>
    obtain ⟨s, ks, kr, kp, kmc, -⟩ := hr
    obtain ⟨W, mc, P, C, zP, zC, W1, hr1, hrw, P1, C0, C1, hP, hC, hpath, hmc⟩ := hsh _ hl
    rw [hmc] at kmc
    cases kmc
    rw [hP] at kp
    obtain ⟨b, hb⟩ := int_value_exact ((hf.times _ hl).trans (by norm_num : (2 : ℤ) ^ 38 ≤ 2 ^ 53))
    have hst : In (-2 ^ 38) (2 ^ 38) o1.base.startTime := by
      rw [hs, h0.time, hb]
      have := abs_le.mp (hf.times _ hl)
      exact ⟨_, b, rfl, by exact_mod_cast this.1, by exact_mod_cast this.2⟩
    obtain ⟨o2, s2, g1, g2, g3⟩ := tame_timing (b := o1.base) (W := W) (fuel := fuel) ht hmc hpath hC kp C0
      C1 P1 W1 (by rw [kr]; exact hr1) (by rw [kr]; exact hrw) (hfresh s ks) hst hfuel
    have e : o1 = ⟨o1.base, .slider s⟩ := by
      rw [← ks, ← hk]
    refine ⟨o2, by rw [e]; exact g1, fun s2' e2 => ?_⟩
    rw [g2] at e2
    cases e2
    exact g3

/-- A written map of ordinary size is read if the paths of its sliders are made. -/
theorem SizedFile.parses {f : File} (hf : SizedFile f) (hlaid : ∃ N, ∀ fuel ≥ N, ∀ l ∈ f.objects, Laid fuel l) :
    ∃ N, ∀ fuel ≥ N, ∃ m : BeatMap F32 F64, parseText fuel f.text = .ok (some m) ∧ m.hitObjects.length = f.objects.length := by
  obtain ⟨N, hN⟩ := hlaid
  refine ⟨max N (2 ^ 26 + 4), fun fuel hfu => ?_⟩
  have hsh := hN fuel (le_trans (le_max_left ..) hfu)
  have hfuel : 2 ^ 26 + 4 ≤ fuel := le_trans (le_max_right ..) hfu
  have hmal : ¬ Malformed f.lines := by
    rintro (⟨r, hr, hb⟩ | ⟨r, hr, hb⟩)
    · rw [records_events hf.good] at hr
      have hlen : 3 ≤ r.length := by
        unfold File.events at hr
        rcases List.mem_cons.mp hr with rfl | hr
        · exact Nat.le_add_left _ _
        · obtain ⟨b, -, rfl⟩ := List.mem_map.mp hr
          exact Nat.le_refl _
      have := hb.2
      omega
    · rw [records_objects hf.good] at hr
      obtain ⟨o, hol, rfl⟩ := List.mem_map.mp hr
      rcases hb with hb | hb
      · unfold BadObject at hb
        rw [lineKind_written] at hb
        cases o with
        | circle h => rcases hb with hb | hb <;> simp [ObjectLine.fields, Head.fields, ObjectLine.kind] at hb
        | spinner h e => rcases hb with hb | hb <;> simp [ObjectLine.fields, Head.fields, ObjectLine.kind] at hb
        | slider h c ps r l =>
          have hlen : (ObjectLine.slider h c ps r l).fields.length = 8 := rfl
          rcases hb with hb | hb
          · omega
          · rcases hb with hb | ⟨p, hp, hb⟩
            · omega
            · rw [path_written (hf.good.objects _ hol).2.2.1, List.tail_cons] at hp
              obtain ⟨q, -, rfl⟩ := List.mem_map.mp hp
              exact hb (by simp)
      · obtain ⟨h1, h2⟩ := hb
        rw [lineKind_written] at h1
        cases o with
        | circle h => cases h1
        | spinner h e => cases h1
        | slider h c ps r l =>
          obtain ⟨W, -, -, -, -, -, W1, h3, h4, -⟩ := hsh _ hol
          have W1' : (1 : ℤ) ≤ W := by exact_mod_cast W1
          have h5 : r ≤ 2 ^ 17 := by nlinarith
          have hlen : (ObjectLine.slider h c ps r l).fields.length = 8 := rfl
          have hrep : repeats (ObjectLine.slider h c ps r l).fields = r := parseInt_showInt (hf.good.objects _ hol).2.2.2
          rw [hrep, hlen] at h2
          rcases h2 with h2 | h2 | h2 <;> omega
  rw [malformed_iff] at hmal
  push Not at hmal
  obtain ⟨st, hst⟩ : ∃ st, parseLines (S := F32) (D := F64) fuel f.lines ParseState.init = .ok st := by
    refine Exactly.lines_read hmal fun p hp r h1 h2 h3 => ?_
    have hr : r ∈ records "HitObjects" f.lines := by
      simp only [records, List.mem_filterMap, recordFor]
      exact ⟨p, hp, by rw [if_pos h2, h1]⟩
    rw [records_objects hf.good] at hr
    obtain ⟨o, hol, rfl⟩ := List.mem_map.mp hr
    rw [lineKind_written] at h3
    cases o with
    | circle h => cases h3
    | spinner h e => cases h3
    | slider h c ps r l =>
      obtain ⟨W, mc, -, -, -, -, W1, h4, h5, -, -, -, -, -, -, hmc⟩ := hsh _ hol
      have W1' : (1 : ℤ) ≤ W := by exact_mod_cast W1
      have h6 : r ≤ 2 ^ 17 := by nlinarith
      exact Exactly.created_slider (hf.good.objects _ hol) (by omega) (by omega) hmc
  obtain ⟨r, hr⟩ : ∃ r, parseText (S := F32) (D := F64) fuel f.text = .ok r := by
    unfold parseText parseFromLines
    rw [lines_text hf.good, hst, ok_bind]
    unfold finishParse
    simp only
    split
    · exact ⟨_, rfl⟩
    · obtain ⟨os, h1, h2, -⟩ := parseLines_objects hst
      rw [records_objects hf.good] at h1
      have hd := describes_all hf.good.objects h1
      have hfr := fresh_all h1
      obtain ⟨l', hl'⟩ : ∃ l', setTimings fuel st.beatMap.timings.finalizePoints
          (comboLoop {} (GoSort.stable (fun x y : Obj F32 F64 => x.base.startTime <. y.base.startTime) st.beatMap.hitObjects)) = .ok l' := by
        apply setTimings_ok
        intro o hom
        have hm := List.mem_map_of_mem (f := uncombo) hom
        rw [comboLoop_frame] at hm
        obtain ⟨o0, ho0, e⟩ := List.mem_map.mp hm
        have ho0 := (GoSort.stable_perm _ _).mem_iff.mp ho0
        rw [h2] at ho0
        obtain ⟨l, hl, hdl⟩ := forall₂_right hd ho0
        obtain ⟨o2, g, -⟩ := hf.timing hfuel hsh (file_timing hf.good hst hf.points hf.beats hf.ranges.1 hf.ranges.2) hl hdl (hfr o0 ho0) e.symm
        exact ⟨o2, g⟩
      rw [hl']
      exact ⟨_, rfl⟩
  cases r with
  | some m =>
    obtain ⟨-, -, -, hlen, -⟩ := C78_counters fuel f hf.good m hr
    exact ⟨m, hr, hlen⟩
  | none =>
    exfalso
    rcases (C23_error_iff fuel f.text none hr).mp rfl with hv | hv
    · rw [lines_text hf.good] at hv
      simp only [values_metadata hf.good] at hv
      simp [File.metadata, hf.good.title.2.2, hf.good.artist.2.2, hf.good.creator.2.2] at hv
      exact hf.named hv
    · rw [lines_text hf.good, (records_timing hf.good).1, List.map_eq_nil_iff] at hv
      exact hf.points hv

/-- The parsed map is of moderate size, up to the heights of stacks. -/
theorem SizedFile.moderate {f : File} (hf : SizedFile f) {fuel : ℕ} (hfuel : 2 ^ 26 + 4 ≤ fuel) (hsh : ∀ l ∈ f.objects, Laid fuel l) {m : BeatMap F32 F64}
    (h : parseText fuel f.text = .ok (some m)) (hh : ∀ o ∈ m.hitObjects, ∀ v, |(stackOf o v).1| ≤ 2 ^ 15) : ModerateMap m := by
  obtain ⟨os, hos, hp⟩ := C78_objects fuel f hf.good m h
  obtain ⟨-, -, -, hlen, -⟩ := C78_counters fuel f hf.good m h
  obtain ⟨-, -, ⟨-, hcs, hod, har, -⟩, -⟩ := C78_values fuel f hf.good m h
  have key : ∀ o ∈ m.hitObjects, ∃ l ∈ f.objects, ∃ o', LineDescribes fuel l o' ∧ given o = given o' := by
    intro o ho
    obtain ⟨o', ho', e⟩ := List.mem_map.mp (hp.mem_iff.mp (List.mem_map_of_mem (f := given) ho))
    obtain ⟨l, hl, hd⟩ := forall₂_right hos ho'
    exact ⟨l, hl, o', hd, e.symm⟩
  have ht : FairTiming m.timings := by
    obtain ⟨st, hst, objs, -, rfl⟩ := parseText_some h
    rw [lines_text hf.good] at hst
    exact file_timing hf.good hst hf.points hf.beats hf.ranges.1 hf.ranges.2
  refine ⟨?_, hh, ?_, ?_, ?_, ?_, ?_⟩
  · intro o ho s hk
    obtain ⟨arr, harr, o0, o1, o2, h0, h1, h2, h3⟩ := parsed_from h ho
    rw [lines_text hf.good, records_objects hf.good] at harr
    obtain ⟨l, hl, rfl⟩ := List.mem_map.mp harr
    obtain ⟨o0', e, hd⟩ := create_describes (hf.good.objects l hl) h0
    cases e
    obtain ⟨o2', g1, g2⟩ := hf.timing hfuel hsh ht hl hd (fun s hs => by
      obtain ⟨-, -, -, h⟩ := createObject_newT h0 s hs
      exact h) h1
    rw [h2] at g1
    cases g1
    exact g2 s (by rw [← kind_unstack o2, ← h3, kind_unstack, hk])
  · rw [hlen]; exact hf.count
  · intro o ho
    obtain ⟨l, hl, o', hd, e⟩ := key o ho
    have e1 := congrArg (fun o : Obj F32 F64 => o.base.startTime) e
    simp only [given_start] at e1
    obtain ⟨b, hb⟩ := int_value_exact ((hf.times l hl).trans (by norm_num : (2 : ℤ) ^ 38 ≤ 2 ^ 53))
    exact ⟨l.head.time, b, (hf.times l hl).trans (by norm_num), by rw [e1, hd.time, hb]⟩
  · intro o ho
    obtain ⟨l, hl, o', hd, e⟩ := key o ho
    rw [← (given_frame o).2, e, (given_frame o').2, hd.start]
    exact ⟨dec_bd (hf.places l hl).1 (by norm_num), dec_bd (hf.places l hl).2 (by norm_num)⟩
  · rw [hcs, hod, har]
    exact ⟨clamp_within _, clamp_within _, clamp_within _⟩
  · obtain ⟨os, h1, h2⟩ := C20_sorted fuel f.text m h
    refine (h2 ?_).1
    rw [lines_text hf.good, records_objects hf.good] at h1
    intro o ho
    obtain ⟨l, -, hd⟩ := forall₂_right (describes_all hf.good.objects h1) ho
    rw [hd.time]
    exact int_value_nn _

/-- A written map of ordinary size is rated if the paths of its sliders are made. -/
theorem SizedFile.written (hl : PowLaws) (ht : TrigLaws) {f : File} (hf : SizedFile f) (hlaid : ∃ N, ∀ fuel ≥ N, ∀ l ∈ f.objects, Laid fuel l)
    (hne : f.objects ≠ []) :
    ∃ N0, ∀ fuel ≥ N0, ∃ m : BeatMap F32 F64, parseText fuel f.text = .ok (some m) ∧ m.hitObjects.length = f.objects.length ∧
      ((∀ o ∈ m.hitObjects, ∀ v, |(stackOf o v).1| ≤ 2 ^ 15) →
        ∀ (mods : Modifier) (speed : F64), Within 0.25 4 speed →
        let d := (m.difficulty.setMods mods).setCustomSpeed speed
        ∃ N, ∀ fuel' ≥ N,
          (∃ a, calculateSingle fuel' m.hitObjects d = .ok a ∧ FiniteStars a ∧
            ∀ (pp : PPv2 F64) (combo n300 n100 n50 nmiss : Int), combo ≤ 2 ^ 50 → 0 ≤ n100 → 0 ≤ n50 → 0 ≤ nmiss →
              (n300 < 0 ∧ n100 + n50 + nmiss ≤ f.objects.length) ∨
                (0 ≤ n300 ∧ n300 + n100 + n50 + nmiss = f.objects.length) →
              let r := (pp.ppv2x a combo n300 n100 n50 nmiss d).results
              FiniteNonneg r.aim ∧ FiniteNonneg r.speed ∧ FiniteNonneg r.acc ∧ FiniteNonneg r.flashlight ∧ FiniteNonneg r.total) ∧
          (∃ p, calculateStrainPeaks fuel' m.hitObjects d = .ok p)) := by
  obtain ⟨M, hM⟩ := hf.parses hlaid
  obtain ⟨N, hN⟩ := hlaid
  refine ⟨max M (max N (2 ^ 26 + 4)), fun fuel hfu => ?_⟩
  obtain ⟨m, h, hlen⟩ := hM fuel (le_trans (le_max_left ..) hfu)
  have hsh := hN fuel (le_trans (le_max_left ..) (le_trans (le_max_right ..) hfu))
  have hfuel : 2 ^ 26 + 4 ≤ fuel := le_trans (le_max_right ..) (le_trans (le_max_right ..) hfu)
  refine ⟨m, h, hlen, fun hh mods speed hs => ?_⟩
  rw [← hlen]
  refine C83_parsed hl ht fuel f.text m h (hf.moderate hfuel hsh h hh) ?_ mods speed hs
  intro he
  rw [he] at hlen
  exact hne (List.length_eq_zero_iff.mp hlen.symm)

/-- C107 (IEEE). A written map with Bézier sliders is read: the parser ends, without a panic and without an error. -/
theorem C107_parses (f : File) (hf : CurvedFile f) :
    ∃ N, ∀ fuel ≥ N, ∃ m : BeatMap F32 F64, parseText fuel f.text = .ok (some m) ∧ m.hitObjects.length = f.objects.length :=
  hf.toSizedFile.parses hf.laid

/-- C107 (IEEE). A written map with Bézier sliders is parsed, and if no stack of the parsed map is higher than 32768, then under any
mods and a custom speed between a quarter and four the difficulty calculation returns with finite ratings that are not negative, and
every play that has as many judgements as the map has objects gets finite performance points that are not negative. -/
theorem C107_written (hl : PowLaws) (ht : TrigLaws) (f : File) (hf : CurvedFile f) (hne : f.objects ≠ []) :
    ∃ N0, ∀ fuel ≥ N0, ∃ m : BeatMap F32 F64, parseText fuel f.text = .ok (some m) ∧ m.hitObjects.length = f.objects.length ∧
      ((∀ o ∈ m.hitObjects, ∀ v, |(stackOf o v).1| ≤ 2 ^ 15) →
        ∀ (mods : Modifier) (speed : F64), Within 0.25 4 speed →
        let d := (m.difficulty.setMods mods).setCustomSpeed speed
        ∃ N, ∀ fuel' ≥ N,
          (∃ a, calculateSingle fuel' m.hitObjects d = .ok a ∧ FiniteStars a ∧
            ∀ (pp : PPv2 F64) (combo n300 n100 n50 nmiss : Int), combo ≤ 2 ^ 50 → 0 ≤ n100 → 0 ≤ n50 → 0 ≤ nmiss →
              (n300 < 0 ∧ n100 + n50 + nmiss ≤ f.objects.length) ∨
                (0 ≤ n300 ∧ n300 + n100 + n50 + nmiss = f.objects.length) →
              let r := (pp.ppv2x a combo n300 n100 n50 nmiss d).results
              FiniteNonneg r.aim ∧ FiniteNonneg r.speed ∧ FiniteNonneg r.acc ∧ FiniteNonneg r.flashlight ∧ FiniteNonneg r.total) ∧
          (∃ p, calculateStrainPeaks fuel' m.hitObjects d = .ok p)) :=
  hf.toSizedFile.written hl ht hf.laid hne

end

/-! ### A concrete file -/

namespace Sample

/-- A file with a Bézier slider of four points and two spans, a straight slider, a Bézier slider of nine points in two pieces with
coordinates that are zero or negative, and a circle. -/
def winding : File :=
  { Sample.file with
    objects := [.slider ⟨dec 10 [], dec 20 [], 400, false, 0, 2⟩ 'B' [(dec 50 [5], dec 20 []), (dec 90 [], dec 120 []), (dec 10 [], dec 200 [])] 2
        (dec 190 [5]),
      .slider ⟨dec 0 [], dec 20 [], 4000, false, 0, 2⟩ 'L' [(dec 50 [], dec 20 []), (dec 50 [], dec 80 [])] 3 (dec 90 [5]),
      .slider ⟨dec 0 [], dec 20 [], 6000, false, 0, 2⟩ 'B' [(⟨true, 50, []⟩, dec 0 []), (dec 0 [], dec 0 []), (dec 90 [], dec 120 []),
        (dec 90 [], dec 120 []), (dec 0 [], ⟨true, 7, []⟩), (dec 1 [], dec 0 []), (dec 0 [], dec 0 []), (dec 0 [], dec 1 [])] 1 (dec 300 []),
      .circle (head 100 50 9000 true 3)] }

theorem winding_good : winding.Good := by
  obtain ⟨h1, h2, h3, h4, h5, h6, h7, h8, h9, h10, h11, h12, h13, h14, h15, -, -⟩ := file_good
  refine ⟨h1, h2, h3, h4, h5, h6, h7, h8, h9, h10, h11, h12, h13, h14, h15, ?_, by decide +kernel⟩
  intro o ho
  simp only [winding, List.mem_cons, List.not_mem_nil, or_false] at ho
  rcases ho with rfl | rfl | rfl | rfl <;> (unfold File.GoodObject File.Int64; decide)

theorem winding_file : CurvedFile winding := by
  refine ⟨⟨winding_good, by simp [winding, file], by simp [winding, file], by simp [winding], ?_, ?_, ?_, ?_, ?_⟩, ?_⟩
  · intro o ho
    simp only [winding, List.mem_cons, List.not_mem_nil, or_false] at ho
    rcases ho with rfl | rfl | rfl | rfl <;> decide
  · intro o ho
    simp only [winding, List.mem_cons, List.not_mem_nil, or_false] at ho
    rcases ho with rfl | rfl | rfl | rfl <;> decide
  · intro p hp
    simp only [winding, file, List.mem_cons, List.not_mem_nil, or_false] at hp
    rcases hp with rfl | rfl <;> decide
  · decide +kernel
  · decide +kernel
  · intro h c ps r len hm
    simp only [winding, List.mem_cons, List.not_mem_nil, or_false, reduceCtorEq] at hm
    rcases hm with hm | hm | hm <;> cases hm
    · refine .inr ⟨by decide, by decide, .inl ?_, by decide, by decide, by decide, by decide, by decide, by decide⟩
      intro p hp
      simp only [List.mem_cons, List.not_mem_nil, or_false] at hp
      rcases hp with rfl | rfl | rfl | rfl <;> decide
    · refine .inl ⟨rfl, ?_, by decide, by decide, by decide, by decide, by decide, by decide⟩
      intro p hp
      simp only [List.mem_cons, List.not_mem_nil, or_false] at hp
      rcases hp with rfl | rfl | rfl <;> (unfold Spec.WholePoint; decide)
    · refine .inr ⟨by decide, by decide, .inr ⟨?_, ?_⟩, by decide, by decide, by decide, by decide, by decide, by decide⟩
      · intro p hp
        simp only [List.mem_cons, List.not_mem_nil, or_false] at hp
        rcases hp with rfl | rfl | rfl | rfl | rfl | rfl | rfl | rfl | rfl <;> decide
      · rintro i - hi
        simp only [List.length_cons, List.length_nil] at hi
        have : i = 0 ∨ i = 1 ∨ i = 2 := by omega
        rcases this with rfl | rfl | rfl
        · exact ⟨3, _, _, by decide, by decide, by decide, rfl, rfl, rfl, rfl⟩
        · exact ⟨3, _, _, by decide, by decide, by decide, rfl, rfl, rfl, rfl⟩
        · exact ⟨3, _, _, by decide, by decide, by decide, rfl, rfl, rfl, rfl⟩

example [GoSort] [GoLibm F64] : ∃ fuel, ∃ m : BeatMap F32 F64, parseText fuel winding.text = .ok (some m) ∧ m.hitObjects.length = 4 := by
  obtain ⟨N, hN⟩ := C107_parses winding winding_file
  exact ⟨N, hN N le_rfl⟩

end Sample

end GosuPP.Props
