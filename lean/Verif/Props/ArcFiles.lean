import Verif.Lemmas.ArcLines
import Verif.Props.Anchors
import Verif.Props.CurvedFiles

/-!
# C114: written maps with circular arcs, from the file to the performance points
-/

namespace GosuPP.Props
open Go Fl Spec

/-- Three points on a line, or at least 12 apart from each other on a circle with a centre of coordinates of at most 4096 in magnitude. -/
def ArcPoints (ax ay bx by' cx cy : ℤ) : Prop :=
  (bx - ax) * (cy - ay) = (by' - ay) * (cx - ax) ∨
  (bx - ax) * (cy - ay) ≠ (by' - ay) * (cx - ax) ∧
    12 ^ 2 ≤ (bx - cx) ^ 2 + (by' - cy) ^ 2 ∧ 12 ^ 2 ≤ (cx - ax) ^ 2 + (cy - ay) ^ 2 ∧ 12 ^ 2 ≤ (ax - bx) ^ 2 + (ay - by') ^ 2 ∧
    ∃ mx my : ℚ, |mx| ≤ 4096 ∧ |my| ≤ 4096 ∧
      (ax - mx) ^ 2 + (ay - my) ^ 2 = (bx - mx) ^ 2 + (by' - my) ^ 2 ∧ (ax - mx) ^ 2 + (ay - my) ^ 2 = (cx - mx) ^ 2 + (cy - my) ^ 2

/-- A slider on an arc through three such points with whole coordinates of at most 1023 in magnitude, of a length from 1 to below 16384,
where the number of spans times the length (and 640 px more for each span) is at most 131072. -/
def ArcLine (h : Head) (c : Char) (ps : List (Dec × Dec)) (r : ℤ) (len : Dec) : Prop :=
  c = 'P' ∧ (∃ p q, ps = [p, q] ∧ ArcPoints h.x.toInt h.y.toInt p.1.toInt p.2.toInt q.1.toInt q.2.toInt) ∧
    (∀ p ∈ (h.x, h.y) :: ps, p.1.frac = [] ∧ p.2.frac = [] ∧ p.1.whole < 2 ^ 10 ∧ p.2.whole < 2 ^ 10) ∧
    len.neg = false ∧ 1 ≤ len.whole ∧ len.whole < 2 ^ 14 ∧ 1 ≤ r ∧ r * (len.whole + 640) ≤ 2 ^ 17

/-- A written map of ordinary size with straight sliders, Bézier sliders and arcs. -/
structure ArcFile (f : File) : Prop extends SizedFile f where
  sliders : ∀ h c ps r len, ObjectLine.slider h c ps r len ∈ f.objects →
    StraightLine h c ps r len ∨ CurvedLine h c ps r len ∨ ArcLine h c ps r len

theorem dec_wh {d : Dec} (hf : d.frac = []) (h : d.whole < 2 ^ 10) : Wh (d.value : F32) d.toInt ∧ |d.toInt| ≤ 1023 := by
  refine ⟨(dec_int32 hf (by norm_num) h).1, ?_⟩
  unfold Dec.toInt
  split
  · rw [abs_neg, abs_of_nonneg (by positivity)]; omega
  · rw [abs_of_nonneg (by positivity)]; omega

section
variable [GoLibm F64]

omit [GoLibm F64] in
/-- Points on a line are found to be on a line. -/
theorem straight_found {a b c : Vec F32} {ax ay bx by' cx cy : ℤ} (wax : Wh a.x ax) (way : Wh a.y ay) (wbx : Wh b.x bx) (wby : Wh b.y by')
    (wcx : Wh c.x cx) (wcy : Wh c.y cy) (bax : |ax| ≤ 1023) (bay : |ay| ≤ 1023) (bbx : |bx| ≤ 1023) (bby : |by'| ≤ 1023)
    (bcx : |cx| ≤ 1023) (bcy : |cy| ≤ 1023) (h : (bx - ax) * (cy - ay) = (by' - ay) * (cx - ax)) : Vec.isStraightLine (D := F64) a b c = true := by
  have d1 := abs_sub_small bby bay
  have d2 := abs_sub_small bcx bax
  have d3 := abs_sub_small bbx bax
  have d4 := abs_sub_small bcy bay
  have m1 := abs_mul_small d1 d2
  have m2 := abs_mul_small d3 d4
  obtain ⟨z, hz⟩ : Wh ((b.y -. a.y) *. (c.x -. a.x) -. (b.x -. a.x) *. (c.y -. a.y)) ((by' - ay) * (cx - ax) - (bx - ax) * (cy - ay)) :=
    ((wby.sub way (d1.trans (by norm_num))).mul (wcx.sub wax (d2.trans (by norm_num))) (m1.trans (by norm_num))).sub
      ((wbx.sub wax (d3.trans (by norm_num))).mul (wcy.sub way (d4.trans (by norm_num))) (m2.trans (by norm_num)))
      (by rw [h, sub_self, abs_zero]; norm_num)
  rw [h, sub_self, Int.cast_zero] at hz
  unfold Vec.isStraightLine Math32.abs
  rw [hz]
  cases z <;> decide +kernel

/-- The path of a slider on an arc is made. -/
theorem laid_arc (ha : ArcLaws) {h : Head} {c : Char} {ps : List (Dec × Dec)} {r : ℤ} {len : Dec} (hs : ArcLine h c ps r len) :
    ∃ N, ∀ fuel ≥ N, Laid fuel (.slider h c ps r len) := by
  obtain ⟨rfl, ⟨p, q, rfl, hpts⟩, hw, hneg, hl1, hl2, hr1, hrw⟩ := hs
  obtain ⟨P, zP, hP, P1, P2, P3⟩ := len_in hneg hl1 hl2
  have w0 := hw (h.x, h.y) (by simp)
  have w1 := hw p (by simp)
  have w2 := hw q (by simp)
  obtain ⟨wax, bax⟩ := dec_wh w0.1 w0.2.2.1
  obtain ⟨way, bay⟩ := dec_wh w0.2.1 w0.2.2.2
  obtain ⟨wbx, bbx⟩ := dec_wh w1.1 w1.2.2.1
  obtain ⟨wby, bby⟩ := dec_wh w1.2.1 w1.2.2.2
  obtain ⟨wcx, bcx⟩ := dec_wh w2.1 w2.2.2.1
  obtain ⟨wcy, bcy⟩ := dec_wh w2.2.1 w2.2.2.2
  refine ⟨3, fun fuel hfu => ?_⟩
  rcases hpts with hflat | ⟨hdet, sA, sB, sC, mx, my, bX, bY, e1, e2⟩
  · have hst := straight_found (a := ⟨h.x.value, h.y.value⟩) (b := ⟨p.1.value, p.2.value⟩) (c := ⟨q.1.value, q.2.value⟩)
      wax way wbx wby wcx wcy bax bay bbx bby bcx bcy hflat
    have hPL : ∀ l : F64, MultiCurve.newT fuel ['P'] (⟨h.x.value, h.y.value⟩ :: [p, q].map (fun p => (⟨p.1.value, p.2.value⟩ : Vec F32))) l =
        MultiCurve.newT fuel ['L'] (⟨h.x.value, h.y.value⟩ :: [p, q].map (fun p => ⟨p.1.value, p.2.value⟩)) l :=
      fun l => C72_perfect_few (Or.inr ⟨_, _, _, rfl, hst⟩) l
    rcases newT_cases (S := F32) (D := F64) fuel ['L'] ⟨h.x.value, h.y.value⟩ ([p, q].map (fun p => ⟨p.1.value, p.2.value⟩)) len.value with
      ⟨e, h1, -⟩ | ⟨-, mc, -, hmc⟩
    · cases h1
    · have hmc' := hmc
      rw [hP] at hmc'
      obtain ⟨hpath, C, zC, hC, C0, C1⟩ := straight_path (ps := [(h.x, h.y), p, q])
        (fun v hv => by
          obtain ⟨a1, a2, a3, a4⟩ := hw v hv
          exact ⟨a1, a2, by omega, by omega⟩) (by simp) P1 P3 hmc'
      exact ⟨len.whole + 640, mc, P, C, zP, zC, by omega, hr1, by exact_mod_cast hrw, P1, C0, by push_cast; linarith, hP, hC, hpath,
        by rw [hPL]; exact hmc⟩
  · have hD : 2 * (h.x.toInt * (p.2.toInt - q.2.toInt) + p.1.toInt * (q.2.toInt - h.y.toInt) + q.1.toInt * (h.y.toInt - p.2.toInt)) ≠ 0 :=
      fun e => hdet (by linarith)
    have hX : ∀ {N D : ℤ} {m : ℚ}, |m| ≤ 4096 → (N : ℚ) = m * D → |N| ≤ 4096 * |D| := by
      intro N D m hm e
      have : |(N : ℚ)| ≤ 4096 * |(D : ℚ)| := by
        rw [e, abs_mul]; exact mul_le_mul_of_nonneg_right hm (abs_nonneg _)
      exact_mod_cast this
    have arc : ArcPts ⟨h.x.value, h.y.value⟩ ⟨p.1.value, p.2.value⟩ ⟨q.1.value, q.2.value⟩
        h.x.toInt h.y.toInt p.1.toInt p.2.toInt q.1.toInt q.2.toInt :=
      ⟨wax, way, wbx, wby, wcx, wcy, bax, bay, bbx, bby, bcx, bcy, hD, sA, sB, sC,
        hX bX (by
          push_cast
          linear_combination (q.2.toInt - h.y.toInt : ℚ) * e1 * (-1) + (h.y.toInt - p.2.toInt : ℚ) * e2 * (-1)),
        hX bY (by
          push_cast
          linear_combination (h.x.toInt - q.1.toInt : ℚ) * e1 * (-1) + (p.1.toInt - h.x.toInt : ℚ) * e2 * (-1))⟩
    rcases newT_cases (S := F32) (D := F64) fuel ['P'] ⟨h.x.value, h.y.value⟩ ([p, q].map (fun p => ⟨p.1.value, p.2.value⟩)) len.value with
      ⟨e, h1, -⟩ | ⟨-, mc, -, hmc⟩
    · obtain ⟨raw, hraw, -⟩ := arc_raw ha arc hfu
      rw [show processType (D := F64) fuel ['P'] ((⟨h.x.value, h.y.value⟩ : Vec F32) :: [p, q].map (fun p => ⟨p.1.value, p.2.value⟩)) = .ok raw from hraw] at h1
      cases h1
    · have hmc' := hmc
      rw [hP] at hmc'
      obtain ⟨hpath, C, zC, hC, C0, C1⟩ := arc_path ha arc hfu P1 P3 hmc'
      exact ⟨len.whole + 640, mc, P, C, zP, zC, by omega, hr1, by exact_mod_cast hrw, P1, C0, by push_cast; linarith, hP, hC, hpath, hmc⟩

theorem ArcFile.laid (ha : ArcLaws) {f : File} (hf : ArcFile f) : ∃ N, ∀ fuel ≥ N, ∀ l ∈ f.objects, Laid fuel l := by
  refine Exactly.uniform fun l hl => ?_
  cases l with
  | circle h => exact ⟨0, fun _ _ => trivial⟩
  | spinner h e => exact ⟨0, fun _ _ => trivial⟩
  | slider h c ps r len =>
    rcases hf.sliders _ _ _ _ _ hl with hs | hs | hs
    · exact laid_slider (Or.inl hs)
    · exact laid_slider (Or.inr hs)
    · exact laid_arc ha hs

variable [GoSort]

/-- C114 (IEEE). A written map with straight sliders, Bézier sliders and circular arcs is read: the parser ends, without a panic and without
an error. -/
theorem C114_parses (ha : ArcLaws) (f : File) (hf : ArcFile f) :
    ∃ N, ∀ fuel ≥ N, ∃ m : BeatMap F32 F64, parseText fuel f.text = .ok (some m) ∧ m.hitObjects.length = f.objects.length :=
  hf.toSizedFile.parses (hf.laid ha)

/-- C114 (IEEE). Such a map is parsed, and if no stack of the parsed map is higher than 32768, then under any mods and a custom speed between
a quarter and four the difficulty calculation returns with finite ratings that are not negative, and every play that has as many judgements as
the map has objects gets finite performance points that are not negative. -/
theorem C114_written (hl : PowLaws) (ht : TrigLaws) (ha : ArcLaws) (f : File) (hf : ArcFile f) (hne : f.objects ≠ []) :
    ∃ N0, ∀ fuel ≥ N0, ∃ m : BeatMap F32 F64, parseText fuel f.text = .ok (some m) ∧ m.hitObjects.length = f.objects.length ∧
      ((∀ o ∈ m.hitObjects, ∀ v, |(stackOf o v).1| ≤ 2 ^ 15) →
        ∀ (mods : Modifier) (speed : F64), Within 0.25 4 speed →
        let d := (m.difficulty.setMods mods).setCustomSpeed speed
        ∃ N, ∀ fuel' ≥ N,
          (∃ a, calculateSingle fuel' m.hitObjects d = .ok a ∧ FiniteStars a ∧
            ∀ (pp : PPv2 F64) (combo n300 n100 n50 nmiss : Int), combo ≤ 2 ^ 50 → 0 ≤ n100 → 0 ≤ n50 → 0 ≤ nmiss →
              (n300 < 0 ∧ n100 + n50 + nmiss ≤ f.objects.length) ∨
                (0 ≤ n300 ∧ n300 + n100 + n50 + nmiss = f.objects.length) →
              let r := (pp.ppv2x a combo n300 n100 n50 nmiss d).results
              FiniteNonneg r.aim ∧ FiniteNonneg r.speed ∧ FiniteNonneg r.acc ∧ FiniteNonneg r.flashlight ∧ FiniteNonneg r.total) ∧
          (∃ p, calculateStrainPeaks fuel' m.hitObjects d = .ok p)) :=
  hf.toSizedFile.written hl ht (hf.laid ha) hne

end

/-! ### Concrete cases -/

namespace Sample

/-- A file with an arc of two spans, three points on a line written as an arc, a Bézier slider, a straight slider and a circle. -/
def bent : File :=
  { Sample.file with
    objects := [.slider ⟨dec 100 [], dec 100 [], 400, false, 0, 2⟩ 'P' [(dec 200 [], dec 50 []), (dec 300 [], dec 100 [])] 2 (dec 220 [5]),
      .slider ⟨dec 100 [], dec 100 [], 2400, false, 0, 2⟩ 'P' [(dec 120 [], dec 100 []), (dec 190 [], dec 100 [])] 1 (dec 90 []),
      .slider ⟨dec 10 [], dec 20 [], 3400, false, 0, 2⟩ 'B' [(dec 50 [5], dec 20 []), (dec 90 [], dec 120 []), (dec 10 [], dec 200 [])] 2
        (dec 190 [5]),
      .slider ⟨dec 0 [], dec 20 [], 5000, false, 0, 2⟩ 'L' [(dec 50 [], dec 20 []), (dec 50 [], dec 80 [])] 3 (dec 90 [5]),
      .circle (head 100 50 9000 true 3)] }

theorem bent_good : bent.Good := by
  obtain ⟨h1, h2, h3, h4, h5, h6, h7, h8, h9, h10, h11, h12, h13, h14, h15, -, -⟩ := file_good
  refine ⟨h1, h2, h3, h4, h5, h6, h7, h8, h9, h10, h11, h12, h13, h14, h15, ?_, by decide +kernel⟩
  intro o ho
  simp only [bent, List.mem_cons, List.not_mem_nil, or_false] at ho
  rcases ho with rfl | rfl | rfl | rfl | rfl <;> (unfold File.GoodObject File.Int64; decide)

theorem bent_file : ArcFile bent := by
  refine ⟨⟨bent_good, by simp [bent, file], by simp [bent, file], by simp [bent], ?_, ?_, ?_, ?_, ?_⟩, ?_⟩
  · intro o ho
    simp only [bent, List.mem_cons, List.not_mem_nil, or_false] at ho
    rcases ho with rfl | rfl | rfl | rfl | rfl <;> decide
  · intro o ho
    simp only [bent, List.mem_cons, List.not_mem_nil, or_false] at ho
    rcases ho with rfl | rfl | rfl | rfl | rfl <;> decide
  · intro p hp
    simp only [bent, file, List.mem_cons, List.not_mem_nil, or_false] at hp
    rcases hp with rfl | rfl <;> decide
  · decide +kernel
  · decide +kernel
  · intro h c ps r len hm
    simp only [bent, List.mem_cons, List.not_mem_nil, or_false, reduceCtorEq] at hm
    rcases hm with hm | hm | hm | hm <;> cases hm
    · refine .inr (.inr ⟨rfl, ⟨_, _, rfl, Or.inr ⟨by decide, by decide, by decide, by decide, 200, 175, ?_⟩⟩, by decide, by decide, by decide, by decide,
        by decide, by decide⟩)
      decide +kernel
    · exact .inr (.inr ⟨rfl, ⟨_, _, rfl, Or.inl (by decide)⟩, by decide, by decide, by decide, by decide, by decide, by decide⟩)
    · refine .inr (.inl ⟨by decide, by decide, .inl ?_, by decide, by decide, by decide, by decide, by decide, by decide⟩)
      intro p hp
      simp only [List.mem_cons, List.not_mem_nil, or_false] at hp
      rcases hp with rfl | rfl | rfl | rfl <;> decide
    · refine .inl ⟨rfl, ?_, by decide, by decide, by decide, by decide, by decide, by decide⟩
      intro p hp
      simp only [List.mem_cons, List.not_mem_nil, or_false] at hp
      rcases hp with rfl | rfl | rfl <;> (unfold Spec.WholePoint; decide)

/-- A rational number next to a real number. -/
noncomputable def near (v : ℝ) : ℚ := (⌊v * 2 ^ 30⌋ : ℚ) / 2 ^ 30

theorem near_le (v : ℝ) : |(near v : ℝ) - v| ≤ 1 / 2 ^ 30 := by
  unfold near
  push_cast
  have h1 := Int.floor_le (v * 2 ^ 30)
  have h2 := Int.lt_floor_add_one (v * 2 ^ 30)
  have h3 : v = v * 2 ^ 30 / 2 ^ 30 := by rw [mul_div_assoc, div_self (by norm_num), mul_one]
  rw [abs_le]
  generalize ((⌊v * 2 ^ 30⌋ : ℤ) : ℝ) = k at *
  constructor <;> linarith

/-- Library functions that satisfy all the laws: cosines and sines to nine decimals. -/
noncomputable def libm4 : GoLibm F64 :=
  { libm3 with
    sin := fun x => match x with | .fin q _ => fin (near (Real.sin q)) false | _ => nan
    cos := fun x => match x with | .fin q _ => fin (near (Real.cos q)) false | _ => nan }

/-- C114: the laws of the library functions do not contradict each other. -/
theorem libm4_laws : @PowLaws libm4 ∧ @TrigLaws libm4 ∧ @ArcLaws libm4 := by
  obtain ⟨a1, a2, a3, a4, a5⟩ := libm3_laws
  obtain ⟨b1, b2, b3⟩ := libm3_trig
  letI := libm4
  refine ⟨⟨a1, a2, a3, a4, a5⟩, ⟨?_, b2, b3⟩, ⟨?_, ?_, ?_⟩⟩
  · rintro x ⟨q, z, rfl⟩
    have h1 := Real.neg_one_le_sin (q : ℝ)
    have h2 := Real.sin_le_one (q : ℝ)
    have f1 : (-2 ^ 30 : ℤ) ≤ ⌊Real.sin (q : ℝ) * 2 ^ 30⌋ := by
      rw [Int.le_floor]; push_cast; linarith
    have f2 : ⌊Real.sin (q : ℝ) * 2 ^ 30⌋ ≤ (2 ^ 30 : ℤ) := by
      have : ((⌊Real.sin (q : ℝ) * 2 ^ 30⌋ : ℤ) : ℝ) ≤ ((2 ^ 30 : ℤ) : ℝ) := (Int.floor_le _).trans (by push_cast; linarith)
      exact_mod_cast this
    have g1 : ((-2 ^ 30 : ℤ) : ℚ) ≤ ⌊Real.sin (q : ℝ) * 2 ^ 30⌋ := Int.cast_le.mpr f1
    have g2 : ((⌊Real.sin (q : ℝ) * 2 ^ 30⌋ : ℤ) : ℚ) ≤ ((2 ^ 30 : ℤ) : ℚ) := Int.cast_le.mpr f2
    refine In.within ⟨near (Real.sin q), false, rfl, ?_, ?_⟩ (nice_one.neg) nice_one
    · unfold near; rw [le_div_iff₀ (by norm_num)]; push_cast at g1; linarith
    · unfold near; rw [div_le_iff₀ (by norm_num)]; push_cast at g2; linarith
  · exact fun x z _ => ⟨_, _, rfl, near_le _⟩
  · exact fun x z _ => ⟨_, _, rfl, near_le _⟩
  · refine fun y x z w => ⟨1, false, rfl, ?_⟩
    have := Real.pi_gt_three
    rw [Rat.cast_one, abs_one]; linarith

example [GoSort] : ∃ fuel, ∃ m : BeatMap F32 F64, letI := libm4; parseText fuel bent.text = .ok (some m) ∧ m.hitObjects.length = 5 := by
  letI := libm4
  obtain ⟨N, hN⟩ := C114_parses libm4_laws.2.2 bent bent_file
  exact ⟨N, hN N le_rfl⟩

end Sample

end GosuPP.Props
