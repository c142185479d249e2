import Verif.Lemmas.Runs
import Verif.Spec.Calc
import Verif.Props.Calc
import Verif.Props.Peaks
import Verif.Props.PPBounds

/-!
# C70: star ratings and strains of ordinary maps are numbers, and not negative
-/

namespace GosuPP.Props
open Go Fl Spec Runs

section
variable [GoLibm F64]

private theorem opt_process (hl : PowLaws) (ht : TrigLaws) {d : Difficulty F64} {c : DiffObject F32 F64} {ds : List (DiffObject F32 F64)}
    (hg : Given d (c :: ds)) {n fuel : ℕ} (hn : n < 2 ^ 53) {last : Option (DiffObject F32 F64)} {f f' : Option (Skill F32 F64)}
    (hr : ∀ x ∈ f, Run d .flashlight n last x) (hf : Follows last (c :: ds)) (h : SkillSet.processOpt fuel c f = .ok f') :
    ∀ x ∈ f', Run d .flashlight (n + 1) (some c) x := by
  cases f with
  | none => cases h; intro x hx; cases hx
  | some sk =>
    obtain ⟨sk', h1, h⟩ := bind_ok h
    cases h
    intro x hx
    cases hx
    exact run_process hl ht hg hn (hr sk rfl) hf h1

private theorem runs_process (hl : PowLaws) (ht : TrigLaws) {d : Difficulty F64} {c : DiffObject F32 F64} {ds : List (DiffObject F32 F64)}
    (hg : Given d (c :: ds)) {n fuel : ℕ} (hn : n < 2 ^ 53) {last : Option (DiffObject F32 F64)} {s s' : SkillSet F32 F64}
    (hr : Runs d n last s) (hf : Follows last (c :: ds)) (h : s.process fuel c = .ok s') : Runs d (n + 1) (some c) s' := by
  unfold SkillSet.process at h
  obtain ⟨a, h1, h⟩ := bind_ok h
  obtain ⟨b, h2, h⟩ := bind_ok h
  obtain ⟨e, h3, h⟩ := bind_ok h
  obtain ⟨f, h4, h⟩ := bind_ok h
  cases h
  exact ⟨run_process hl ht hg hn hr.aim hf h1, run_process hl ht hg hn hr.aimNoSliders hf h2,
    run_process hl ht hg hn hr.speed hf h3, opt_process hl ht hg hn hr.flashlight hf h4⟩

private theorem runs_stars (hl : PowLaws) (ht : TrigLaws) [GoSort] {d : Difficulty F64} {n : ℕ} (hn : n ≤ 2 ^ 30)
    {last : Option (DiffObject F32 F64)} {s : SkillSet F32 F64} (hr : Runs d n last s) (a : Attributes F64) : StarsOk (s.getStars d a) := by
  unfold SkillSet.getStars
  simp only
  have h1 := difficultyValue_in ht hn hr.aim.ok
  have h2 := difficultyValue_in ht hn hr.aimNoSliders.ok
  have h3 := difficultyValue_in ht hn hr.speed.ok
  rw [hr.aim.kind] at h1
  rw [hr.aimNoSliders.kind] at h2
  rw [hr.speed.kind] at h3
  refine getStars_in hl ht (h1.upTo (by decide)) (h2.upTo (by decide)) (h3.upTo (by decide)) ?_ d a
  cases hf : s.flashlight with
  | none => exact in_zero.mono le_rfl (by norm_num)
  | some f =>
    have h4 := difficultyValue_in ht hn (hr.flashlight f hf).ok
    rw [(hr.flashlight f hf).kind] at h4
    exact h4.upTo (by decide)

private theorem single_runs (hl : PowLaws) (ht : TrigLaws) [GoSort] {d : Difficulty F64} {ds : List (DiffObject F32 F64)} (hg : Given d ds)
    {objs : List (Obj F32 F64)} {attr attr' : Attributes F64} {n fuel : ℕ} (hn : n + ds.length ≤ 2 ^ 30) {last : Option (DiffObject F32 F64)}
    {s s' : SkillSet F32 F64} (hr : Runs d n last s) (hf : Follows last ds) (h : singleLoop fuel ds objs attr s = .ok (attr', s')) :
    ∃ m last', m ≤ 2 ^ 30 ∧ Runs d m last' s' := by
  induction ds generalizing n last s objs attr with
  | nil => cases h; exact ⟨n, last, by simpa using hn, hr⟩
  | cons c ds ih =>
    rw [singleLoop] at h
    obtain ⟨o, -, h⟩ := bind_ok h
    obtain ⟨s1, h1, h⟩ := bind_ok h
    simp only [List.length_cons] at hn
    obtain ⟨g1, g2⟩ := given_tail hg
    exact ih g1 (n := n + 1) (by omega) (runs_process hl ht hg (by omega) hr hf h1) g2 h

private theorem step_runs (hl : PowLaws) (ht : TrigLaws) [GoSort] {d : Difficulty F64} {ds : List (DiffObject F32 F64)} (hg : Given d ds)
    {objs : List (Obj F32 F64)} {attr : Attributes F64} {n fuel : ℕ} (hn : n + ds.length ≤ 2 ^ 30) {last : Option (DiffObject F32 F64)}
    {s s' : SkillSet F32 F64} {stars : List (Attributes F64)} (hr : Runs d n last s) (hf : Follows last ds)
    (h : stepLoop fuel d ds objs attr s = .ok (stars, s')) : ∀ a ∈ stars, StarsOk a := by
  induction ds generalizing n last s objs attr stars with
  | nil => cases h; simp
  | cons c ds ih =>
    rw [stepLoop] at h
    obtain ⟨o, -, h⟩ := bind_ok h
    simp only at h
    obtain ⟨s1, h1, h⟩ := bind_ok h
    obtain ⟨⟨rest, s2⟩, h2, h⟩ := bind_ok h
    cases h
    simp only [List.length_cons] at hn
    obtain ⟨g1, g2⟩ := given_tail hg
    have hr' := runs_process hl ht hg (by omega) hr hf h1
    intro a ha
    rcases List.mem_cons.mp ha with rfl | ha
    · exact runs_stars hl ht (by omega) hr' _
    · exact ih g1 (n := n + 1) (by omega) hr' g2 h2 a ha

/-- All floating point numbers of the attributes are finite and not negative. -/
def FiniteStars (a : Attributes F64) : Prop :=
  FiniteNonneg a.total ∧ FiniteNonneg a.aim ∧ FiniteNonneg a.speed ∧ FiniteNonneg a.flashlight ∧ FiniteNonneg a.sliderFactor

omit [GoLibm F64] in
private theorem in_finite {q : ℚ} {x : F64} (h : In 0 q x) : FiniteNonneg x := by
  have h0 := h.lit_le nice_zero
  obtain ⟨v, z, rfl, -, -⟩ := h
  exact ⟨h0, rfl⟩

omit [GoLibm F64] in
private theorem stars_finite {a : Attributes F64} (h : StarsOk a) : FiniteStars a :=
  ⟨in_finite h.total, in_finite h.aim, in_finite h.speed, in_finite h.flashlight, in_finite h.sliderFactor.2⟩

private theorem single_ok (hl : PowLaws) (ht : TrigLaws) [GoSort] (fuel : ℕ) {objs : List (Obj F32 F64)} {d : Difficulty F64}
    (hm : OrdinaryMap d objs) {a : Attributes F64} (h : calculateSingle fuel objs d = .ok a) : StarsOk a := by
  unfold calculateSingle at h
  obtain ⟨⟨a', s⟩, h1, h⟩ := bind_ok h
  cases h
  unfold calculateSingleCore at h1
  obtain ⟨ds, hd, h1⟩ := bind_ok h1
  obtain ⟨o, -, h1⟩ := bind_ok h1
  obtain ⟨⟨attr, sk⟩, hs, h1⟩ := bind_ok h1
  cases h1
  have hlen := createDifficultyObjects_length hd
  have hc := hm.count
  obtain ⟨m, last, hm', hr⟩ := single_runs hl ht (given hl hm hd) (n := 0) (by omega) (runs_new d) (by intro p hp; cases hp) hs
  exact runs_stars hl ht hm' hr _

/-- C70 (IEEE doubles). The ratings of an ordinary map are finite numbers and not negative. -/
theorem C70_single (hl : PowLaws) (ht : TrigLaws) [GoSort] (fuel : ℕ) {objs : List (Obj F32 F64)} {d : Difficulty F64}
    (hm : OrdinaryMap d objs) {a : Attributes F64} (h : calculateSingle fuel objs d = .ok a) : FiniteStars a :=
  stars_finite (single_ok hl ht fuel hm h)

/-- C70 (IEEE doubles). So are those after every object. -/
theorem C70_step (hl : PowLaws) (ht : TrigLaws) [GoSort] (fuel : ℕ) {objs : List (Obj F32 F64)} {d : Difficulty F64}
    (hm : OrdinaryMap d objs) {stars : List (Attributes F64)} (h : calculateStep fuel objs d = .ok stars) :
    ∀ a ∈ stars, FiniteStars a := by
  unfold calculateStep at h
  obtain ⟨⟨st, s⟩, h1, h⟩ := bind_ok h
  cases h
  unfold calculateStepCore at h1
  obtain ⟨ds, hd, h1⟩ := bind_ok h1
  split at h1
  · cases h1
  obtain ⟨o, -, h1⟩ := bind_ok h1
  obtain ⟨⟨rest, sk⟩, hs, h1⟩ := bind_ok h1
  cases h1
  have hlen := createDifficultyObjects_length hd
  have hc := hm.count
  intro a ha
  rcases List.mem_cons.mp ha with rfl | ha
  · have hz : FiniteNonneg (lit 0 : F64) := in_finite in_zero
    have : FiniteStars (addObjectToAttribs o (Attributes.zero : Attributes F64)) := by
      unfold addObjectToAttribs FiniteStars
      simp only
      cases o.kind <;> exact ⟨hz, hz, hz, hz, hz⟩
    exact this
  · exact stars_finite (step_runs hl ht (given hl hm hd) (n := 0) (by omega) (runs_new d) (by intro p hp; cases hp) hs a ha)

private theorem peak_runs (hl : PowLaws) (ht : TrigLaws) {d : Difficulty F64} {ds : List (DiffObject F32 F64)} (hg : Given d ds)
    {n fuel : ℕ} (hn : n + ds.length ≤ 2 ^ 30) {last : Option (DiffObject F32 F64)} {s s' : PeakSkills F32 F64}
    (h1 : Run d (.aim true) n last s.aim) (h2 : Run d .speed n last s.speed) (h3 : ∀ f ∈ s.flashlight, Run d .flashlight n last f)
    (hf : Follows last ds) (h : peakLoop fuel ds s = .ok s') :
    ∃ m last', m ≤ 2 ^ 30 ∧ Run d (.aim true) m last' s'.aim ∧ Run d .speed m last' s'.speed ∧
      ∀ f ∈ s'.flashlight, Run d .flashlight m last' f := by
  induction ds generalizing n last s with
  | nil => cases h; exact ⟨n, last, by simpa using hn, h1, h2, h3⟩
  | cons c ds ih =>
    rw [peakLoop] at h
    obtain ⟨a, e1, h⟩ := bind_ok h
    obtain ⟨b, e2, h⟩ := bind_ok h
    obtain ⟨f, e3, h⟩ := bind_ok h
    simp only [List.length_cons] at hn
    obtain ⟨g1, g2⟩ := given_tail hg
    exact ih g1 (n := n + 1) (by omega) (run_process hl ht hg (by omega) h1 hf e1) (run_process hl ht hg (by omega) h2 hf e2)
      (opt_process hl ht hg (by omega) h3 hf e3) g2 h

omit [GoLibm F64] in
private theorem peak_in {d : Difficulty F64} {kind : SkillKind} {n : ℕ} (hn : n ≤ 2 ^ 30) {last : Option (DiffObject F32 F64)} {sk : Skill F32 F64}
    (h : Run d kind n last sk) : ∀ x ∈ sk.getCurrentStrainPeaks, In 0 (2 ^ (30 + capP kind)) x := by
  intro x hx
  have := h.ok.peaks x hx
  rw [h.kind] at this
  refine this.mono le_rfl ?_
  rw [pow_add]
  have : (n : ℚ) ≤ 2 ^ 30 := by exact_mod_cast hn
  exact mul_le_mul_of_nonneg_right this (by positivity)

private theorem peaksLoop_in (hl : PowLaws) (ht : TrigLaws) {d : Difficulty F64} {fl : Option (List F64)} {sp : List F64} {i : ℕ}
    {l out : List F64} (h1 : ∀ x ∈ l, In 0 (2 ^ 156) x) (h2 : ∀ x ∈ sp, In 0 (2 ^ 156) x) (h3 : ∀ f ∈ fl, ∀ x ∈ f, In 0 (2 ^ 202) x)
    (h : peaksLoop d fl sp i l = .ok out) : ∀ x ∈ out, FiniteNonneg x := by
  induction l generalizing i out with
  | nil => cases h; simp
  | cons a l ih =>
    have mem : ∀ {l : List F64} {i : ℕ} {x : F64}, index l i = .ok x → x ∈ l := by
      intro l i x hx
      unfold index at hx
      split at hx
      · cases hx
      split at hx
      · rename_i e; cases hx; exact List.mem_of_getElem? e
      · cases hx
    obtain ⟨fv, hfv, sv, e2, rest, e3, rfl⟩ : ∃ fv, In 0 (2 ^ 202) fv ∧ ∃ sv, index sp i = .ok sv ∧ ∃ rest, peaksLoop d fl sp (i + 1) l = .ok rest ∧
        out = (getStarsFromRawValues a a sv fv d Attributes.zero).total :: rest := by
      unfold peaksLoop at h
      simp only at h
      cases fl with
      | none =>
        obtain ⟨fv, e1, h⟩ := bind_ok h
        obtain ⟨sv, e2, h⟩ := bind_ok h
        obtain ⟨rest, e3, h⟩ := bind_ok h
        exact ⟨fv, by rw [← Except.ok.inj e1]; exact in_zero.mono le_rfl (by norm_num), sv, e2, rest, e3, (Except.ok.inj h).symm⟩
      | some f =>
        obtain ⟨fv, e1, h⟩ := bind_ok h
        obtain ⟨sv, e2, h⟩ := bind_ok h
        obtain ⟨rest, e3, h⟩ := bind_ok h
        exact ⟨fv, h3 f rfl fv (mem e1), sv, e2, rest, e3, (Except.ok.inj h).symm⟩
    intro x hx
    rcases List.mem_cons.mp hx with rfl | hx
    · exact in_finite (getStars_in hl ht (h1 a (by simp)) (h1 a (by simp)) (h2 sv (mem e2)) hfv d _).total
    · exact ih (fun y hy => h1 y (by simp [hy])) e3 x hx

/-- C70 (IEEE doubles). All strain peaks of an ordinary map are finite numbers and not negative. -/
theorem C70_peaks (hl : PowLaws) (ht : TrigLaws) (fuel : ℕ) {objs : List (Obj F32 F64)} {d : Difficulty F64}
    (hm : OrdinaryMap d objs) {p : StrainPeaks F64} (h : calculateStrainPeaks fuel objs d = .ok p) :
    ∀ x ∈ p.aim ++ p.speed ++ p.flashlight ++ p.total, FiniteNonneg x := by
  unfold calculateStrainPeaks at h
  obtain ⟨ds, hd, h⟩ := bind_ok h
  obtain ⟨sk, hs, h⟩ := bind_ok h
  have hlen := createDifficultyObjects_length hd
  have hc := hm.count
  have hn := runs_new d
  obtain ⟨m, last, hm', r1, r2, r3⟩ := peak_runs hl ht (given hl hm hd) (n := 0) (by omega) hn.aim hn.speed hn.flashlight
    (by intro p hp; cases hp) hs
  unfold getPeaks at h
  simp only at h
  obtain ⟨total, htot, h⟩ := bind_ok h
  cases h
  have b1 := peak_in hm' r1
  have b2 := peak_in hm' r2
  have b3 : ∀ f ∈ sk.flashlight.map (·.getCurrentStrainPeaks), ∀ x ∈ f, In 0 (2 ^ (30 + capP .flashlight)) x := by
    intro f hf
    cases hsk : sk.flashlight with
    | none => rw [hsk] at hf; cases hf
    | some g =>
      rw [hsk] at hf
      cases hf
      exact peak_in hm' (r3 g hsk)
  have b4 := peaksLoop_in hl ht (fun x hx => (b1 x hx).upTo (by decide)) (fun x hx => (b2 x hx).upTo (by decide))
    (fun f hf x hx => (b3 f hf x hx).upTo (by decide)) htot
  intro x hx
  simp only [List.mem_append] at hx
  rcases hx with ((hx | hx) | hx) | hx
  · exact in_finite (b1 x hx)
  · exact in_finite (b2 x hx)
  · cases hsk : sk.flashlight with
    | none => rw [hsk] at hx; cases hx
    | some g =>
      rw [hsk] at hx b3
      exact in_finite (b3 _ rfl x hx)
  · exact b4 x hx

omit [GoLibm F64] in
private theorem finite_fin {a x : F64} (ha : Fl.Fin a) (h1 : Fl.le a x = true) (h2 : Fl.lt x (Fl.inf false) = true) : Fl.Fin x := by
  obtain ⟨u, y, rfl⟩ := ha
  cases x with
  | nan => simp [Fl.le] at h1
  | inf s =>
    cases s
    · simp [Fl.lt] at h2
    · simp [Fl.le] at h1
  | fin v z => exact ⟨v, z, rfl⟩

omit [GoLibm F64] in
private theorem ordinary_take {d : Difficulty F64} {objs : List (Obj F32 F64)} (h : OrdinaryMap d objs) (n : ℕ) : OrdinaryMap d (objs.take n) :=
  ⟨h.radius, h.speed, h.hit300, (List.length_take_le' ..).trans h.count, fun o ho => h.objects o (List.mem_of_mem_take ho), h.sorted.take n⟩

/-- C70 with C51 (IEEE doubles). In an ordinary map no further object lowers a rating. -/
theorem C70_nondecreasing (hl : PowLaws) (ht : TrigLaws) [GoSort] (fuel : ℕ) {objs : List (Obj F32 F64)} {d : Difficulty F64}
    (hm : OrdinaryMap d objs) {stars : List (Attributes F64)} (h : calculateStep fuel objs d = .ok stars) :
    stars.IsChain RatingsLE := by
  refine C51_nondecreasing (logBounds ht) fuel objs d stars h ?_
  intro n p hp x hx
  have := C70_peaks hl ht fuel (ordinary_take hm n) hp x (List.mem_append_left _ hx)
  refine ⟨?_, this.1⟩
  exact finite_fin (in_zero.elim fun v h => ⟨v, h.elim fun z e => ⟨z, e.1⟩⟩) this.1 this.2

private theorem combo_le {d : Difficulty F64} (objs : List (Obj F32 F64)) (h : ∀ o ∈ objs, OrdinaryObject d o) :
    (objs.map comboOf).sum ≤ objs.length * (2 ^ 20 + 1) := by
  induction objs with
  | nil => simp
  | cons o objs ih =>
    simp only [List.map_cons, List.sum_cons, List.length_cons]
    have h1 : comboOf o ≤ 2 ^ 20 + 1 := by
      unfold comboOf
      split
      · rename_i s hs
        have := ((h o (by simp)).slider s hs).points
        omega
      · omega
    have := ih (fun x hx => h x (by simp [hx]))
    rw [Nat.add_mul]
    omega

/-- C70 with C69 (IEEE doubles). The performance points of a play in which every object of an ordinary map is judged are finite
numbers and not negative; `n300` may be left to the library. -/
theorem C70_pp (hl : PowLaws) (ht : TrigLaws) [GoSort] (fuel : ℕ) {objs : List (Obj F32 F64)} {d : Difficulty F64}
    (hm : OrdinaryMap d objs) (har : Within (-4096) 14 d.arReal) (hod : Within (-4096) 14 d.odReal) {a : Attributes F64}
    (h : calculateSingle fuel objs d = .ok a) (pp : PPv2 F64) {combo n300 n100 n50 nmiss : Int} (hc : combo ≤ 2 ^ 50)
    (h100 : 0 ≤ n100) (h50 : 0 ≤ n50) (hmiss : 0 ≤ nmiss)
    (hall : (n300 < 0 ∧ n100 + n50 + nmiss ≤ objs.length) ∨ (0 ≤ n300 ∧ n300 + n100 + n50 + nmiss = objs.length)) :
    let r := (pp.ppv2x a combo n300 n100 n50 nmiss d).results
    FiniteNonneg r.aim ∧ FiniteNonneg r.speed ∧ FiniteNonneg r.acc ∧ FiniteNonneg r.flashlight ∧ FiniteNonneg r.total := by
  have hs := single_ok hl ht fuel hm h
  obtain ⟨c1, c2, c3, c4, c5⟩ := C46_counts fuel objs d a h
  have hcount := hm.count
  have hcombo := combo_le objs hm.objects
  have k1 := List.countP_le_length (p := Obj.isCircle) (l := objs)
  have k2 := List.countP_le_length (p := Obj.isSlider) (l := objs)
  have k3 := List.countP_le_length (p := Obj.isSpinner) (l := objs)
  have hcombo' : objs.length * (2 ^ 20 + 1) ≤ 2 ^ 29 * (2 ^ 20 + 1) := Nat.mul_le_mul_right _ hcount
  have hg : greats a n300 n100 n50 nmiss + n100 + n50 + nmiss = objs.length ∧ 0 ≤ greats a n300 n100 n50 nmiss := by
    unfold greats
    split <;> omega
  refine C69_finite hl pp ⟨by omega, by omega, by omega, by omega, hc, by omega, by omega, by omega, ⟨by omega, fun _ _ => by omega⟩, by omega, ?_, ?_, ?_, ?_, har, hod⟩
  · exact hs.aim.within nice_zero (nice_pow _ (by norm_num))
  · exact hs.speed.within nice_zero (nice_pow _ (by norm_num))
  · exact hs.flashlight.within nice_zero (nice_pow _ (by norm_num))
  · exact ⟨hs.sliderFactor.1, hs.sliderFactor.2.within nice_zero (nice_pow _ (by norm_num))⟩

end

/-- C70 (IEEE doubles). The circle radius, speed and hit window of a difficulty with base stats between 0 and 10, any mods and a
custom speed between 0.01 and 100 are what ordinary maps ask for. -/
theorem C70_stats (hp cs od ar speed : F64) (m : Modifier) (hcs : Within 0 10 cs) (hod : Within 0 10 od)
    (hs : Within 0.01 100 speed) :
    let d := (DiffInput.mk hp cs od ar m speed).fresh
    Within 1 1024 d.circleRadius ∧ Within (1 / 1024) 1024 d.speed ∧ Within 1 4096 d.hit300 := by
  have n7 : Nice (1 / 128) := by have := nice_neg_pow 7 (by norm_num); norm_num at this ⊢; exact this
  have n8 : Nice (128 : ℚ) := by exact nice_nat 128 (by norm_num)
  have m10 : Nice (1 / 1024) := by have := nice_neg_pow 10 (by norm_num); norm_num at this ⊢; exact this
  have m9 : Nice (1 / 512) := by have := nice_neg_pow 9 (by norm_num); norm_num at this ⊢; exact this
  have n9 : Nice (512 : ℚ) := by exact nice_nat 512 (by norm_num)
  have n10 : Nice (1024 : ℚ) := by exact nice_nat 1024 (by norm_num)
  have n12 : Nice (4096 : ℚ) := by exact nice_nat 4096 (by norm_num)
  have hsI : In (1 / 128) 128 speed := by
    refine In.of_le (Fl.le_trans ?_ hs.1) (Fl.le_trans hs.2 ?_) n7 n8
    · rw [go_lit, go_lit]; exact ofRat_mono (by norm_num) _ _
    · rw [go_lit, go_lit]; exact ofRat_mono (by norm_num) _ _
  obtain ⟨v14, b14, h14, p14⟩ := lit14
  obtain ⟨v13, b13, h13, p13⟩ := lit13
  have acs := adjust_range m h13 p13 hcs.1 hcs.2
  have aod := adjust_range m h14 p14 hod.1 hod.2
  simp only
  rw [fresh_eq]
  simp only [Difficulty.calculate, Difficulty.getModifiedTime]
  refine ⟨?_, ?_, ?_⟩
  · obtain ⟨v, c, hv, hv1, hv2⟩ := fin_of_between
      (Fl.le_trans (show Fl.le (.fin 1 false) _ = true by decide +kernel) (rate_cs.anti acs.2))
      (Fl.le_trans (rate_cs.anti acs.1) (show Fl.le _ (.fin 1024 false) = true by decide +kernel))
    exact In.within ⟨v, c, hv, hv1, hv2⟩ nice_one n10
  · have n2 : Nice (2 : ℚ) := by exact nice_nat 2 (by norm_num)
    have h1 : In 1 1 (lit 1 : F64) := in_lit nice_one nice_one le_rfl le_rfl
    have key : ∀ k : ℚ, 1 / 2 ≤ k → k ≤ 2 → In (1 / 1024) 1024 ((lit 1 : F64) /. ((lit 1 : F64) /. ((lit k : F64) *. speed))) := by
      intro k k1 k2
      have hk : In (1 / 2) 2 (lit k : F64) := in_lit nice_half n2 k1 k2
      have h2 := hk.mul hsI (by norm_num) (by norm_num) m9 n9 (by norm_num) (by norm_num)
      have h3 := h1.div' h2 (by norm_num) (by norm_num) m9 n9 (by norm_num) (by norm_num)
      exact h1.div' h3 (by norm_num) (by norm_num) m10 n10 (by norm_num) (by norm_num)
    unfold Difficulty.modifiedTime
    refine In.within ?_ m10 n10
    split
    · exact key _ (by norm_num) (by norm_num)
    split
    · exact key _ (by norm_num) (by norm_num)
    · have h3 := h1.div' hsI (by norm_num) (by norm_num) m9 n9 (by norm_num) (by norm_num)
      exact h1.div' h3 (by norm_num) (by norm_num) m10 n10 (by norm_num) (by norm_num)
  · obtain ⟨v, c, hv, hv1, hv2⟩ := fin_of_between
      (Fl.le_trans (show Fl.le (.fin 20 false) _ = true by decide +kernel) (rate_h300.anti aod.2))
      (Fl.le_trans (rate_h300.anti aod.1) (show Fl.le _ (.fin 80 false) = true by decide +kernel))
    exact In.within ⟨v, c, hv, by linarith, by linarith⟩ nice_one n12

/-! ### Concrete cases -/

/-- C70: the laws of the library functions do not contradict each other. -/
theorem Sample.libm3_trig : @TrigLaws Sample.libm3 := by
  letI := Sample.libm3
  refine ⟨?_, fun x k _ h => h, ?_⟩
  · intro x _
    exact In.within ⟨1, false, rfl, by norm_num, by norm_num⟩ (nice_one.neg) nice_one
  · intro x _
    exact In.within ⟨1 / 2, false, rfl, by norm_num, by norm_num⟩ nice_zero nice_one

private def withinB (lo hi : ℚ) (x : F64) : Bool := ((lit lo : F64) <=. x) && (x <=. (lit hi : F64))

private def placedB (v : Vec F32) : Bool :=
  (((lit (-1048575) : F32) <=. v.x) && (v.x <=. (lit 1048575 : F32))) && (((lit (-1048575) : F32) <=. v.y) && (v.y <=. (lit 1048575 : F32)))

private def objectB (d : Difficulty F64) (o : Obj F32 F64) : Bool :=
  withinB (-2 ^ 40) (2 ^ 40) o.base.startTime && placedB (o.base.getStackedStartPositionMod d.mods) &&
    placedB (o.base.getStackedEndPositionMod d.mods) &&
    match o.kind with
    | .slider s => decide (s.scorePoints.length ≤ 2 ^ 20) && decide (1 ≤ s.repeatCount ∧ s.repeatCount ≤ 2 ^ 20) &&
      s.scorePoints.all (fun p => withinB (-2 ^ 40) (2 ^ 40) p.time) &&
      (usedTimes o s).all fun t => match o.getStackedPositionAtMod t d.mods with
        | .ok v => placedB v
        | .error _ => true
    | _ => true

private theorem placed_of {v : Vec F32} (h : placedB v = true) : Placed v := by
  unfold placedB at h
  simpa [Placed, Bool.and_eq_true] using h

private theorem within_of {lo hi : ℚ} {x : F64} (h : withinB lo hi x = true) : Within lo hi x := by
  unfold withinB at h
  simpa [Within, Bool.and_eq_true] using h

private theorem object_of {d : Difficulty F64} {o : Obj F32 F64} (h : objectB d o = true) : OrdinaryObject d o := by
  unfold objectB at h
  simp only [Bool.and_eq_true] at h
  obtain ⟨⟨⟨h1, h2⟩, h3⟩, h4⟩ := h
  refine ⟨within_of h1, placed_of h2, placed_of h3, ?_⟩
  intro s hs
  rw [hs] at h4
  simp only [Bool.and_eq_true, decide_eq_true_eq, List.all_eq_true] at h4
  obtain ⟨⟨⟨g1, g2⟩, g3⟩, g4⟩ := h4
  refine ⟨g1, g2, fun p hp => within_of (g3 p hp), ?_⟩
  intro t ht v hv
  have := g4 t ht
  rw [hv] at this
  exact placed_of this

private def Sample.hrdt : Difficulty F64 :=
  (DiffInput.mk (lit 5) (lit 4) (lit 8) (lit 9) (Mod.HardRock ||| Mod.DoubleTime ||| Mod.Flashlight) (lit 1)).fresh

/-- C70: the sample map with its stacks, spinner and slider is ordinary with HardRock, DoubleTime and Flashlight. -/
example : ∃ m, GosuPP.Sample.parse GosuPP.Sample.stacked = .ok (some m) ∧ m.hitObjects.length = 6 ∧ OrdinaryMap Sample.hrdt m.hitObjects := by
  have h : (match GosuPP.Sample.parse GosuPP.Sample.stacked with
      | .ok (some m) => decide (m.hitObjects.length = 6) && m.hitObjects.all (objectB Sample.hrdt) &&
        decide (m.hitObjects.IsChain fun a b => (a.base.startTime <=. b.base.startTime) = true)
      | _ => false) = true := by decide +kernel
  split at h
  · rename_i m e
    simp only [Bool.and_eq_true, decide_eq_true_eq, List.all_eq_true] at h
    obtain ⟨⟨h1, h2⟩, h3⟩ := h
    have hs := C70_stats (lit 5) (lit 4) (lit 8) (lit 9) (lit 1) (Mod.HardRock ||| Mod.DoubleTime ||| Mod.Flashlight)
      (by unfold Within; decide +kernel) (by unfold Within; decide +kernel) (by unfold Within; decide +kernel)
    exact ⟨m, e, h1, hs.1, hs.2.1, hs.2.2, by rw [h1]; norm_num, fun o ho => object_of (h2 o ho), h3⟩
  · cases h

end GosuPP.Props
