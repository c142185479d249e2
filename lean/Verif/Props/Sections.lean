import Verif.Lemmas.SectionsHang
import Verif.Lemmas.Curve
import Verif.Spec.Sections
import Verif.Spec.Calc
import Verif.Props.Sample

/-!
# C49: strain sections; C62: which maps a calculation returns on
-/

namespace GosuPP.Props
open Go Fl Spec

/-! ### From hit objects to sections -/

section
variable {S D : Type} [GoFloat S] [GoFloat D] [GoConv S D] [GoLibm D]

/-- The times of the difficulty objects are those of the hit objects after the first. -/
private theorem starts {d : Difficulty D} {objs : List (Obj S D)} {ds : List (DiffObject S D)}
    (h : createDifficultyObjects objs d = .ok ds) :
    ds.map (·.startTime) = objs.tail.map (fun o => o.base.startTime /. d.speed) := by
  apply List.ext_getElem?
  intro i
  rw [List.getElem?_map, List.getElem?_map, List.getElem?_tail]
  cases ho : ds[i]? with
  | none =>
    have hl := createDifficultyObjects_length h
    rw [List.getElem?_eq_none_iff] at ho
    rw [List.getElem?_eq_none (by omega)]
    rfl
  | some o =>
    obtain ⟨a, b, c, x, y, hx, hy, ha, hb, rfl⟩ := createDifficultyObjects_get h ho
    rw [hy]
    obtain ⟨-, t2, -⟩ := newDiffObject_times b c a d
    simp only [Option.map_some, t2, (decorate_obj hb).1]

private theorem last_eq (σ : D → ℤ) (k : ℤ) (ds : List (DiffObject S D)) :
    Grid.lastSection σ k ds = (ds.map (fun d => σ d.startTime)).foldl max k := by
  unfold Grid.lastSection
  rw [List.foldl_map]

variable [GoSort]

/-- Any arithmetic in which multiples of 400 are exact. -/
theorem count_grid {T : D → Prop} {σ : D → ℤ} {At : D → ℤ → Prop} (g : Grid D T σ At)
    (fuel : Nat) (objs : List (Obj S D)) (hne : objs ≠ []) (diff : Difficulty D) {ds : List (DiffObject S D)}
    (hd : createDifficultyObjects objs diff = .ok ds)
    (ht : ∀ o ∈ objs.tail, T (o.base.startTime /. diff.speed)) :
    (fuel < sectionCount (objs.tail.map (fun o => σ (o.base.startTime /. diff.speed))) ∧
      calculateStrainPeaks fuel objs diff = .error .hang ∧ calculateSingle fuel objs diff = .error .hang) ∨
    ∃ p a, calculateStrainPeaks fuel objs diff = .ok p ∧ calculateSingle fuel objs diff = .ok a ∧
      p.aim.length = sectionCount (objs.tail.map (fun o => σ (o.base.startTime /. diff.speed))) := by
  cases objs with
  | nil => exact absurd rfl hne
  | cons o objs =>
    have hst := starts hd
    have hlen := createDifficultyObjects_length hd
    simp only [List.tail_cons, List.length_cons, Nat.add_sub_cancel] at hst hlen ht ⊢
    have h0 : index (o :: objs) 0 = .ok o := rfl
    have hsec : objs.map (fun o => σ (o.base.startTime /. diff.speed)) = ds.map (fun d => σ d.startTime) := by
      have := congrArg (List.map σ) hst
      rw [List.map_map, List.map_map] at this
      exact this.symm
    rw [hsec]
    have hpk : calculateStrainPeaks fuel (o :: objs) diff =
        peakLoop fuel ds ⟨(SkillSet.new (S := S) diff).aim, (SkillSet.new (S := S) diff).speed,
          (SkillSet.new (S := S) diff).flashlight⟩ >>= fun sk => getPeaks sk.aim sk.speed sk.flashlight diff := by
      unfold calculateStrainPeaks
      rw [hd]
      rfl
    have hsg : calculateSingle fuel (o :: objs) diff =
        singleLoop fuel ds objs (addObjectToAttribs o Attributes.zero) (SkillSet.new diff) >>=
          fun p => .ok (p.2.getStars diff p.1) := by
      unfold calculateSingle calculateSingleCore
      simp only [hd, h0, ok_bind, List.tail_cons]
      cases singleLoop fuel ds objs (addObjectToAttribs o Attributes.zero) (SkillSet.new diff) <;> rfl
    have hks := peakLoop_single fuel ds objs (by omega) (addObjectToAttribs o Attributes.zero)
      (SkillSet.new diff) (locked_new diff)
    have fin : ∀ sk' at', singleLoop fuel ds objs (addObjectToAttribs o Attributes.zero) (SkillSet.new diff) =
          .ok (at', sk') →
        sk'.aim.getCurrentStrainPeaks.length = sectionCount (ds.map (fun d => σ d.startTime)) →
        ∃ p a, calculateStrainPeaks fuel (o :: objs) diff = .ok p ∧
          calculateSingle fuel (o :: objs) diff = .ok a ∧
          p.aim.length = sectionCount (ds.map (fun d => σ d.startTime)) := by
      intro sk' at' h1 h2
      rcases hks with ⟨e, e1, -⟩ | ⟨at2, sk2, e1, e2, e3, -⟩
      · rw [h1] at e1; cases e1
      · rw [h1] at e1
        obtain ⟨rfl, rfl⟩ := Prod.mk.inj (Except.ok.inj e1)
        obtain ⟨p, hp, hpa, -⟩ := getPeaks_ok diff sk' e3
        refine ⟨p, sk'.getStars diff at', ?_, ?_, ?_⟩
        · rw [hpk, e2]; exact hp
        · rw [hsg, h1]; rfl
        · rw [hpa, h2]
    cases ds with
    | nil =>
      right
      exact fin (SkillSet.new diff) _ rfl rfl
    | cons d ds =>
      have ht' : ∀ x ∈ d :: ds, T x.startTime := by
        intro x hx
        have : x.startTime ∈ (d :: ds).map (·.startTime) := List.mem_map_of_mem hx
        rw [hst] at this
        obtain ⟨y, hy, e⟩ := List.mem_map.mp this
        rw [← e]
        exact ht y hy
      rcases Grid.single g fuel d ds objs (by omega) (addObjectToAttribs o Attributes.zero) diff ht' with
        ⟨h1, h2⟩ | ⟨at', sk', h1, -, h2⟩
      · left
        refine ⟨?_, ?_, ?_⟩
        · show fuel < (List.foldl max (σ d.startTime) (ds.map _) - σ d.startTime).toNat + 1
          rw [← last_eq]
          omega
        · rcases hks with ⟨e, e1, e2⟩ | ⟨at2, sk2, e1, -⟩
          · rw [h2] at e1
            cases e1
            rw [hpk, e2]; rfl
          · rw [h2] at e1; cases e1
        · rw [hsg, h2]; rfl
      · right
        refine fin sk' at' h1 ?_
        rw [h2, last_eq]
        rfl

end

/-! ### C49 -/

/-- `section400` says what it should. -/
theorem section400_iff (t : ℚ) (k : ℤ) : section400 t = k ↔ 400 * ((k : ℚ) - 1) < t ∧ t ≤ 400 * k := by
  unfold section400
  rw [Int.ceil_eq_iff, lt_div_iff₀ (by norm_num), div_le_iff₀ (by norm_num), _root_.mul_comm,
    _root_.mul_comm (k : ℚ)]

/-- For nondecreasing sections the count is that from the first to the last. -/
theorem sectionCount_sorted {k : ℤ} {ks : List ℤ} (h : (k :: ks).Pairwise (· ≤ ·)) :
    (sectionCount (k :: ks) : ℤ) = (k :: ks).getLast (List.cons_ne_nil _ _) - k + 1 := by
  have key : ∀ (ks : List ℤ) (k : ℤ), (k :: ks).Pairwise (· ≤ ·) →
      ks.foldl max k = (k :: ks).getLast (List.cons_ne_nil _ _) ∧ k ≤ ks.foldl max k := by
    intro ks
    induction ks with
    | nil => intro k _; exact ⟨rfl, _root_.le_refl k⟩
    | cons a ks ih =>
      intro k h
      have hka : k ≤ a := (List.pairwise_cons.mp h).1 a (List.mem_cons_self ..)
      have h' := ih a (List.pairwise_cons.mp h).2
      rw [List.foldl_cons, max_eq_right hka]
      exact ⟨h'.1.trans (by rw [List.getLast_cons (List.cons_ne_nil a ks)]), hka.trans h'.2⟩
  obtain ⟨h1, h2⟩ := key ks k h
  unfold sectionCount
  push_cast
  rw [Int.toNat_of_nonneg (by omega), h1]

/-- C49 (exact arithmetic). The number of strain peaks is the number of 400 ms sections from that of
the second hit object to the last one reached. -/
theorem C49_exact [GoSort] (fuel : Nat) (objs : List (Obj ℝ ℝ)) (hne : objs ≠ []) (diff : Difficulty ℝ)
    (p : StrainPeaks ℝ) (h : calculateStrainPeaks fuel objs diff = .ok p) :
    p.aim.length = sectionCount (objs.tail.map (fun o => section400 (o.base.startTime / diff.speed))) := by
  cases hd : createDifficultyObjects objs diff with
  | error e => unfold calculateStrainPeaks at h; rw [hd] at h; cases h
  | ok ds =>
    rcases count_grid realGrid fuel objs hne diff hd (fun _ _ => trivial) with ⟨-, h2, -⟩ | ⟨p', a, h2, -, h3⟩
    · rw [h] at h2; cases h2
    · rw [h] at h2; cases h2; exact h3

/-- The hypotheses under which `float64` computes sections exactly: every start time after the first
is finite, at most `2 ^ 53` ms, and zero or at least `2 ^ -800` ms; the clock rate is between 1/8 and
`2 ^ 100`. -/
structure Ordinary (objs : List (Obj F32 F64)) (speed : F64) : Prop where
  times : ∀ o ∈ objs.tail, ∃ v b, o.base.startTime = fin v b ∧ |v| ≤ 2 ^ 53 ∧ (v = 0 ∨ pow2 (-800) ≤ |v|)
  rate : ∃ v b, speed = fin v b ∧ 1 / 8 ≤ v ∧ v ≤ pow2 100

private theorem Ordinary.moderate {objs : List (Obj F32 F64)} {speed : F64} (h : Ordinary objs speed) :
    ∀ o ∈ objs.tail, Moderate (o.base.startTime /. speed) := by
  intro o ho
  obtain ⟨v, b, h1, h2, h3⟩ := h.times o ho
  obtain ⟨s, c, h4, h5, h6⟩ := h.rate
  rw [h1, h4]
  exact (moderate_div h2 h3 h5 h6).1

/-- C49 (IEEE). The same for `float64`, for ordinary times: `ts` are the times on the clock of the
calculation, as rounded. -/
theorem C49_ieee [GoSort] [GoLibm F64] (fuel : Nat) (objs : List (Obj F32 F64)) (hne : objs ≠ [])
    (diff : Difficulty F64) (ho : Ordinary objs diff.speed) (ts : List ℚ)
    (hts : List.Forall₂ (fun o t => ∃ b, o.base.startTime /. diff.speed = fin t b) objs.tail ts)
    (p : StrainPeaks F64) (h : calculateStrainPeaks fuel objs diff = .ok p) :
    p.aim.length = sectionCount (ts.map section400) := by
  have e : ts.map section400 = objs.tail.map (fun o => sectionOf (o.base.startTime /. diff.speed)) := by
    clear ho h
    generalize objs.tail = l at hts ⊢
    induction hts with
    | nil => rfl
    | cons h1 _ ih =>
      obtain ⟨b, h1⟩ := h1
      rw [List.map_cons, List.map_cons, h1, ih]
      rfl
  rw [e]
  cases hd : createDifficultyObjects objs diff with
  | error e => unfold calculateStrainPeaks at h; rw [hd] at h; cases h
  | ok ds =>
    rcases count_grid ieeeGrid fuel objs hne diff hd ho.moderate with ⟨-, h2, -⟩ | ⟨p', a, h2, -, h3⟩
    · rw [h] at h2; cases h2
    · rw [h] at h2; cases h2; exact h3

/-! ### C62 -/

/-- C62 (IEEE). On a parsed map with objects, ordinary times and no slider without score points, the
calculations neither panic nor hang. -/
theorem C62_returns [GoSort] [GoLibm F64] (fuel : Nat) (text : Str) (m : BeatMap F32 F64)
    (h : parseText fuel text = .ok (some m)) (hne : m.hitObjects ≠ []) (diff : Difficulty F64)
    (ho : Ordinary m.hitObjects diff.speed) (hh : ¬ ∃ o ∈ m.hitObjects, Spec.Hollow o) :
    ∃ N, ∀ fuel' ≥ N, (∃ a, calculateSingle fuel' m.hitObjects diff = .ok a) ∧
      ∃ p, calculateStrainPeaks fuel' m.hitObjects diff = .ok p := by
  rcases decorateAll_shaped diff _ (parsed_shaped h) with ⟨h1, -⟩ | ⟨-, ps, h2⟩
  · exact absurd h1 hh
  have hd : ∃ ds, createDifficultyObjects m.hitObjects diff = .ok ds := by
    unfold createDifficultyObjects
    rw [h2]
    cases ps <;> exact ⟨_, rfl⟩
  obtain ⟨ds, hd⟩ := hd
  refine ⟨sectionCount (m.hitObjects.tail.map (fun o => sectionOf (o.base.startTime /. diff.speed))), fun fuel' hf => ?_⟩
  rcases count_grid ieeeGrid fuel' m.hitObjects hne diff hd ho.moderate with ⟨h1, -⟩ | ⟨p, a, h2, h3, -⟩
  · exact absurd hf (Nat.not_le.mpr h1)
  · exact ⟨⟨a, h3⟩, ⟨p, h2⟩⟩

/-- C62 (exact arithmetic). The same without any condition on the times. -/
theorem C62_returns_exact [GoSort] (fuel : Nat) (text : Str) (m : BeatMap ℝ ℝ)
    (h : parseText fuel text = .ok (some m)) (hne : m.hitObjects ≠ []) (diff : Difficulty ℝ)
    (hh : ¬ ∃ o ∈ m.hitObjects, Spec.Hollow o) :
    ∃ N, ∀ fuel' ≥ N, (∃ a, calculateSingle fuel' m.hitObjects diff = .ok a) ∧
      ∃ p, calculateStrainPeaks fuel' m.hitObjects diff = .ok p := by
  rcases decorateAll_shaped diff _ (parsed_shaped h) with ⟨h1, -⟩ | ⟨-, ps, h2⟩
  · exact absurd h1 hh
  have hd : ∃ ds, createDifficultyObjects m.hitObjects diff = .ok ds := by
    unfold createDifficultyObjects
    rw [h2]
    cases ps <;> exact ⟨_, rfl⟩
  obtain ⟨ds, hd⟩ := hd
  refine ⟨sectionCount (m.hitObjects.tail.map (fun o => ⌈(o.base.startTime /. diff.speed) / 400⌉)), fun fuel' hf => ?_⟩
  rcases count_grid realGrid fuel' m.hitObjects hne diff hd (fun _ _ => trivial) with ⟨h1, -⟩ | ⟨p, a, h2, h3, -⟩
  · exact absurd hf (Nat.not_le.mpr h1)
  · exact ⟨⟨a, h3⟩, ⟨p, h2⟩⟩

section
variable [GoSort] [GoLibm F64]

/-- The two calculations, after the difficulty objects have been created. -/
private theorem unfolded {objs : List (Obj F32 F64)} {o : Obj F32 F64} {diff : Difficulty F64}
    {ds : List (DiffObject F32 F64)} (hd : createDifficultyObjects (o :: objs) diff = .ok ds) (fuel : Nat)
    {e : Fault} (h : singleLoop fuel ds objs (addObjectToAttribs o Attributes.zero) (SkillSet.new diff) = .error e) :
    calculateSingle fuel (o :: objs) diff = .error e ∧ calculateStrainPeaks fuel (o :: objs) diff = .error e := by
  have h0 : index (o :: objs) 0 = .ok o := rfl
  have hlen := createDifficultyObjects_length hd
  constructor
  · unfold calculateSingle calculateSingleCore
    simp only [hd, h0, ok_bind, List.tail_cons, h]
    rfl
  · rcases peakLoop_single fuel ds objs (by simpa using hlen.le) (addObjectToAttribs o Attributes.zero)
      (SkillSet.new diff) (locked_new diff) with ⟨e', e1, e2⟩ | ⟨at2, sk2, e1, -⟩
    · rw [h] at e1
      cases e1
      have hpk : calculateStrainPeaks fuel (o :: objs) diff =
          peakLoop fuel ds ⟨(SkillSet.new (S := F32) diff).aim, (SkillSet.new (S := F32) diff).speed,
            (SkillSet.new (S := F32) diff).flashlight⟩ >>= fun sk => getPeaks sk.aim sk.speed sk.flashlight diff := by
        unfold calculateStrainPeaks
        rw [hd]
        rfl
      rw [hpk, e2]
      rfl
    · rw [h] at e1; cases e1

/-- C62 (IEEE). If after one or more objects at ordinary times (not counting the first object) one is
later than `2 ^ 62` on the clock of the calculation, or infinitely late, the calculations hang. -/
theorem C62_hang (fuel : Nat) (text : Str) (m : BeatMap F32 F64) (h : parseText fuel text = .ok (some m))
    (diff : Difficulty F64) (first second late : Obj F32 F64) (before after : List (Obj F32 F64))
    (he : m.hitObjects = first :: second :: before ++ late :: after)
    (ho : Ordinary (first :: second :: before) diff.speed)
    (hl : Fl.lt (fin (2 ^ 62) false) (late.base.startTime /. diff.speed) = true)
    (hh : ¬ ∃ o ∈ m.hitObjects, Spec.Hollow o) (fuel' : Nat) :
    calculateSingle fuel' m.hitObjects diff = .error .hang ∧
      calculateStrainPeaks fuel' m.hitObjects diff = .error .hang := by
  rcases decorateAll_shaped diff _ (parsed_shaped h) with ⟨h1, -⟩ | ⟨-, ps, h2⟩
  · exact absurd h1 hh
  have hd : ∃ ds, createDifficultyObjects m.hitObjects diff = .ok ds := by
    unfold createDifficultyObjects
    rw [h2]
    cases ps <;> exact ⟨_, rfl⟩
  obtain ⟨ds, hd⟩ := hd
  have hst := starts hd
  have hlen := createDifficultyObjects_length hd
  rw [he] at hd hst hlen ⊢
  simp only [List.cons_append, List.tail_cons, List.length_cons, Nat.add_sub_cancel] at hst hlen
  rw [List.map_cons, List.map_append, List.map_cons, List.map_eq_cons_iff] at hst
  obtain ⟨d, ds', rfl, hd1, hst⟩ := hst
  rw [List.map_eq_append_iff] at hst
  obtain ⟨as, bs, rfl, ha, hb⟩ := hst
  rw [List.map_eq_cons_iff] at hb
  obtain ⟨c, es, rfl, hc, -⟩ := hb
  have hmod := ho.moderate
  refine unfolded hd fuel' ?_
  refine singleLoop_stuck_first fuel' d as c es _ ?_ _ diff ?_ (by rw [hc]; exact hl)
  · have e : ((second :: before).append (late :: after)).length = before.length + 1 + (after.length + 1) := by
      rw [List.append_eq, List.length_append, List.length_cons, List.length_cons]
    rw [e]
    simp only [List.length_append, List.length_cons] at hlen ⊢
    omega
  · intro x hx
    rcases List.mem_cons.mp hx with rfl | hx
    · rw [hd1]; exact hmod second (by simp)
    · have : x.startTime ∈ as.map (·.startTime) := List.mem_map_of_mem hx
      rw [ha] at this
      obtain ⟨y, hy, e⟩ := List.mem_map.mp this
      rw [← e]
      exact hmod y (by simp [hy])

/-- C62 (IEEE). If the second object is at a positive time of at most `2 ^ -1067` ms on the clock of
the calculation, the calculations panic. -/
theorem C62_panic (fuel : Nat) (text : Str) (m : BeatMap F32 F64) (h : parseText fuel text = .ok (some m))
    (diff : Difficulty F64) (first second : Obj F32 F64) (after : List (Obj F32 F64))
    (he : m.hitObjects = first :: second :: after) (v : ℚ) (b : Bool)
    (hv : second.base.startTime /. diff.speed = fin v b) (h0 : 0 < v) (h1 : v ≤ pow2 (-1067)) (fuel' : Nat) :
    calculateSingle (fuel' + 1) m.hitObjects diff = .error .panic ∧
      calculateStrainPeaks (fuel' + 1) m.hitObjects diff = .error .panic := by
  rcases decorateAll_shaped diff _ (parsed_shaped h) with ⟨-, h2⟩ | ⟨-, ps, h2⟩
  · have hc : createDifficultyObjects m.hitObjects diff = .error .panic := by
      unfold createDifficultyObjects; rw [h2]; rfl
    constructor
    · unfold calculateSingle calculateSingleCore
      rw [hc]; rfl
    · unfold calculateStrainPeaks
      rw [hc]; rfl
  have hd : ∃ ds, createDifficultyObjects m.hitObjects diff = .ok ds := by
    unfold createDifficultyObjects
    rw [h2]
    cases ps <;> exact ⟨_, rfl⟩
  obtain ⟨ds, hd⟩ := hd
  have hst := starts hd
  rw [he] at hd hst ⊢
  rw [List.tail_cons, List.map_cons, List.map_eq_cons_iff] at hst
  obtain ⟨d, ds', rfl, hd1, hst⟩ := hst
  refine unfolded hd _ ?_
  have hi : index (second :: after) 0 = .ok second := rfl
  rw [singleLoop, hi, ok_bind, Grid.process_error (locked_new diff)
    (process_tiny (hd1.trans hv) h0 h1 fuel' (sk := (SkillSet.new (S := F32) diff).aim) rfl rfl)]
  rfl

end

/-- C49: sections 5, 7, 8, 13 and 15 are seen, hence eleven peaks. -/
example : sectionCount (([1700, 2600, 3000, 5000, 5900] : List ℚ).map section400) = 11 := by decide +kernel

/-- The clock times of the objects of a sample after the first, and the number of its objects. -/
def Sample.clockTimes (text : Str) (mods : Modifier) : Option (Nat × F64 × List F64) :=
  Sample.observe text (fun m =>
    (m.hitObjects.length, (m.difficulty.setMods mods).speed,
      m.hitObjects.tail.map (fun o => o.base.startTime /. (m.difficulty.setMods mods).speed)))

/-- C49, C62: the sample is ordinary and its clock times are as above. -/
example : Sample.clockTimes Sample.stacked Mod.None =
    some (6, fin 1 false, [fin 1700 false, fin 2600 false, fin 3000 false, fin 5000 false, fin 5900 false]) := by
  decide +kernel

/-- C49, C62: the calculation on the sample returns, with eleven peaks. -/
example : Sample.observe Sample.stacked (fun m =>
    (@calculateStrainPeaks F32 F64 _ Sample.libm _ _ 20 m.hitObjects m.difficulty).toOption.map
      (fun p => p.aim.length)) = some (some 11) := by decide +kernel

/-- The head of a sample file. -/
def Sample.withTimes (l : List String) : Str :=
  ("osu file format v14\n[Metadata]\nTitle:a\n[TimingPoints]\n0,500,4,1,0,100,1,0\n[HitObjects]\n".toList ++
    (l.map (fun s => ("100,100," ++ s ++ ",1,0\n").toList)).flatten)

/-- C62: a map that hangs. -/
example : Sample.clockTimes (Sample.withTimes ["0", "500", "1e19"]) Mod.None =
    some (3, fin 1 false, [fin 500 false, fin 10000000000000000000 false]) := by decide +kernel

/-- C62: another. -/
example : Sample.clockTimes (Sample.withTimes ["0", "500", "Inf"]) Mod.DoubleTime =
    some (3, fin 1.5 false, [lit (1000 / 3), inf false]) := by decide +kernel

/-- C62: a map on which the calculations panic. -/
example : Sample.clockTimes (Sample.withTimes ["0", "5e-324", "300"]) Mod.None =
    some (3, fin 1 false, [fin (pow2 (-1074)) false, fin 300 false]) := by decide +kernel

end GosuPP.Props
