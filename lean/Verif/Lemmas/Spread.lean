import Verif.Lemmas.Harder
import Verif.Spec.Spread

/-! Maps of which one has wider gaps. -/

namespace GosuPP.Exactly
open Go Spec
attribute [local instance] exactLibm

theorem jumpLength_anti {c c' x x' : ℝ} (hc : 0 < c') (hcc : c' ≤ c) (hx : 0 ≤ x) (hxx : x ≤ x') :
    jumpLength c x ≤ jumpLength c' x' := by
  unfold jumpLength
  have hc0 : 0 < c := hc.trans_le hcc
  have h1 : (1 : ℝ) ≤ if c < 30 then 1 + min (30 - c) 5 / 50 else 1 := by
    split
    · have : (0 : ℝ) ≤ min (30 - c) 5 := le_min (by linarith) (by norm_num)
      linarith [div_nonneg this (by norm_num : (0 : ℝ) ≤ 50)]
    · exact le_rfl
  have h2 : (if c < 30 then 1 + min (30 - c) 5 / 50 else 1 : ℝ) ≤ if c' < 30 then 1 + min (30 - c') 5 / 50 else 1 := by
    by_cases h : c < 30
    · rw [if_pos h, if_pos (hcc.trans_lt h)]
      have : min (30 - c) 5 ≤ min (30 - c') 5 := min_le_min_right _ (by linarith)
      linarith
    · rw [if_neg h]
      split
      · have : (0 : ℝ) ≤ min (30 - c') 5 := le_min (by linarith) (by norm_num)
        linarith [div_nonneg this (by norm_num : (0 : ℝ) ≤ 50)]
      · exact le_rfl
  have h3 : 50 / c ≤ 50 / c' := div_le_div_of_nonneg_left (by norm_num) hc hcc
  have h4 : 0 ≤ 50 / c := by positivity
  exact mul_le_mul (mul_le_mul hxx h3 h4 (hx.trans hxx)) h2 (by linarith) (mul_nonneg (hx.trans hxx) (h4.trans h3))

theorem decorate_plain {d : Difficulty (Option ℝ)} {o : Obj (Option ℝ) (Option ℝ)} (h : o.isSlider = false) :
    decorate d o = .ok ⟨o, none⟩ := by
  unfold Obj.isSlider at h
  unfold decorate
  cases hk : o.kind <;> simp_all <;> rfl

/-- The distance of an object without a slider before it. -/
theorem plain_distance {d : Difficulty (Option ℝ)} {c : ℝ} (hc : 0 < c) (hd : d.circleRadius = some c)
    {x y : Obj (Option ℝ) (Option ℝ)} {ll : Option (PObj (Option ℝ) (Option ℝ))} {p q : ℝ × ℝ}
    (hx : x.base.getStackedStartPositionMod d.mods = ⟨some p.1, some p.2⟩)
    (hy : y.base.getStackedStartPositionMod d.mods = ⟨some q.1, some q.2⟩) :
    (newDiffObject ⟨y, none⟩ ll ⟨x, none⟩ d).travelDistance +. (newDiffObject ⟨y, none⟩ ll ⟨x, none⟩ d).jumpDistance =
      some (if y.isSpinner || x.isSpinner then 0 else jumpLength c (Real.sqrt (apart2 p q))) := by
  have hang : ∀ (o : DiffObject (Option ℝ) (Option ℝ)), (setAngle d ll ⟨x, none⟩ o).travelDistance = o.travelDistance ∧
      (setAngle d ll ⟨x, none⟩ o).jumpDistance = o.jumpDistance := by
    intro o
    unfold setAngle
    split
    · exact ⟨rfl, rfl⟩
    · split <;> exact ⟨rfl, rfl⟩
  have h0 : (lit 0 : Option ℝ) = some 0 := by rw [Exact.lit]; norm_num
  unfold newDiffObject setDistances
  dsimp only
  split
  · dsimp only
    rw [h0, Exact.add, add_zero]
  · rw [(hang _).1, (hang _).2]
    unfold setTravel getEndCursorPosition
    dsimp only
    have hsq : (q.1 - p.1) ^ 2 + (q.2 - p.2) ^ 2 = Real.sqrt (apart2 p q) ^ 2 := by
      rw [Real.sq_sqrt (by unfold apart2; positivity)]; rfl
    rw [hx, hy, hd, jump_exact hc (Real.sqrt_nonneg _) hsq, h0, Exact.add, zero_add]

theorem fold_ahead {fuel : ℕ} {ds ds' : List (DiffObject (Option ℝ) (Option ℝ))} (h : List.Forall₂ Wider ds ds')
    {sk sk' : Skill (Option ℝ) (Option ℝ)} (hs : Ahead sk sk') :
    Both Ahead (ds.foldlM (fun s o => s.process fuel o) sk) (ds'.foldlM (fun s o => s.process fuel o) sk') := by
  induction h generalizing sk sk' with
  | nil => exact hs
  | cons hc _ ih =>
    rw [List.foldlM_cons, List.foldlM_cons]
    exact (process_ahead hs hc fuel).bind fun r r' hr => ih hr

variable {d d' : Difficulty (Option ℝ)} {c c' : ℝ} {pos pos' : ℕ → ℝ × ℝ} {objs objs' : List (Obj (Option ℝ) (Option ℝ))}

theorem spread_objects (h : Spread d.mods d'.mods pos pos' objs objs') (hd : Stricter d d') (hc : 0 < c') (hcc : c' ≤ c)
    (er : d.circleRadius = some c) (er' : d'.circleRadius = some c') {ds ds' : List (DiffObject (Option ℝ) (Option ℝ))}
    (h1 : createDifficultyObjects objs d = .ok ds) (h2 : createDifficultyObjects objs' d' = .ok ds') :
    List.Forall₂ Wider ds ds' := by
  obtain ⟨r, hr, es, es'⟩ := hd.speed
  rw [List.forall₂_iff_get]
  have hlen : ds.length = ds'.length := by
    rw [createDifficultyObjects_length h1, createDifficultyObjects_length h2, h.length]
  refine ⟨hlen, fun i hi hi' => ?_⟩
  rw [List.get_eq_getElem, List.get_eq_getElem]
  obtain ⟨a, b, ll, x, y, hx, hy, ha, hb, e⟩ := createDifficultyObjects_get h1 (List.getElem?_eq_getElem hi)
  obtain ⟨a', b', ll', x', y', hx', hy', ha', hb', e'⟩ := createDifficultyObjects_get h2 (List.getElem?_eq_getElem hi')
  have px : x.isSlider = false := h.plain x (List.mem_append_left _ (List.mem_of_getElem? hx))
  have py : y.isSlider = false := h.plain y (List.mem_append_left _ (List.mem_of_getElem? hy))
  have px' : x'.isSlider = false := h.plain x' (List.mem_append_right _ (List.mem_of_getElem? hx'))
  have py' : y'.isSlider = false := h.plain y' (List.mem_append_right _ (List.mem_of_getElem? hy'))
  rw [decorate_plain px] at ha
  rw [decorate_plain py] at hb
  rw [decorate_plain px'] at ha'
  rw [decorate_plain py'] at hb'
  cases ha; cases hb; cases ha'; cases hb'
  obtain ⟨sx, t, et, et'⟩ := h.alike i x x' hx hx'
  obtain ⟨sy, u, eu, eu'⟩ := h.alike (i + 1) y y' hy hy'
  obtain ⟨k1, k2, k3⟩ := times_self hr es (a := ⟨x, none⟩) (b := ⟨y, none⟩) rfl rfl (c := ll) et eu
  obtain ⟨l1, l2, l3⟩ := times_self hr es' (a := ⟨x', none⟩) (b := ⟨y', none⟩) rfl rfl (c := ll') et' eu'
  rw [e, e']
  have b1 := (newDiffObject_times (⟨y, none⟩ : PObj (Option ℝ) (Option ℝ)) ll ⟨x, none⟩ d).1
  have b2 := (newDiffObject_times (⟨y', none⟩ : PObj (Option ℝ) (Option ℝ)) ll' ⟨x', none⟩ d').1
  refine ⟨by rw [b1, b2]; exact sy, by rw [b1, b2], ⟨_, le_max_right _ _, k3, l3⟩, ⟨_, k1, l1⟩, ⟨_, k2, l2⟩, ?_⟩
  rw [plain_distance (hc.trans_le hcc) er (h.place i x hx) (h.place (i + 1) y hy),
    plain_distance hc er' (h.place' i x' hx') (h.place' (i + 1) y' hy'), sx, sy]
  have hj := jumpLength_anti hc hcc (Real.sqrt_nonneg (apart2 (pos i) (pos (i + 1))))
    (Real.sqrt_le_sqrt (h.wider i (by have := (List.getElem?_eq_some_iff.mp hy).1; omega)))
  split
  · exact .const le_rfl
  · exact .of_some (jumpLength_nonneg (hc.trans_le hcc) (Real.sqrt_nonneg _)) hj

theorem spread_core [GoSort] (h : Spread d.mods d'.mods pos pos' objs objs') (hd : Stricter d d') (hc : 0 < c') (hcc : c' ≤ c)
    (er : d.circleRadius = some c) (er' : d'.circleRadius = some c') {fuel : ℕ} {x x' : Attributes (Option ℝ) × SkillSet (Option ℝ) (Option ℝ)}
    (h1 : calculateSingleCore fuel objs d = .ok x) (h2 : calculateSingleCore fuel objs' d' = .ok x') :
    Ahead x.2.speed x'.2.speed ∧ (∃ attr, x.1 = x.2.getStars d attr) ∧ ∃ attr, x'.1 = x'.2.getStars d' attr := by
  unfold calculateSingleCore at h1 h2
  obtain ⟨ds, hds, h1⟩ := bind_ok h1
  obtain ⟨ds', hds', h2⟩ := bind_ok h2
  obtain ⟨o, -, h1⟩ := bind_ok h1
  obtain ⟨o', -, h2⟩ := bind_ok h2
  obtain ⟨⟨at1, s⟩, hl, h1⟩ := bind_ok h1
  obtain ⟨⟨at2, s'⟩, hl', h2⟩ := bind_ok h2
  rw [← Except.ok.inj h1, ← Except.ok.inj h2]
  have f1 := (singleLoop_fold hl).2.2
  have f2 := (singleLoop_fold hl').2.2
  have := fold_ahead (fuel := fuel) (spread_objects h hd hc hcc er er' hds hds') (ahead_new hd)
  refine ⟨?_, ⟨_, rfl⟩, ⟨_, rfl⟩⟩
  have e1 : (SkillSet.new d : SkillSet (Option ℝ) (Option ℝ)).speed = Skill.newSpeed d := rfl
  have e2 : (SkillSet.new d' : SkillSet (Option ℝ) (Option ℝ)).speed = Skill.newSpeed d' := rfl
  rw [e1] at f1
  rw [e2] at f2
  rw [f1, f2] at this
  exact this

end GosuPP.Exactly
