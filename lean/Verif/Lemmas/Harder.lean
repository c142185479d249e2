import Verif.Lemmas.Window
import Verif.Lemmas.SteadyMap

/-! Calculations for two hit windows. -/

namespace GosuPP.Exactly
open Go Spec
attribute [local instance] exactLibm

/-! ### The objects of a map -/

theorem len_self (v : Vec (Option ℝ)) : NoMore (Go.up v.len : Option ℝ) (Go.up v.len) := by
  rw [Exact.up]
  unfold Vec.len Math32.sqrt
  simp only [Exact.up, Exact.down]
  exact NoMore.sqrt_self _

theorem dst_self (u v : Vec (Option ℝ)) : NoMore (Go.up (u.dst v) : Option ℝ) (Go.up (u.dst v)) := by
  rw [Exact.up]
  unfold Vec.dst Math32.sqrt
  simp only [Exact.up, Exact.down]
  exact NoMore.sqrt_self _

theorem lazyStep_self {o : Obj (Option ℝ) (Option ℝ)} {m : Modifier} {sf : Option ℝ} {p : TickPoint (Option ℝ)} {last : Bool}
    {st st' : LazyState (Option ℝ)} (h : lazyStep o m sf p last st = .ok st')
    (hs : NoMore st.travelDistance st.travelDistance) : NoMore st'.travelDistance st'.travelDistance := by
  have key : ∀ (len req : Option ℝ) (cur : Vec (Option ℝ)), (req = lit 50 ∨ req = lit 90) →
      NoMore (if len >. req then
          { st with cursor := cur, travelDistance := st.travelDistance +. down (len *. ((len -. req) /. len)) } else st).travelDistance
        (if len >. req then
          { st with cursor := cur, travelDistance := st.travelDistance +. down (len *. ((len -. req) /. len)) } else st).travelDistance := by
    intro len req cur hreq
    split
    · rename_i hgt
      obtain ⟨r, hr, rfl⟩ : ∃ r : ℝ, 0 < r ∧ req = some r := by
        rcases hreq with rfl | rfl <;> rw [Exact.lit]
        · exact ⟨_, by norm_num, rfl⟩
        · exact ⟨_, by norm_num, rfl⟩
      rcases len with _ | len
      · cases hgt
      · rw [Exact.lt] at hgt
        have hgt : r < len := by simpa using hgt
        have hl : 0 < len := hr.trans hgt
        refine hs.add ?_
        rw [Exact.down, Exact.sub, Exact.div _ hl.ne', Exact.mul]
        exact .const (mul_nonneg hl.le (div_nonneg (by linarith) hl.le))
    · exact hs
  have hreq : ∀ b : Bool, (if b then (lit 50 : Option ℝ) else lit 90) = lit 50 ∨ (if b then (lit 50 : Option ℝ) else lit 90) = lit 90 := by
    intro b; cases b
    · exact .inr rfl
    · exact .inl rfl
  unfold lazyStep at h
  cases last
  · simp only [Bool.false_eq_true, if_false] at h
    obtain ⟨pos, -, h⟩ := bind_ok h
    rw [← Except.ok.inj h]
    exact key _ _ _ (hreq _)
  · simp only [if_true] at h
    obtain ⟨pos, -, h⟩ := bind_ok h
    rw [← Except.ok.inj h]
    exact key _ _ _ (.inr rfl)

theorem lazyLoop_self {o : Obj (Option ℝ) (Option ℝ)} {m : Modifier} {sf : Option ℝ} {ps : List (TickPoint (Option ℝ))}
    {st st' : LazyState (Option ℝ)} (h : lazyLoop o m sf ps st = .ok st')
    (hs : NoMore st.travelDistance st.travelDistance) : NoMore st'.travelDistance st'.travelDistance := by
  induction ps generalizing st with
  | nil => cases h; exact hs
  | cons p ps ih =>
    cases ps with
    | nil => exact lazyStep_self h hs
    | cons q ps =>
      rw [lazyLoop] at h
      · obtain ⟨u, hu, h⟩ := bind_ok h
        exact ih h (lazyStep_self hu hs)
      · simp

/-- The bonus for repeats is never negative, whatever the number of repeats. -/
theorem bonus_self (n : ℤ) :
    NoMore (GoLibm.pow (lit 1 +. ofInt (n - 1) /. lit 2.5) (lit (1 / 2.5)) : Option ℝ)
      (GoLibm.pow (lit 1 +. ofInt (n - 1) /. lit 2.5) (lit (1 / 2.5))) := by
  rw [Exact.ofInt, Exact.lit 2.5, Exact.div _ (by norm_num), Exact.lit 1, Exact.add, Exact.lit, Exact.pow]
  refine .const ?_
  generalize ((1 : ℚ) : ℝ) + ((n - 1 : ℤ) : ℝ) / ((2.5 : ℚ) : ℝ) = x
  rcases le_or_gt 0 x with hx | hx
  · exact Real.rpow_nonneg hx _
  · rw [Real.rpow_def_of_neg hx]
    refine mul_nonneg (Real.exp_pos _).le (Real.cos_nonneg_of_mem_Icc ⟨?_, ?_⟩) <;> push_cast <;>
      nlinarith [Real.pi_pos]

theorem lazy_self {o : Obj (Option ℝ) (Option ℝ)} {s : SliderData (Option ℝ) (Option ℝ)} {d : Difficulty (Option ℝ)}
    {l : Lazy (Option ℝ) (Option ℝ)} (h : newLazySlider o s d = .ok l) :
    NoMore l.travelDistance l.travelDistance := by
  unfold newLazySlider at h
  obtain ⟨last, -, h⟩ := bind_ok h
  obtain ⟨e, -, h⟩ := bind_ok h
  obtain ⟨st, hst, h⟩ := bind_ok h
  rw [← Except.ok.inj h]
  exact (lazyLoop_self hst (.lit (by norm_num))).mul (by rw [Exact.down]; exact bonus_self _)

theorem distance_self {d : Difficulty (Option ℝ)} {x : Obj (Option ℝ) (Option ℝ)} {a b : PObj (Option ℝ) (Option ℝ)}
    {c : Option (PObj (Option ℝ) (Option ℝ))} (h : decorate d x = .ok a) :
    NoMore ((newDiffObject b c a d).travelDistance +. (newDiffObject b c a d).jumpDistance)
      ((newDiffObject b c a d).travelDistance +. (newDiffObject b c a d).jumpDistance) := by
  have hl : ∀ l, a.lazy = some l → NoMore l.travelDistance l.travelDistance := by
    intro l hl
    unfold decorate at h
    cases hk : x.kind with
    | slider s =>
      rw [hk] at h
      obtain ⟨l', hl', h⟩ := bind_ok h
      rw [← Except.ok.inj h] at hl
      cases hl
      exact lazy_self hl'
    | circle => rw [hk] at h; rw [← Except.ok.inj h] at hl; cases hl
    | spinner => rw [hk] at h; rw [← Except.ok.inj h] at hl; cases hl
  have hang : ∀ (o : DiffObject (Option ℝ) (Option ℝ)), (setAngle d c a o).travelDistance = o.travelDistance ∧
      (setAngle d c a o).jumpDistance = o.jumpDistance := by
    intro o
    unfold setAngle
    split
    · exact ⟨rfl, rfl⟩
    · split <;> exact ⟨rfl, rfl⟩
  unfold newDiffObject setDistances
  dsimp only
  split
  · exact (NoMore.lit (by norm_num)).add (.lit (by norm_num))
  · rw [(hang _).1, (hang _).2]
    unfold setTravel
    dsimp only
    split
    · rename_i l hal
      refine NoMore.add ?_ (dst_self _ _)
      rw [Exact.up]
      exact hl l hal
    · exact (NoMore.lit (by norm_num)).add (dst_self _ _)

theorem times_self {d : Difficulty (Option ℝ)} {r : ℝ} (hr : 0 < r) (hs : d.speed = some r)
    {x y : Obj (Option ℝ) (Option ℝ)} {a b : PObj (Option ℝ) (Option ℝ)} (ha : a.obj = x) (hb : b.obj = y)
    {c : Option (PObj (Option ℝ) (Option ℝ))} {t u : ℝ} (hx : x.base.startTime = some t) (hy : y.base.startTime = some u) :
    (newDiffObject b c a d).startTime = some (u / r) ∧ (newDiffObject b c a d).deltaTime = some ((u - t) / r) ∧
      (newDiffObject b c a d).strainTime = some (max ((u - t) / r) 25) := by
  obtain ⟨-, h2, -, h4, h5⟩ := newDiffObject_times b c a d
  rw [h2, h4, h5, ha, hb, hx, hy, hs, Exact.sub, Exact.div _ hr.ne', Exact.div _ hr.ne', Exact.lit, Exact.fmax]
  refine ⟨rfl, rfl, ?_⟩
  norm_num

theorem objects_self {d : Difficulty (Option ℝ)} {r : ℝ} (hr : 0 < r) (hs : d.speed = some r)
    {objs : List (Obj (Option ℝ) (Option ℝ))} (ht : Timed objs) {ds : List (DiffObject (Option ℝ) (Option ℝ))}
    (h : createDifficultyObjects objs d = .ok ds) : ∀ o ∈ ds, Wider o o := by
  intro o ho
  obtain ⟨i, hi, rfl⟩ := List.getElem_of_mem ho
  obtain ⟨a, b, c, x, y, hx, hy, ha, hb, e⟩ := createDifficultyObjects_get h (List.getElem?_eq_getElem hi)
  obtain ⟨t, et⟩ := ht x (List.mem_of_getElem? hx)
  obtain ⟨u, eu⟩ := ht y (List.mem_of_getElem? hy)
  obtain ⟨h1, h2, h3⟩ := times_self hr hs (decorate_obj ha).1 (decorate_obj hb).1 (c := c) et eu
  rw [e]
  exact ⟨rfl, rfl, ⟨_, le_max_right _ _, h3, h3⟩, ⟨_, h1, h1⟩, ⟨_, h2, h2⟩, distance_self ha⟩

/-! ### Calculations -/

/-- The numbers of objects. -/
def counts (a : Attributes (Option ℝ)) : ℤ × ℤ × ℤ × ℤ × ℤ := (a.objectCount, a.circles, a.sliders, a.spinners, a.maxCombo)

theorem counts_add {a a' : Attributes (Option ℝ)} (h : counts a' = counts a) (o : Obj (Option ℝ) (Option ℝ)) :
    counts (addObjectToAttribs o a') = counts (addObjectToAttribs o a) := by
  unfold counts at h
  simp only [Prod.mk.injEq] at h
  obtain ⟨h1, h2, h3, h4, h5⟩ := h
  unfold addObjectToAttribs counts
  cases o.kind <;> simp only [h1, h2, h3, h4, h5]

variable {d : Difficulty (Option ℝ)} {w : Option ℝ} [GoSort]

theorem singleLoop_ahead {fuel : ℕ} {ds : List (DiffObject (Option ℝ) (Option ℝ))} (hds : ∀ o ∈ ds, Wider o o)
    {objs : List (Obj (Option ℝ) (Option ℝ))} {attr attr' : Attributes (Option ℝ)} (ha : counts attr' = counts attr)
    {s s' : SkillSet (Option ℝ) (Option ℝ)} (h : SetAhead d { d with hit300 := w } s s') :
    Both (fun x x' => counts x'.1 = counts x.1 ∧ SetAhead d { d with hit300 := w } x.2 x'.2) (singleLoop fuel ds objs attr s)
      (singleLoop fuel ds objs attr' s') := by
  induction ds generalizing objs attr attr' s s' with
  | nil => exact ⟨ha, h⟩
  | cons c ds ih =>
    unfold singleLoop
    refine (Both.refl (index objs 0)).bind fun o o' ho => ?_
    subst ho
    exact (set_process h fuel (hds c List.mem_cons_self)).bind fun r r' hr =>
      ih (fun o ho => hds o (List.mem_cons_of_mem _ ho)) (counts_add ha o) hr

theorem singleCore_ahead {objs : List (Obj (Option ℝ) (Option ℝ))} (ht : Timed objs) (hd : Stricter d { d with hit300 := w })
    (fuel : ℕ) :
    Both (fun x x' => HarderToTap x.1 x'.1 ∧ SetAhead d { d with hit300 := w } x.2 x'.2) (calculateSingleCore fuel objs d)
      (calculateSingleCore fuel objs { d with hit300 := w }) := by
  obtain ⟨r, hr, hs, -⟩ := hd.speed
  unfold calculateSingleCore
  rw [create_window (d := d) (w := w)]
  cases hds : createDifficultyObjects objs d with
  | error e => exact rfl
  | ok ds =>
    simp only [ok_bind]
    refine (Both.refl (index objs 0)).bind fun o o' ho => ?_
    subst ho
    refine (singleLoop_ahead (objects_self hr hs ht hds) rfl (set_new hd)).bind fun x x' hx => ?_
    exact ⟨set_stars hx.2 hx.1, hx.2⟩

theorem stepLoop_ahead {fuel : ℕ} {ds : List (DiffObject (Option ℝ) (Option ℝ))} (hds : ∀ o ∈ ds, Wider o o)
    {objs : List (Obj (Option ℝ) (Option ℝ))} {attr attr' : Attributes (Option ℝ)} (ha : counts attr' = counts attr)
    {s s' : SkillSet (Option ℝ) (Option ℝ)} (h : SetAhead d { d with hit300 := w } s s') :
    Both (fun x x' => List.Forall₂ HarderToTap x.1 x'.1 ∧ SetAhead d { d with hit300 := w } x.2 x'.2)
      (stepLoop fuel d ds objs attr s) (stepLoop fuel { d with hit300 := w } ds objs attr' s') := by
  induction ds generalizing objs attr attr' s s' with
  | nil => exact ⟨.nil, h⟩
  | cons c ds ih =>
    unfold stepLoop
    refine (Both.refl (index objs 0)).bind fun o o' ho => ?_
    subst ho
    refine (set_process h fuel (hds c List.mem_cons_self)).bind fun r r' hr => ?_
    have hst := set_stars hr (counts_add ha o)
    refine (ih (fun o ho => hds o (List.mem_cons_of_mem _ ho)) (attr := r.getStars d (addObjectToAttribs o attr))
      (attr' := r'.getStars { d with hit300 := w } (addObjectToAttribs o attr')) hst.counts hr).bind fun x x' hx => ?_
    exact ⟨.cons hst hx.1, hx.2⟩

theorem stepCore_ahead {objs : List (Obj (Option ℝ) (Option ℝ))} (ht : Timed objs) (hd : Stricter d { d with hit300 := w })
    (fuel : ℕ) :
    Both (fun x x' => List.Forall₂ HarderToTap x.1 x'.1 ∧ SetAhead d { d with hit300 := w } x.2 x'.2)
      (calculateStepCore fuel objs d) (calculateStepCore fuel objs { d with hit300 := w }) := by
  obtain ⟨r, hr, hs, -⟩ := hd.speed
  unfold calculateStepCore
  rw [create_window (d := d) (w := w)]
  cases hds : createDifficultyObjects objs d with
  | error e => exact rfl
  | ok ds =>
    simp only [ok_bind]
    split
    · exact rfl
    · refine (Both.refl (index objs 0)).bind fun o o' ho => ?_
      subst ho
      refine (stepLoop_ahead (objects_self hr hs ht hds) rfl (set_new hd)).bind fun x x' hx => ?_
      have hz : NoMore (lit 0 : Option ℝ) (lit 0) := .lit (by norm_num)
      have h0 : HarderToTap (addObjectToAttribs o Attributes.zero) (addObjectToAttribs o Attributes.zero) := by
        refine ⟨rfl, rfl, rfl, rfl, ?_, ?_⟩ <;> unfold addObjectToAttribs <;> cases o.kind <;> exact hz
      exact ⟨.cons h0 hx.1, hx.2⟩

end GosuPP.Exactly
