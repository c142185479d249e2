import Verif.Spec.Motion

/-! Difficulty calculations do not see rigid motions and steady shifts in time. -/

namespace GosuPP
open Go Spec

/-- Two results are the same fault or related values. -/
def Both {α β : Type} (P : α → β → Prop) : Result α → Result β → Prop
  | .ok a, .ok b => P a b
  | .error e, .error e' => e = e'
  | _, _ => False

namespace Both
variable {α β γ δ : Type} {P : α → β → Prop} {Q : γ → δ → Prop}

theorem ok {a : α} {b : β} (h : P a b) : Both P (.ok a) (.ok b) := h

theorem bind {x : Result α} {y : Result β} {f : α → Result γ} {k : β → Result δ} (h : Both P x y)
    (hf : ∀ a b, P a b → Both Q (f a) (k b)) : Both Q (x >>= f) (y >>= k) := by
  cases x <;> cases y
  · exact h
  · exact h.elim
  · exact h.elim
  · exact hf _ _ h

theorem mono {P' : α → β → Prop} {x : Result α} {y : Result β} (h : Both P x y) (hp : ∀ a b, P a b → P' a b) :
    Both P' x y := by
  cases x <;> cases y
  · exact h
  · exact h.elim
  · exact h.elim
  · exact hp _ _ h

theorem eq {x y : Result α} (h : Both Eq x y) : y = x := by
  cases x <;> cases y
  · rw [show _ = _ from h]
  · exact h.elim
  · exact h.elim
  · rw [show _ = _ from h]

theorem refl (x : Result α) : Both Eq x x := by
  cases x <;> rfl

theorem of_eq {x y : Result α} (h : y = x) : Both Eq x y := h ▸ refl x

theorem of_map {g : α → β} {x : Result α} {y : Result β} (h : y = x.map g) : Both (fun a b => b = g a) x y := by
  subst h
  cases x <;> rfl

end Both

/-- Positions at the same index of related lists. -/
theorem get_both {α β : Type} {P : α → β → Prop} {l : List α} {l' : List β} (h : List.Forall₂ P l l') (i : Int) :
    Both P (index l i) (index l' i) := by
  unfold index
  split
  · exact rfl
  · generalize i.toNat = n
    induction h generalizing n with
    | nil => exact rfl
    | cons hp _ ih => cases n with
      | zero => exact hp
      | succ n => exact ih n

variable {S D : Type} [GoFloat S] [GoFloat D] [GoConv S D] [GoLibm D]
variable {g : Vec S → Vec S} {d d' : Difficulty D} {R RS RE : D → D → Prop}

section
variable (hg : Rigid (S := S) (D := D) g) (ht : Steady d d' R RS RE)

theorem Spec.Moved.spinner {m : Modifier} {o o' : Obj S D} (h : Moved R g m o o') : o'.isSpinner = o.isSpinner := by
  have := h.kind
  unfold Obj.isSpinner
  revert this
  cases o.kind <;> cases o'.kind <;> simp [SameKind]

omit [GoFloat D] in
/-- The states of the lazy slider loop. -/
structure LazyMoved (g : Vec S → Vec S) (a b : LazyState S) : Prop where
  cursor : b.cursor = g a.cursor
  stop : b.endPosition = g a.endPosition
  travel : b.travelDistance = a.travelDistance

include hg in
theorem lazyStep_moved {o o' : Obj S D} (ho : Moved R g d.mods o o') (sf : D) {p p' : TickPoint D}
    (hp : R p.time p'.time ∧ p'.isReverse = p.isReverse) (last : Bool) {st st' : LazyState S}
    (hs : LazyMoved g st st') :
    Both (LazyMoved g) (lazyStep o d.mods sf p last st) (lazyStep o' d.mods sf p' last st') := by
  rcases st with ⟨c, e, t⟩
  rcases st' with ⟨c', e', t'⟩
  obtain ⟨h1, h2, h3⟩ := hs
  simp only at h1 h2 h3
  subst h1 h2 h3
  -- the movement is towards one of two points
  have key : ∀ (w : Vec S) (req : D) (f : Bool), LazyMoved g
      (let st := if GoFloat.lt req (sf *. up (w.sub c).len) then
          let ratio := (sf *. up (w.sub c).len -. req) /. (sf *. up (w.sub c).len)
          { cursor := c.add ((w.sub c).scl (down ratio)), endPosition := e
            travelDistance := t' +. down (sf *. up (w.sub c).len *. ratio) : LazyState S }
        else { cursor := c, endPosition := e, travelDistance := t' }
       if f then { st with endPosition := st.cursor } else st)
      (let st := if GoFloat.lt req (sf *. up ((g w).sub (g c)).len) then
          let ratio := (sf *. up ((g w).sub (g c)).len -. req) /. (sf *. up ((g w).sub (g c)).len)
          { cursor := (g c).add (((g w).sub (g c)).scl (down ratio)), endPosition := g e
            travelDistance := t' +. down (sf *. up ((g w).sub (g c)).len *. ratio) : LazyState S }
        else { cursor := g c, endPosition := g e, travelDistance := t' }
       if f then { st with endPosition := st.cursor } else st) := by
    intro w req f
    rw [hg.len]
    cases GoFloat.lt req (sf *. up (w.sub c).len)
    · cases f <;> exact ⟨rfl, rfl, rfl⟩
    · dsimp only
      rw [hg.step]
      cases f <;> exact ⟨rfl, rfl, rfl⟩
  unfold lazyStep
  cases last
  · simp only [Bool.false_eq_true, if_false, Bool.not_false, Bool.true_and, hp.2]
    refine (Both.of_map (ho.along _ _ hp.1)).bind fun q q' hq => ?_
    subst hq
    exact key q _ false
  · simp only [if_true, Bool.not_true, Bool.false_and, Bool.false_eq_true, if_false]
    refine (Both.of_map (ho.along _ _ ho.endTime)).bind fun q q' hq => ?_
    subst hq
    rw [hg.len, hg.len]
    by_cases hc : ((e.sub c).len <. (q.sub c).len) = true
    · simp only [hc, if_true]
      exact key e _ true
    · simp only [hc, if_false]
      exact key q _ true

include hg in
theorem lazyLoop_moved {o o' : Obj S D} (ho : Moved R g d.mods o o') (sf : D) {l l' : List (TickPoint D)}
    (hl : List.Forall₂ (fun p p' : TickPoint D => R p.time p'.time ∧ p'.isReverse = p.isReverse) l l')
    {st st' : LazyState S} (hs : LazyMoved g st st') :
    Both (LazyMoved g) (lazyLoop o d.mods sf l st) (lazyLoop o' d.mods sf l' st') := by
  induction hl generalizing st st' with
  | nil => exact hs
  | cons hp hrest ih =>
    cases hrest with
    | nil => exact lazyStep_moved hg ho sf hp true hs
    | cons hp2 hrest2 =>
      exact (lazyStep_moved hg ho sf hp false hs).bind fun a b hab => ih hab

/-- What lazy sliders add. -/
structure LazyAlike (g : Vec S → Vec S) (d d' : Difficulty D) (a b : Lazy S D) : Prop where
  stop : b.endPosition = g a.endPosition
  travel : b.travelDistance = a.travelDistance
  time : b.travelTime /. d'.speed = a.travelTime /. d.speed

include hg ht in
theorem newLazySlider_moved {o o' : Obj S D} (ho : Moved R g d.mods o o') {s s' : SliderData S D}
    (hk : o.kind = .slider s) (hk' : o'.kind = .slider s') :
    Both (LazyAlike g d d') (newLazySlider o s d) (newLazySlider o' s' d') := by
  have hkind := ho.kind
  rw [hk, hk'] at hkind
  obtain ⟨hr, hp⟩ := hkind
  unfold newLazySlider
  rw [← hp.length_eq, ht.mods, ht.radius]
  refine (get_both hp _).bind fun p p' hpp => ?_
  have hdiff := ht.elapsed _ _ _ _ hpp.1 ho.startTime
  refine (Both.of_map (ho.along _ _ (ht.back _ _ _ _ hpp.1 ho.startTime))).bind fun e e' he => ?_
  refine (lazyLoop_moved hg ho _ hp ?_).bind fun st st' hst => ?_
  · exact ⟨ho.start, he, rfl⟩
  · refine ⟨hst.stop, ?_, hdiff⟩
    show _ *. _ = _ *. _
    rw [hst.travel, hr]

/-- Decorated objects. -/
structure PAlike (R : D → D → Prop) (g : Vec S → Vec S) (d d' : Difficulty D) (a b : PObj S D) : Prop where
  obj : Moved R g d.mods a.obj b.obj
  none_iff : b.lazy.isSome = a.lazy.isSome
  lazy : ∀ l l', a.lazy = some l → b.lazy = some l' → LazyAlike g d d' l l'

include hg ht in
theorem decorate_moved {o o' : Obj S D} (ho : Moved R g d.mods o o') :
    Both (PAlike R g d d') (decorate d o) (decorate d' o') := by
  have hkind := ho.kind
  unfold decorate
  rcases hk : o.kind with _ | _ | s <;> rcases hk' : o'.kind with _ | _ | s' <;>
    rw [hk, hk'] at hkind <;> simp only [SameKind] at hkind
  · exact ⟨ho, rfl, fun _ _ h => nomatch h⟩
  · exact ⟨ho, rfl, fun _ _ h => nomatch h⟩
  · refine (newLazySlider_moved hg ht ho hk hk').bind fun a b hab => ?_
    refine ⟨ho, rfl, fun l l' h h' => ?_⟩
    cases h
    cases h'
    exact hab

include hg ht in
theorem decorateAll_moved {l l' : List (Obj S D)} (h : List.Forall₂ (Moved R g d.mods) l l') :
    Both (List.Forall₂ (PAlike R g d d')) (decorateAll d l) (decorateAll d' l') := by
  induction h with
  | nil => exact List.Forall₂.nil
  | cons ho _ ih =>
    exact (decorate_moved hg ht ho).bind fun a b hab => ih.bind fun r r' hr => List.Forall₂.cons hab hr

/-- Difficulty objects that no skill can tell apart. -/
structure Alike (RS : D → D → Prop) (g : Vec S → Vec S) (m : Modifier) (a b : DiffObject S D) : Prop where
  spinner : b.baseObject.obj.isSpinner = a.baseObject.obj.isSpinner
  slider : b.baseObject.lazy.isSome = a.baseObject.lazy.isSome
  start : b.baseObject.obj.base.getStackedStartPositionMod m = g (a.baseObject.obj.base.getStackedStartPositionMod m)
  stop : b.baseObject.obj.base.getStackedEndPositionMod m = g (a.baseObject.obj.base.getStackedEndPositionMod m)
  startTime : RS a.startTime b.startTime
  deltaTime : b.deltaTime = a.deltaTime
  jumpDistance : b.jumpDistance = a.jumpDistance
  movementDistance : b.movementDistance = a.movementDistance
  travelDistance : b.travelDistance = a.travelDistance
  angle : b.angle = a.angle
  movementTime : b.movementTime = a.movementTime
  travelTime : b.travelTime = a.travelTime
  strainTime : b.strainTime = a.strainTime

theorem endCursor_moved {a b : PObj S D} (h : PAlike R g d d' a b) :
    getEndCursorPosition b d.mods = g (getEndCursorPosition a d.mods) := by
  unfold getEndCursorPosition
  have hn := h.none_iff
  rcases ha : a.lazy with _ | l <;> rcases hb : b.lazy with _ | l' <;> rw [ha, hb] at hn
  · exact h.obj.start
  · cases hn
  · cases hn
  · exact (h.lazy _ _ ha hb).stop

include hg ht in
theorem setTravel_moved {last last' : PObj S D} (hl : PAlike R g d d' last last') {a b : DiffObject S D}
    (h : Alike RS g d.mods a b) : Alike RS g d.mods (setTravel d last a) (setTravel d' last' b) := by
  have hjump : ∀ k : S, ((b.baseObject.obj.base.getStackedStartPositionMod d.mods).scl k).dst
      ((getEndCursorPosition last' d.mods).scl k) =
      ((a.baseObject.obj.base.getStackedStartPositionMod d.mods).scl k).dst
      ((getEndCursorPosition last d.mods).scl k) := by
    intro k
    rw [h.start, endCursor_moved hl, hg.dstScl]
  have htail : (last'.obj.base.getStackedEndPositionMod d.mods).dst
      (b.baseObject.obj.base.getStackedStartPositionMod d.mods) =
      (last.obj.base.getStackedEndPositionMod d.mods).dst
      (a.baseObject.obj.base.getStackedStartPositionMod d.mods) := by
    rw [h.start, hl.obj.stop, hg.dst]
  unfold setTravel
  dsimp only
  rw [ht.mods, ht.radius, hjump, htail]
  have hn := hl.none_iff
  rcases ha : last.lazy with _ | l <;> rcases hb : last'.lazy with _ | l' <;> rw [ha, hb] at hn
  · exact { h with jumpDistance := rfl, movementDistance := rfl, movementTime := h.strainTime }
  · cases hn
  · cases hn
  · have hlz := hl.lazy _ _ ha hb
    dsimp only
    rw [hlz.travel, hlz.time, h.strainTime]
    exact { h with
      jumpDistance := rfl, movementDistance := rfl, movementTime := rfl, travelDistance := rfl, travelTime := rfl
      strainTime := rfl }

include hg ht in
theorem setAngle_moved {last last' : PObj S D} (hl : PAlike R g d d' last last') {ll ll' : Option (PObj S D)}
    (hll : Option.Rel (PAlike R g d d') ll ll') {a b : DiffObject S D}
    (h : Alike RS g d.mods a b) : Alike RS g d.mods (setAngle d ll last a) (setAngle d' ll' last' b) := by
  unfold setAngle
  cases hll with
  | none => exact h
  | some hp =>
    dsimp only
    rw [hp.obj.spinner]
    split
    · exact h
    · refine { h with angle := ?_ }
      dsimp only
      rw [ht.mods, endCursor_moved hp, endCursor_moved hl, hl.obj.start, h.start]
      exact congrArg up (hg.angle _ _ _ _)

include hg ht in
theorem newDiffObject_moved {c c' : PObj S D} (hc : PAlike R g d d' c c') {last last' : PObj S D}
    (hl : PAlike R g d d' last last') {ll ll' : Option (PObj S D)}
    (hll : Option.Rel (PAlike R g d d') ll ll') :
    Alike RS g d.mods (newDiffObject c ll last d) (newDiffObject c' ll' last' d') := by
  have hdt := ht.elapsed _ _ _ _ hc.obj.startTime hl.obj.startTime
  unfold newDiffObject setDistances
  dsimp only
  rw [hc.obj.spinner, hl.obj.spinner, hdt]
  have base : Alike RS g d.mods
      { baseObject := c, deltaTime := (c.obj.base.startTime -. last.obj.base.startTime) /. d.speed
        startTime := c.obj.base.startTime /. d.speed, endTime := c.obj.base.endTime /. d.speed
        angle := GoFloat.nan
        strainTime := fmax ((c.obj.base.startTime -. last.obj.base.startTime) /. d.speed) (lit 25)
        jumpDistance := lit 0, movementDistance := lit 0, travelDistance := lit 0
        movementTime := lit 0, travelTime := lit 0 }
      { baseObject := c', deltaTime := (c.obj.base.startTime -. last.obj.base.startTime) /. d.speed
        startTime := c'.obj.base.startTime /. d'.speed, endTime := c'.obj.base.endTime /. d'.speed
        angle := GoFloat.nan
        strainTime := fmax ((c.obj.base.startTime -. last.obj.base.startTime) /. d.speed) (lit 25)
        jumpDistance := lit 0, movementDistance := lit 0, travelDistance := lit 0
        movementTime := lit 0, travelTime := lit 0 } :=
    { spinner := hc.obj.spinner, slider := hc.none_iff, start := hc.obj.start, stop := hc.obj.stop
      startTime := ht.scaled _ _ hc.obj.startTime, deltaTime := rfl, jumpDistance := rfl
      movementDistance := rfl, travelDistance := rfl, angle := rfl, movementTime := rfl, travelTime := rfl
      strainTime := rfl }
  split
  · exact base
  · exact setAngle_moved hg ht hl hll (setTravel_moved hg ht hl base)

include hg ht in
theorem diffObjectLoop_moved {l l' : List (PObj S D)} (h : List.Forall₂ (PAlike R g d d') l l')
    {last last' : PObj S D} (hl : PAlike R g d d' last last') {ll ll' : Option (PObj S D)}
    (hll : Option.Rel (PAlike R g d d') ll ll') :
    List.Forall₂ (Alike RS g d.mods) (diffObjectLoop d ll last l) (diffObjectLoop d' ll' last' l') := by
  induction h generalizing last last' ll ll' with
  | nil => exact .nil
  | cons hc _ ih => exact .cons (newDiffObject_moved hg ht hc hl hll) (ih hc (.some hl))

include hg ht in
theorem create_moved {l l' : List (Obj S D)} (h : List.Forall₂ (Moved R g d.mods) l l') :
    Both (List.Forall₂ (Alike RS g d.mods)) (createDifficultyObjects l d) (createDifficultyObjects l' d') := by
  unfold createDifficultyObjects
  refine (decorateAll_moved hg ht h).bind fun a b hab => ?_
  cases hab with
  | nil => exact List.Forall₂.nil
  | cons hp hrest => exact diffObjectLoop_moved hg ht hrest hp .none

/-! ## Skills -/

/-- Skills that have seen difficulty objects that no skill can tell apart. -/
structure SkAlike (RS RE : D → D → Prop) (g : Vec S → Vec S) (m : Modifier) (sk sk' : Skill S D) : Prop where
  rest : sk' = { sk with diff := sk'.diff, previous := sk'.previous, currentSectionEnd := sk'.currentSectionEnd }
  window : sk'.diff.hit300 /. sk'.diff.speed = sk.diff.hit300 /. sk.diff.speed
  previous : List.Forall₂ (Alike RS g m) sk.previous sk'.previous
  sectionEnd : sk.previous ≠ [] → RE sk.currentSectionEnd sk'.currentSectionEnd

namespace SkAlike
variable {m : Modifier} {sk sk' : Skill S D}

theorem length (h : SkAlike RS RE g m sk sk') : sk'.previous.length = sk.previous.length := h.previous.length_eq.symm

theorem kind (h : SkAlike RS RE g m sk sk') : sk'.kind = sk.kind := by rw [h.rest]

theorem get (h : SkAlike RS RE g m sk sk') (i : Nat) :
    Option.Rel (Alike RS g m) (sk.getPrevious i) (sk'.getPrevious i) := by
  unfold Skill.getPrevious
  have hr := List.rel_reverse h.previous
  generalize sk.previous.reverse = l at hr
  generalize sk'.previous.reverse = l' at hr
  induction hr generalizing i with
  | nil => exact .none
  | cons hp _ ih => cases i with
    | zero => exact .some hp
    | succ i => exact ih i

theorem deref (h : SkAlike RS RE g m sk sk') (i : Nat) :
    Both (Alike RS g m) (sk.derefPrevious i) (sk'.derefPrevious i) := by
  unfold Skill.derefPrevious
  have := h.get i
  revert this
  cases sk.getPrevious i <;> cases sk'.getPrevious i <;> intro h
  · rfl
  · cases h
  · cases h
  · cases h; assumption

end SkAlike

theorem aimStrain_alike {m : Modifier} (ws : Bool) {c c' l l' ll ll' : DiffObject S D} (hc : Alike RS g m c c')
    (hl : Alike RS g m l l') (hll : Alike RS g m ll ll') : Aim.strain ws c' l' ll' = Aim.strain ws c l ll := by
  unfold Aim.strain Aim.velocity Aim.angleBonuses Aim.velocityChangeBonus
  simp only [hc.jumpDistance, hc.strainTime, hc.movementDistance, hc.movementTime, hc.travelDistance, hc.travelTime,
    hc.angle, hl.jumpDistance, hl.strainTime, hl.movementDistance, hl.movementTime, hl.travelDistance, hl.travelTime,
    hl.angle, hl.slider, hll.angle, hll.slider]

theorem aimValue_alike {m : Modifier} (ws : Bool) {sk sk' : Skill S D} (h : SkAlike RS RE g m sk sk')
    {c c' : DiffObject S D} (hc : Alike RS g m c c') :
    Aim.strainValue ws sk' c' = Aim.strainValue ws sk c := by
  refine Both.eq ?_
  unfold Aim.strainValue
  rw [hc.spinner, h.length]
  split
  · exact rfl
  · refine (h.deref 0).bind fun l l' hl => ?_
    rw [hl.spinner]
    split
    · exact rfl
    · refine (h.deref 1).bind fun ll ll' hll => ?_
      exact (aimStrain_alike ws hc hl hll).symm

theorem speedValue_alike {m : Modifier} {sk sk' : Skill S D} (h : SkAlike RS RE g m sk sk')
    {c c' : DiffObject S D} (hc : Alike RS g m c c') : Speed.strainValue sk' c' = Speed.strainValue sk c := by
  unfold Speed.strainValue
  rw [hc.spinner, hc.travelDistance, hc.jumpDistance, hc.strainTime, h.window]
  have hp := h.get 0
  revert hp
  cases sk.getPrevious 0 <;> cases sk'.getPrevious 0 <;> intro hp
  · rfl
  · cases hp
  · cases hp
  · cases hp with | some hp =>
    dsimp only
    rw [hp.strainTime]

include ht in
theorem rhythmStep_alike {m : Modifier} (gw : D) (n i : Nat) {c c' a a' b b' l l' : DiffObject S D}
    (hc : Alike RS g m c c') (ha : Alike RS g m a a') (hb : Alike RS g m b b') (hl : Alike RS g m l l')
    (r : Speed.Rhythm D) :
    Speed.rhythmStep gw n i c' a' b' l' r = Speed.rhythmStep gw n i c a b l r := by
  unfold Speed.rhythmStep Speed.penalise
  rw [ht.age _ _ _ _ hc.startTime ha.startTime, ha.strainTime, hb.strainTime, hl.strainTime, ha.slider, hb.slider]

include ht in
theorem rhythmLoop_alike {m : Modifier} (gw : D) {sk sk' : Skill S D} (h : SkAlike RS RE g m sk sk')
    {c c' : DiffObject S D} (hc : Alike RS g m c c') (i : Nat) (r : Speed.Rhythm D) :
    Speed.rhythmLoop gw sk' c' i r = Speed.rhythmLoop gw sk c i r := by
  refine Both.eq ?_
  induction i generalizing r with
  | zero => exact rfl
  | succ i ih =>
    unfold Speed.rhythmLoop
    refine (h.deref i).bind fun a a' ha => (h.deref (i + 1)).bind fun b b' hb => (h.deref (i + 2)).bind
      fun l l' hl => ?_
    rw [rhythmStep_alike ht gw _ _ hc ha hb hl, h.length]
    exact ih _

include ht in
theorem rhythm_alike {m : Modifier} {sk sk' : Skill S D} (h : SkAlike RS RE g m sk sk')
    {c c' : DiffObject S D} (hc : Alike RS g m c c') : Speed.rhythm sk' c' = Speed.rhythm sk c := by
  unfold Speed.rhythm
  rw [hc.spinner, h.length, h.window]
  simp only [rhythmLoop_alike ht _ h hc]

include hg ht in
theorem flashlightLoop_alike {c c' : DiffObject S D} (hc : Alike RS g d.mods c c') {l l' : List (DiffObject S D)}
    (hl : List.Forall₂ (Alike RS g d.mods) l l') (i : Nat) (st : Flashlight.State D) :
    Flashlight.loop d' c' i l' st = Flashlight.loop d c i l st := by
  induction hl generalizing i st with
  | nil => rfl
  | cons hp _ ih =>
    unfold Flashlight.loop
    rw [ht.mods, ht.radius, hp.spinner, hc.start, hp.stop, hg.dst, hp.strainTime, hp.jumpDistance]
    simp only [ih]

include hg ht in
theorem flashlightValue_alike {sk sk' : Skill S D} (hd : sk.diff = d) (hd' : sk'.diff = d') (h : SkAlike RS RE g d.mods sk sk')
    {c c' : DiffObject S D} (hc : Alike RS g d.mods c c') :
    Flashlight.strainValue sk' c' = Flashlight.strainValue sk c := by
  unfold Flashlight.strainValue
  rw [hd, hd', hc.spinner, flashlightLoop_alike hg ht hc (List.rel_reverse h.previous)]

include hg ht in
theorem valueOf_alike {sk sk' : Skill S D} (hd : sk.diff = d) (hd' : sk'.diff = d') (h : SkAlike RS RE g d.mods sk sk')
    {c c' : DiffObject S D} (hc : Alike RS g d.mods c c') : sk'.strainValueOf c' = sk.strainValueOf c := by
  unfold Skill.strainValueOf
  rw [h.kind]
  cases sk.kind
  · exact aimValue_alike _ h hc
  · exact congrArg _ (speedValue_alike h hc)
  · exact congrArg _ (flashlightValue_alike hg ht hd hd' h hc)

/-- Updating both skills in the parts that agree. -/
theorem SkAlike.update {m : Modifier} {sk sk' t t' : Skill S D} (h : SkAlike RS RE g m sk sk')
    (hr : t' = { t with diff := t'.diff, previous := t'.previous, currentSectionEnd := t'.currentSectionEnd })
    (hd : t.diff = sk.diff) (hd' : t'.diff = sk'.diff)
    (hp : t.previous = sk.previous) (hp' : t'.previous = sk'.previous)
    (he : t.currentSectionEnd = sk.currentSectionEnd) (he' : t'.currentSectionEnd = sk'.currentSectionEnd) :
    SkAlike RS RE g m t t' where
  rest := hr
  window := by rw [hd, hd']; exact h.window
  previous := by rw [hp, hp']; exact h.previous
  sectionEnd := by rw [hp, he, he']; exact h.sectionEnd

include hg ht in
theorem addStrain_alike {sk sk' : Skill S D} (hd : sk.diff = d) (hd' : sk'.diff = d') (h : SkAlike RS RE g d.mods sk sk')
    {c c' : DiffObject S D} (hc : Alike RS g d.mods c c') :
    Both (fun r r' => SkAlike RS RE g d.mods r r' ∧ r.currentSectionEnd = sk.currentSectionEnd ∧
        r'.currentSectionEnd = sk'.currentSectionEnd ∧ r.diff = sk.diff ∧ r'.diff = sk'.diff ∧ r.sectionLength = sk.sectionLength)
      (sk.addStrain c) (sk'.addStrain c') := by
  obtain ⟨f', p', e', rfl⟩ : ∃ f' p' e', sk' = { sk with diff := f', previous := p', currentSectionEnd := e' } :=
    ⟨_, _, _, h.rest⟩
  unfold Skill.addStrain
  dsimp only
  rw [hc.deltaTime]
  have h1 : SkAlike RS RE g d.mods { sk with currentStrain := sk.currentStrain *. sk.strainDecay c.deltaTime }
      { sk with diff := f', previous := p', currentSectionEnd := e'
                currentStrain := sk.currentStrain *. sk.strainDecay c.deltaTime } := h.update rfl rfl rfl rfl rfl rfl rfl
  refine (Both.of_eq (valueOf_alike hg ht (by exact hd) (by exact hd') h1 hc)).bind fun v v' hv => ?_
  subst hv
  rcases hk : sk.kind with ws | _ | _
  · exact ⟨h.update rfl rfl rfl rfl rfl rfl rfl, rfl, rfl, rfl, rfl, rfl⟩
  · have h2 : SkAlike RS RE g d.mods
        { sk with currentStrain := (sk.currentStrain *. sk.strainDecay c.deltaTime) +. v *. sk.skillMultiplier }
        { sk with
          diff := f', previous := p', currentSectionEnd := e'
          currentStrain := (sk.currentStrain *. sk.strainDecay c.deltaTime) +. v *. sk.skillMultiplier } :=
      h.update rfl rfl rfl rfl rfl rfl rfl
    rw [hk] at h2
    refine (Both.of_eq (rhythm_alike ht h2 hc)).bind fun b b' hb => ?_
    subst hb
    exact ⟨h.update rfl rfl rfl rfl rfl rfl rfl, rfl, rfl, rfl, rfl, rfl⟩
  · exact ⟨h.update rfl rfl rfl rfl rfl rfl rfl, rfl, rfl, rfl, rfl, rfl⟩

include ht in
theorem initialStrain_alike {m : Modifier} {sk sk' : Skill S D} (h : SkAlike RS RE g m sk sk') {e e' : D}
    (he : RE e e') : sk'.calculateInitialStrain e' = sk.calculateInitialStrain e := by
  have e1 : sk'.currentStrain = sk.currentStrain := by rw [h.rest]
  have e2 : sk'.currentRhythm = sk.currentRhythm := by rw [h.rest]
  have e6 : ∀ x, sk'.strainDecay x = sk.strainDecay x := by intro x; rw [h.rest]; rfl
  refine Both.eq ?_
  unfold Skill.calculateInitialStrain
  refine (h.deref 0).bind fun p p' hp => ?_
  rw [h.kind, e1, e2, e6, ht.since _ _ _ _ hp.startTime he]
  exact .refl _

/-- Related ends of sections, whether or not there was an object before. -/
structure SkAlike' (RS RE : D → D → Prop) (g : Vec S → Vec S) (m : Modifier) (sk sk' : Skill S D) : Prop where
  alike : SkAlike RS RE g m sk sk'
  sectionEnd : RE sk.currentSectionEnd sk'.currentSectionEnd
  length : sk.sectionLength = lit 400

include ht in
theorem sectionLoop_alike {m : Modifier} {a a' : D} (ha : RS a a') (fuel : Nat) {sk sk' : Skill S D}
    (h : SkAlike' RS RE g m sk sk') (hd : sk.diff = d) (hd' : sk'.diff = d') :
    Both (fun r r' => SkAlike' RS RE g m r r' ∧ r.diff = d ∧ r'.diff = d') (Skill.sectionLoop a fuel sk)
      (Skill.sectionLoop a' fuel sk') := by
  induction fuel generalizing sk sk' with
  | zero => exact rfl
  | succ n ih =>
    obtain ⟨f', p', e', rfl⟩ : ∃ f' p' e', sk' = { sk with diff := f', previous := p', currentSectionEnd := e' } :=
    ⟨_, _, _, h.alike.rest⟩
    unfold Skill.sectionLoop
    rw [ht.past _ _ _ _ ha h.sectionEnd]
    split
    · rename_i hlt
      refine (Both.of_eq (initialStrain_alike ht h.alike h.sectionEnd)).bind fun p p' hp => ?_
      subst hp
      have hre : RE (sk.currentSectionEnd +. sk.sectionLength) (e' +. sk.sectionLength) := by
        rw [h.length]
        exact ht.next _ _ _ _ ha h.sectionEnd hlt
      exact ih ⟨⟨rfl, h.alike.window, h.alike.previous, fun _ => hre⟩, hre, h.length⟩ hd hd'
    · exact ⟨h, hd, hd'⟩

include hg ht in
theorem internal_alike {sk sk' : Skill S D} (hd : sk.diff = d) (he : sk'.diff = d') (hlen : sk.sectionLength = lit 400)
    (h : SkAlike RS RE g d.mods sk sk') {c c' : DiffObject S D} (hc : Alike RS g d.mods c c') (fuel : Nat) :
    Both (fun r r' => SkAlike' RS RE g d.mods r r' ∧ r.diff = d ∧ r'.diff = d') (sk.processInternal fuel c)
      (sk'.processInternal fuel c') := by
  obtain ⟨f', p', e', rfl⟩ : ∃ f' p' e', sk' = { sk with diff := f', previous := p', currentSectionEnd := e' } :=
    ⟨_, _, _, h.rest⟩
  have start : SkAlike' RS RE g d.mods
      (if sk.previous.length = 0 then
        { sk with currentSectionEnd := GoFloat.ceil (c.startTime /. sk.sectionLength) *. sk.sectionLength } else sk)
      (if p'.length = 0 then
        { sk with
          diff := f', previous := p'
          currentSectionEnd := GoFloat.ceil (c'.startTime /. sk.sectionLength) *. sk.sectionLength }
        else { sk with diff := f', previous := p', currentSectionEnd := e' }) := by
    have hl : p'.length = sk.previous.length := h.length
    rw [hl]
    split
    · rw [hlen]
      have hre := ht.first _ _ hc.startTime
      exact ⟨⟨rfl, h.window, h.previous, fun _ => hre⟩, hre, rfl⟩
    · rename_i hne
      refine ⟨h, h.sectionEnd fun hn => hne (by rw [hn]; rfl), hlen⟩
  have hd' : (if sk.previous.length = 0 then
        { sk with currentSectionEnd := GoFloat.ceil (c.startTime /. sk.sectionLength) *. sk.sectionLength } else sk).diff =
      d := by split <;> exact hd
  have he' : (if p'.length = 0 then
        { sk with
          diff := f', previous := p'
          currentSectionEnd := GoFloat.ceil (c'.startTime /. sk.sectionLength) *. sk.sectionLength }
        else { sk with diff := f', previous := p', currentSectionEnd := e' }).diff = d' := by split <;> exact he
  unfold Skill.processInternal
  refine (sectionLoop_alike ht hc.startTime fuel start hd' he').bind fun r r' hr => ?_
  refine (addStrain_alike hg ht hr.2.1 hr.2.2 hr.1.alike hc).mono fun u u' hu => ?_
  refine ⟨⟨hu.1, ?_, ?_⟩, ?_, ?_⟩
  · rw [hu.2.1, hu.2.2.1]; exact hr.1.sectionEnd
  · rw [hu.2.2.2.2.2]; exact hr.1.length
  · rw [hu.2.2.2.1]; exact hr.2.1
  · rw [hu.2.2.2.2.1]; exact hr.2.2

/-- Skills before or after an object. -/
structure SkReady (RS RE : D → D → Prop) (g : Vec S → Vec S) (d d' : Difficulty D) (sk sk' : Skill S D) : Prop where
  alike : SkAlike RS RE g d.mods sk sk'
  diff : sk.diff = d
  diff' : sk'.diff = d'
  length : sk.sectionLength = lit 400

include hg ht in
theorem process_alike {sk sk' : Skill S D} (h : SkReady RS RE g d d' sk sk') {c c' : DiffObject S D}
    (hc : Alike RS g d.mods c c') (fuel : Nat) :
    Both (SkReady RS RE g d d') (sk.process fuel c) (sk'.process fuel c') := by
  have hprev := h.alike.previous
  have hlen := h.alike.length
  have hend := h.alike.sectionEnd
  obtain ⟨f', p', e', rfl⟩ : ∃ f' p' e', sk' = { sk with diff := f', previous := p', currentSectionEnd := e' } :=
    ⟨_, _, _, h.alike.rest⟩
  have cut : SkReady RS RE g d d'
      (if sk.previous.length > sk.historyLength then
        { sk with previous := sk.previous.drop (sk.previous.length - sk.historyLength) } else sk)
      (if p'.length > sk.historyLength then
        { sk with diff := f', previous := p'.drop (p'.length - sk.historyLength), currentSectionEnd := e' }
        else { sk with diff := f', previous := p', currentSectionEnd := e' }) := by
    dsimp only at hlen hprev
    rw [hlen]
    split
    · refine ⟨⟨rfl, h.alike.window, List.forall₂_drop _ hprev, fun hne => ?_⟩, h.diff, h.diff', h.length⟩
      refine hend fun h0 => hne ?_
      show List.drop _ sk.previous = []
      rw [h0, List.drop_nil]
    · exact h
  unfold Skill.process
  refine (internal_alike hg ht cut.diff cut.diff' cut.length cut.alike hc fuel).bind fun r r' hr => ?_
  obtain ⟨hr, hrd, hrd'⟩ := hr
  have hrw := hr.alike.window
  have hrp := hr.alike.previous
  have hre := hr.sectionEnd
  have hrest := hr.alike.rest
  obtain ⟨f'', q', e'', rfl⟩ : ∃ f' p' e', r' = { r with diff := f', previous := p', currentSectionEnd := e' } :=
    ⟨_, _, _, hr.alike.rest⟩
  exact ⟨⟨rfl, hrw, List.rel_append hrp (.cons hc .nil), fun _ => hre⟩, hrd, hrd', hr.length⟩

/-! ## Calculations -/

/-- Sets of skills. -/
structure SetAlike (RS RE : D → D → Prop) (g : Vec S → Vec S) (d d' : Difficulty D) (s s' : SkillSet S D) : Prop where
  aim : SkReady RS RE g d d' s.aim s'.aim
  aimNoSliders : SkReady RS RE g d d' s.aimNoSliders s'.aimNoSliders
  speed : SkReady RS RE g d d' s.speed s'.speed
  flashlight : Option.Rel (SkReady RS RE g d d') s.flashlight s'.flashlight

include ht in
omit [GoLibm D] in
theorem ready_aim (ws : Bool) : SkReady RS RE g d d' (Skill.newAim d ws : Skill S D) (Skill.newAim d' ws) :=
  ⟨⟨rfl, ht.window, .nil, fun h => (h rfl).elim⟩, rfl, rfl, rfl⟩

include ht in
omit [GoLibm D] in
theorem ready_speed : SkReady RS RE g d d' (Skill.newSpeed d : Skill S D) (Skill.newSpeed d') :=
  ⟨⟨rfl, ht.window, .nil, fun h => (h rfl).elim⟩, rfl, rfl, rfl⟩

include ht in
omit [GoLibm D] in
theorem ready_flashlight : Option.Rel (SkReady RS RE g d d')
    (if d.checkModActive Mod.Flashlight then some (Skill.newFlashlight d : Skill S D) else none)
    (if d'.checkModActive Mod.Flashlight then some (Skill.newFlashlight d') else none) := by
  unfold Difficulty.checkModActive
  rw [ht.mods]
  split
  · exact .some ⟨⟨rfl, ht.window, .nil, fun h => (h rfl).elim⟩, rfl, rfl, rfl⟩
  · exact .none

include hg ht in
theorem processOpt_alike {s s' : Option (Skill S D)} (h : Option.Rel (SkReady RS RE g d d') s s')
    {c c' : DiffObject S D} (hc : Alike RS g d.mods c c') (fuel : Nat) :
    Both (Option.Rel (SkReady RS RE g d d')) (SkillSet.processOpt fuel c s) (SkillSet.processOpt fuel c' s') := by
  cases h with
  | none => exact Option.Rel.none
  | some h => exact (process_alike hg ht h hc fuel).bind fun r r' hr => Option.Rel.some hr

include hg ht in
theorem setProcess_alike {s s' : SkillSet S D} (h : SetAlike RS RE g d d' s s') {c c' : DiffObject S D}
    (hc : Alike RS g d.mods c c') (fuel : Nat) :
    Both (SetAlike RS RE g d d') (s.process fuel c) (s'.process fuel c') := by
  unfold SkillSet.process
  refine (process_alike hg ht h.aim hc fuel).bind fun a a' ha => ?_
  refine (process_alike hg ht h.aimNoSliders hc fuel).bind fun n n' hn => ?_
  refine (process_alike hg ht h.speed hc fuel).bind fun p p' hp => ?_
  refine (processOpt_alike hg ht h.flashlight hc fuel).bind fun f f' hf => ?_
  exact ⟨ha, hn, hp, hf⟩

theorem SkReady.peaks {sk sk' : Skill S D} (h : SkReady RS RE g d d' sk sk') :
    sk'.getCurrentStrainPeaks = sk.getCurrentStrainPeaks := by
  rw [h.alike.rest]
  rfl

theorem SkReady.value [GoSort] {sk sk' : Skill S D} (h : SkReady RS RE g d d' sk sk') :
    sk'.difficultyValue = sk.difficultyValue := by
  rw [h.alike.rest]
  rfl

include ht in
theorem raw_alike (a n s f : D) (attr : Attributes D) :
    getStarsFromRawValues a n s f d' attr = getStarsFromRawValues a n s f d attr := by
  unfold getStarsFromRawValues Difficulty.checkModActive
  rw [ht.mods]

include ht in
theorem stars_alike [GoSort] {s s' : SkillSet S D} (h : SetAlike RS RE g d d' s s') (attr : Attributes D) :
    s'.getStars d' attr = s.getStars d attr := by
  unfold SkillSet.getStars
  rw [raw_alike ht, h.aim.value, h.aimNoSliders.value, h.speed.value]
  have hf := h.flashlight
  revert hf
  cases s.flashlight <;> cases s'.flashlight <;> intro hf
  · rfl
  · cases hf
  · cases hf
  · cases hf with | some hf =>
    dsimp only
    rw [hf.value]

include ht in
theorem peaksLoop_alike (f : Option (List D)) (s : List D) (i : Nat) (l : List D) :
    peaksLoop d' f s i l = peaksLoop d f s i l := by
  induction l generalizing i with
  | nil => rfl
  | cons a l ih =>
    unfold peaksLoop
    simp only [raw_alike ht, ih]

include ht in
theorem peaks_alike {a a' s s' : Skill S D} {f f' : Option (Skill S D)} (ha : SkReady RS RE g d d' a a')
    (hs : SkReady RS RE g d d' s s') (hf : Option.Rel (SkReady RS RE g d d') f f') :
    getPeaks a' s' f' d' = getPeaks a s f d := by
  have : f'.map (·.getCurrentStrainPeaks) = f.map (·.getCurrentStrainPeaks) := by
    cases hf with
    | none => rfl
    | some hf => exact congrArg some hf.peaks
  unfold getPeaks
  rw [ha.peaks, hs.peaks, this]
  simp only [peaksLoop_alike ht]

theorem addObject_alike {m : Modifier} {o o' : Obj S D} (h : Moved R g m o o') (attr : Attributes D) :
    addObjectToAttribs o' attr = addObjectToAttribs o attr := by
  have hkind := h.kind
  unfold addObjectToAttribs
  rcases hk : o.kind with _ | _ | s <;> rcases hk' : o'.kind with _ | _ | s' <;>
    rw [hk, hk'] at hkind <;> simp only [SameKind] at hkind
  · dsimp only
    rw [hkind.2.length_eq]

theorem forall₂_tail {α β : Type} {P : α → β → Prop} {l : List α} {l' : List β} (h : List.Forall₂ P l l') :
    List.Forall₂ P l.tail l'.tail := by
  cases h with
  | nil => exact .nil
  | cons _ h => exact h

include hg ht in
theorem singleLoop_alike [GoSort] {l l' : List (DiffObject S D)} (h : List.Forall₂ (Alike RS g d.mods) l l')
    {objs objs' : List (Obj S D)} (ho : List.Forall₂ (Moved R g d.mods) objs objs') (fuel : Nat)
    (attr : Attributes D) {s s' : SkillSet S D} (hs : SetAlike RS RE g d d' s s') :
    Both (fun r r' => r'.1 = r.1 ∧ SetAlike RS RE g d d' r.2 r'.2) (singleLoop fuel l objs attr s)
      (singleLoop fuel l' objs' attr s') := by
  induction h generalizing objs objs' attr s s' with
  | nil => exact ⟨rfl, hs⟩
  | cons hc _ ih =>
    unfold singleLoop
    refine (get_both ho 0).bind fun o o' hoo => ?_
    refine (setProcess_alike hg ht hs hc fuel).bind fun r r' hr => ?_
    rw [addObject_alike hoo]
    exact ih (forall₂_tail ho) _ hr

variable {objs objs' : List (Obj S D)} (ho : List.Forall₂ (Moved R g d.mods) objs objs')

include ht in
omit [GoLibm D] in
theorem set_ready : SetAlike RS RE g d d' (SkillSet.new d : SkillSet S D) (SkillSet.new d') :=
  ⟨ready_aim ht true, ready_aim ht false, ready_speed ht, ready_flashlight ht⟩

include hg ht ho in
theorem singleCore_alike [GoSort] (fuel : Nat) :
    Both (fun r r' => r'.1 = r.1 ∧ SetAlike RS RE g d d' r.2 r'.2) (calculateSingleCore fuel objs d)
      (calculateSingleCore fuel objs' d') := by
  unfold calculateSingleCore
  refine (create_moved hg ht ho).bind fun l l' hl => ?_
  refine (get_both ho 0).bind fun o o' hoo => ?_
  rw [addObject_alike hoo]
  refine (singleLoop_alike hg ht hl (forall₂_tail ho) fuel _ (set_ready ht)).bind fun r r' hr => ?_
  obtain ⟨a, s⟩ := r
  obtain ⟨a', s'⟩ := r'
  obtain ⟨h1, h2⟩ := hr
  dsimp only at h1 h2
  subst h1
  exact ⟨stars_alike ht h2 _, h2⟩

include hg ht ho in
theorem single_moved [GoSort] (fuel : Nat) : calculateSingle fuel objs' d' = calculateSingle fuel objs d :=
  Both.eq <| (singleCore_alike hg ht ho fuel).bind fun _ _ hr => hr.1.symm

include hg ht ho in
theorem singlePeaks_moved [GoSort] (fuel : Nat) :
    calculateSingleWithPeaks fuel objs' d' = calculateSingleWithPeaks fuel objs d := by
  refine Both.eq <| (singleCore_alike hg ht ho fuel).bind fun r r' hr => ?_
  obtain ⟨a, s⟩ := r
  obtain ⟨a', s'⟩ := r'
  obtain ⟨h1, h2⟩ := hr
  dsimp only at h1 h2
  subst h1
  dsimp only
  rw [peaks_alike ht h2.aim h2.speed h2.flashlight]
  exact .refl _

include hg ht in
theorem stepLoop_alike [GoSort] {l l' : List (DiffObject S D)} (h : List.Forall₂ (Alike RS g d.mods) l l')
    {objs objs' : List (Obj S D)} (ho : List.Forall₂ (Moved R g d.mods) objs objs') (fuel : Nat)
    (attr : Attributes D) {s s' : SkillSet S D} (hs : SetAlike RS RE g d d' s s') :
    Both (fun r r' => r'.1 = r.1 ∧ SetAlike RS RE g d d' r.2 r'.2) (stepLoop fuel d l objs attr s)
      (stepLoop fuel d' l' objs' attr s') := by
  induction h generalizing objs objs' attr s s' with
  | nil => exact ⟨rfl, hs⟩
  | cons hc _ ih =>
    unfold stepLoop
    refine (get_both ho 0).bind fun o o' hoo => ?_
    refine (setProcess_alike hg ht hs hc fuel).bind fun r r' hr => ?_
    rw [addObject_alike hoo, stars_alike ht hr]
    refine (ih (forall₂_tail ho) _ hr).bind fun u u' hu => ?_
    obtain ⟨a, s⟩ := u
    obtain ⟨a', s'⟩ := u'
    obtain ⟨h1, h2⟩ := hu
    dsimp only at h1 h2
    subst h1
    exact ⟨rfl, h2⟩

include hg ht ho in
theorem stepCore_alike [GoSort] (fuel : Nat) :
    Both (fun r r' => r'.1 = r.1 ∧ SetAlike RS RE g d d' r.2 r'.2) (calculateStepCore fuel objs d)
      (calculateStepCore fuel objs' d') := by
  unfold calculateStepCore
  refine (create_moved hg ht ho).bind fun l l' hl => ?_
  rw [← ho.length_eq]
  split
  · exact rfl
  · refine (get_both ho 0).bind fun o o' hoo => ?_
    rw [addObject_alike hoo]
    refine (stepLoop_alike hg ht hl (forall₂_tail ho) fuel _ (set_ready ht)).bind fun r r' hr => ?_
    obtain ⟨a, s⟩ := r
    obtain ⟨a', s'⟩ := r'
    obtain ⟨h1, h2⟩ := hr
    dsimp only at h1 h2
    subst h1
    exact ⟨rfl, h2⟩

include hg ht ho in
theorem step_moved [GoSort] (fuel : Nat) : calculateStep fuel objs' d' = calculateStep fuel objs d :=
  Both.eq <| (stepCore_alike hg ht ho fuel).bind fun _ _ hr => hr.1.symm

include hg ht ho in
theorem stepPeaks_moved [GoSort] (fuel : Nat) :
    calculateStepWithPeaks fuel objs' d' = calculateStepWithPeaks fuel objs d := by
  refine Both.eq <| (stepCore_alike hg ht ho fuel).bind fun r r' hr => ?_
  obtain ⟨a, s⟩ := r
  obtain ⟨a', s'⟩ := r'
  obtain ⟨h1, h2⟩ := hr
  dsimp only at h1 h2
  subst h1
  dsimp only
  rw [peaks_alike ht h2.aim h2.speed h2.flashlight]
  exact .refl _

/-- The skills of the strain peaks. -/
structure PeakAlike (RS RE : D → D → Prop) (g : Vec S → Vec S) (d d' : Difficulty D) (s s' : PeakSkills S D) : Prop where
  aim : SkReady RS RE g d d' s.aim s'.aim
  speed : SkReady RS RE g d d' s.speed s'.speed
  flashlight : Option.Rel (SkReady RS RE g d d') s.flashlight s'.flashlight

include hg ht in
theorem peakLoop_alike {l l' : List (DiffObject S D)} (h : List.Forall₂ (Alike RS g d.mods) l l') (fuel : Nat)
    {s s' : PeakSkills S D} (hs : PeakAlike RS RE g d d' s s') :
    Both (PeakAlike RS RE g d d') (peakLoop fuel l s) (peakLoop fuel l' s') := by
  induction h generalizing s s' with
  | nil => exact hs
  | cons hc _ ih =>
    unfold peakLoop
    refine (process_alike hg ht hs.aim hc fuel).bind fun a a' ha => ?_
    refine (process_alike hg ht hs.speed hc fuel).bind fun p p' hp => ?_
    refine (processOpt_alike hg ht hs.flashlight hc fuel).bind fun f f' hf => ?_
    exact ih ⟨ha, hp, hf⟩

include hg ht ho in
theorem strainPeaks_moved (fuel : Nat) :
    calculateStrainPeaks fuel objs' d' = calculateStrainPeaks fuel objs d := by
  unfold calculateStrainPeaks
  refine Both.eq <| (create_moved hg ht ho).bind fun l l' hl => ?_
  refine (peakLoop_alike hg ht hl fuel ?_).bind fun s s' hs => ?_
  · exact ⟨ready_aim ht true, ready_speed ht, ready_flashlight ht⟩
  · rw [peaks_alike ht hs.aim hs.speed hs.flashlight]
    exact .refl _

end
end GosuPP
