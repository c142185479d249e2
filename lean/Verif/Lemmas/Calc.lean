import Verif.Lemmas.ParserFrame
import Verif.Model.DifficultyCalc

/-! The difficulty calculation on prefixes of the object list. -/

namespace GosuPP
open Go
variable {S D : Type} [GoFloat S] [GoFloat D] [GoConv S D] [GoLibm D]

omit [GoFloat S] [GoFloat D] [GoConv S D] [GoLibm D] in
theorem ok_bind {ε α β : Type} (a : α) (f : α → Except ε β) : (Except.ok a >>= f) = f a := rfl

/-! ### Difficulty objects of a prefix -/

theorem decorateAll_ok {d : Difficulty D} {objs : List (Obj S D)} {ps : List (PObj S D)}
    (h : decorateAll d objs = .ok ps) : List.Forall₂ (fun o p => decorate d o = .ok p) objs ps := by
  induction objs generalizing ps with
  | nil => cases h; exact .nil
  | cons o rest ih =>
    rw [decorateAll] at h
    obtain ⟨p, hp, h⟩ := bind_ok h
    obtain ⟨qs, hq, h⟩ := bind_ok h
    cases h
    exact .cons hp (ih hq)

theorem decorateAll_of {d : Difficulty D} {objs : List (Obj S D)} {ps : List (PObj S D)}
    (h : List.Forall₂ (fun o p => decorate d o = .ok p) objs ps) : decorateAll d objs = .ok ps := by
  induction h with
  | nil => rfl
  | cons h1 _ ih => rw [decorateAll, h1, ih]; rfl

theorem decorateAll_take {d : Difficulty D} {objs : List (Obj S D)} {ps : List (PObj S D)}
    (h : decorateAll d objs = .ok ps) (n : Nat) : decorateAll d (objs.take n) = .ok (ps.take n) :=
  decorateAll_of (List.forall₂_take n (decorateAll_ok h))

theorem decorate_obj {d : Difficulty D} {o : Obj S D} {p : PObj S D} (h : decorate d o = .ok p) :
    p.obj = o ∧ (p.lazy.isSome = o.isSlider) := by
  unfold decorate at h
  cases hk : o.kind with
  | slider s =>
    rw [hk] at h
    obtain ⟨l, -, h⟩ := bind_ok h
    cases h
    exact ⟨rfl, by simp [Obj.isSlider, hk]⟩
  | circle => rw [hk] at h; cases h; exact ⟨rfl, by simp [Obj.isSlider, hk]⟩
  | spinner => rw [hk] at h; cases h; exact ⟨rfl, by simp [Obj.isSlider, hk]⟩

theorem diffObjectLoop_length (d : Difficulty D) (ll : Option (PObj S D)) (l : PObj S D)
    (ps : List (PObj S D)) : (diffObjectLoop d ll l ps).length = ps.length := by
  induction ps generalizing ll l with
  | nil => rfl
  | cons p ps ih => rw [diffObjectLoop, List.length_cons, ih, List.length_cons]

theorem diffObjectLoop_take (d : Difficulty D) (ll : Option (PObj S D)) (l : PObj S D)
    (ps : List (PObj S D)) (n : Nat) :
    diffObjectLoop d ll l (ps.take n) = (diffObjectLoop d ll l ps).take n := by
  induction ps generalizing ll l n with
  | nil => simp [diffObjectLoop]
  | cons p ps ih =>
    cases n with
    | zero => rfl
    | succ n => rw [List.take_succ_cons, diffObjectLoop, diffObjectLoop, List.take_succ_cons, ih]

theorem createDifficultyObjects_ok {d : Difficulty D} {objs : List (Obj S D)}
    {ds : List (DiffObject S D)} (h : createDifficultyObjects objs d = .ok ds) :
    ∃ ps, decorateAll d objs = .ok ps ∧
      ds = (match ps with | [] => [] | p :: rest => diffObjectLoop d none p rest) := by
  unfold createDifficultyObjects at h
  obtain ⟨ps, hps, h⟩ := bind_ok h
  refine ⟨ps, hps, ?_⟩
  cases ps with
  | nil => cases h; rfl
  | cons p rest => cases h; rfl

theorem createDifficultyObjects_length {d : Difficulty D} {objs : List (Obj S D)}
    {ds : List (DiffObject S D)} (h : createDifficultyObjects objs d = .ok ds) :
    ds.length = objs.length - 1 := by
  obtain ⟨ps, hps, rfl⟩ := createDifficultyObjects_ok h
  rw [(decorateAll_ok hps).length_eq]
  cases ps with
  | nil => rfl
  | cons p rest => simp only [diffObjectLoop_length, List.length_cons, Nat.add_sub_cancel]

theorem createDifficultyObjects_take {d : Difficulty D} {objs : List (Obj S D)}
    {ds : List (DiffObject S D)} (h : createDifficultyObjects objs d = .ok ds) (n : Nat) :
    createDifficultyObjects (objs.take (n + 1)) d = .ok (ds.take n) := by
  obtain ⟨ps, hps, rfl⟩ := createDifficultyObjects_ok h
  unfold createDifficultyObjects
  rw [decorateAll_take hps]
  cases ps with
  | nil => simp; rfl
  | cons p rest =>
    show Except.ok _ = _
    rw [diffObjectLoop_take]

/-! ### Attributes -/

omit [GoFloat S] [GoFloat D] [GoConv S D] [GoLibm D] in
/-- Same counts. -/
def SameCounts (a b : Attributes D) : Prop :=
  a.objectCount = b.objectCount ∧ a.circles = b.circles ∧ a.sliders = b.sliders ∧
    a.spinners = b.spinners ∧ a.maxCombo = b.maxCombo

omit [GoFloat S] [GoConv S D] [GoLibm D] in
theorem addObject_counts {a b : Attributes D} (h : SameCounts a b) (o : Obj S D) :
    SameCounts (addObjectToAttribs o a) (addObjectToAttribs o b) := by
  obtain ⟨h1, h2, h3, h4, h5⟩ := h
  unfold addObjectToAttribs
  cases o.kind <;> simp [SameCounts, h1, h2, h3, h4, h5]

omit [GoFloat S] [GoConv S D] in
theorem getStars_counts [GoSort] {a b : Attributes D} (h : SameCounts a b) (sk : SkillSet S D)
    (diff : Difficulty D) : sk.getStars diff a = sk.getStars diff b := by
  obtain ⟨h1, h2, h3, h4, h5⟩ := h
  unfold SkillSet.getStars getStarsFromRawValues
  cases a; cases b
  simp only at h1 h2 h3 h4 h5
  subst h1 h2 h3 h4 h5
  rfl

omit [GoFloat S] [GoConv S D] in
theorem getStars_same [GoSort] (a : Attributes D) (sk : SkillSet S D) (diff : Difficulty D) :
    SameCounts (sk.getStars diff a) a := by
  unfold SkillSet.getStars getStarsFromRawValues
  exact ⟨rfl, rfl, rfl, rfl, rfl⟩

/-! ### Steps -/
variable [GoSort]

omit [GoFloat S] [GoFloat D] [GoConv S D] [GoLibm D] [GoSort] in
theorem bind_error {ε α β : Type} {x : Except ε α} {f : α → Except ε β} {e : ε}
    (h : (x >>= f) = .error e) : x = .error e ∨ ∃ a, x = .ok a ∧ f a = .error e := by
  cases x with
  | error e' => cases h; exact Or.inl rfl
  | ok a => exact Or.inr ⟨a, rfl, h⟩

theorem singleLoop_cons_ok {fuel : Nat} {d : DiffObject S D} {ds : List (DiffObject S D)} {o : Obj S D}
    {objs : List (Obj S D)} {a : Attributes D} {sk sk' : SkillSet S D}
    (h0 : index objs 0 = .ok o) (h1 : sk.process fuel d = .ok sk') :
    singleLoop fuel (d :: ds) objs a sk = singleLoop fuel ds objs.tail (addObjectToAttribs o a) sk' := by
  rw [singleLoop, h0]
  show (sk.process fuel d >>= fun sk => _) = _
  rw [h1]
  rfl

/-- The step loop fails when the loop of the single calculation does. -/
theorem stepLoop_error (fuel : Nat) (diff : Difficulty D) (ds : List (DiffObject S D))
    (objs : List (Obj S D)) (a b : Attributes D) (sk : SkillSet S D) (e : Fault) :
    stepLoop fuel diff ds objs a sk = .error e ↔ singleLoop fuel ds objs b sk = .error e := by
  induction ds generalizing objs a b sk with
  | nil => rw [stepLoop, singleLoop]; constructor <;> intro h <;> cases h
  | cons d ds ih =>
    cases h0 : index objs 0 with
    | error e' => rw [stepLoop, singleLoop, h0]; constructor <;> intro h <;> cases h <;> rfl
    | ok o =>
      cases h1 : sk.process fuel d with
      | error e' =>
        rw [stepLoop, singleLoop, h0]
        show (sk.process fuel d >>= fun sk => _) = _ ↔ (sk.process fuel d >>= fun sk => _) = _
        rw [h1]
        constructor <;> intro h <;> cases h <;> rfl
      | ok sk' =>
        rw [singleLoop_cons_ok h0 h1, ← ih _ (sk'.getStars diff (addObjectToAttribs o a)),
          stepLoop, h0]
        show (sk.process fuel d >>= fun sk => _) = _ ↔ _
        rw [h1]
        show (stepLoop fuel diff ds objs.tail (sk'.getStars diff (addObjectToAttribs o a)) sk' >>=
          fun x => Except.ok _) = _ ↔ _
        cases stepLoop fuel diff ds objs.tail (sk'.getStars diff (addObjectToAttribs o a)) sk' with
        | error e' => constructor <;> intro h <;> cases h <;> rfl
        | ok r => constructor <;> intro h <;> cases h

/-- The step loop and the loop of the single calculation run in lockstep. -/
theorem stepLoop_ok {fuel : Nat} {diff : Difficulty D} {ds : List (DiffObject S D)}
    {objs : List (Obj S D)} {a : Attributes D} (b : Attributes D) (hab : SameCounts a b)
    {sk sk' : SkillSet S D} {stars : List (Attributes D)}
    (h : stepLoop fuel diff ds objs a sk = .ok (stars, sk')) :
    stars.length = ds.length ∧ (∃ b', singleLoop fuel ds objs b sk = .ok (b', sk')) ∧
      ∀ n, n < ds.length → ∃ b' sk'', singleLoop fuel (ds.take (n + 1)) objs b sk = .ok (b', sk'') ∧
        stars[n]? = some (sk''.getStars diff b') := by
  induction ds generalizing objs a b sk stars with
  | nil =>
    rw [stepLoop] at h
    cases h
    exact ⟨rfl, ⟨b, rfl⟩, fun n h1 => by simp at h1⟩
  | cons d ds ih =>
    rw [stepLoop] at h
    obtain ⟨o, h0, h⟩ := bind_ok h
    obtain ⟨sk1, h1, h⟩ := bind_ok h
    obtain ⟨⟨rest, sk2⟩, h2, h⟩ := bind_ok h
    cases h
    have hc := addObject_counts hab o
    have hs : SameCounts (sk1.getStars diff (addObjectToAttribs o a)) (addObjectToAttribs o b) := by
      rw [getStars_counts hc]; exact getStars_same _ _ _
    obtain ⟨i1, ⟨b', i2⟩, i3⟩ := ih (addObjectToAttribs o b) hs h2
    refine ⟨by simp [i1], ⟨b', by rw [singleLoop_cons_ok h0 h1, i2]⟩, ?_⟩
    intro n hn
    cases n with
    | zero =>
      refine ⟨addObjectToAttribs o b, sk1, ?_, ?_⟩
      · rw [show (d :: ds).take (0 + 1) = [d] from rfl, singleLoop_cons_ok h0 h1]; rfl
      · rw [← getStars_counts hc]; rfl
    | succ n =>
      obtain ⟨b2, sk3, j1, j2⟩ := i3 n (by simpa using hn)
      refine ⟨b2, sk3, ?_, by simpa using j2⟩
      rw [List.take_succ_cons, singleLoop_cons_ok h0 h1, j1]

omit [GoSort] in
theorem singleLoop_objs {fuel : Nat} {ds : List (DiffObject S D)} {objs : List (Obj S D)} {n : Nat}
    (hn : ds.length ≤ n) (a : Attributes D) (sk : SkillSet S D) :
    singleLoop fuel ds (objs.take n) a sk = singleLoop fuel ds objs a sk := by
  induction ds generalizing objs a sk n with
  | nil => rfl
  | cons d ds ih =>
    cases n with
    | zero => simp at hn
    | succ n =>
      rw [singleLoop, singleLoop]
      cases objs with
      | nil => rfl
      | cons o objs =>
        show (sk.process fuel d >>= fun sk => singleLoop fuel ds (objs.take n) _ sk) =
          (sk.process fuel d >>= fun sk => singleLoop fuel ds objs _ sk)
        simp only [ih (by simpa using hn)]

end GosuPP
