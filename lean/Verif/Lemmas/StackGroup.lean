import Verif.Lemmas.Stacking

/-! Stacking of a group of circles. -/

namespace GosuPP
open Go
variable {S D : Type} [GoFloat S] [GoFloat D] [GoConv S D]

namespace Stacking

/-- The objects with their stack indices for the mods `m` given by a function. -/
def put (m : Modifier) (st : List (Obj S D)) (v : Nat → Int) : List (Obj S D) :=
  st.mapIdx fun j o => o.setStackIndex (v j) m

section basics
variable (m : Modifier) (st : List (Obj S D)) (v : Nat → Int)

omit [GoFloat D] [GoConv S D] in
theorem put_getElem? (n : Nat) : (put m st v)[n]? = (st[n]?).map (fun o => o.setStackIndex (v n) m) := by
  unfold put
  rw [List.getElem?_mapIdx]

omit [GoFloat D] [GoConv S D] in
theorem put_length : (put m st v).length = st.length := by
  unfold put
  rw [List.length_mapIdx]

omit [GoFloat D] [GoConv S D] in
theorem set_set (o : Obj S D) (x y : Int) : (o.setStackIndex x m).setStackIndex y m = o.setStackIndex y m := by
  unfold Obj.setStackIndex HitObject.setStackIndex
  by_cases h1 : m.active Mod.HardRock
  · simp [h1]
  · by_cases h2 : m.active Mod.Easy <;> simp [h1, h2]

omit [GoFloat D] [GoConv S D] in
theorem get_set (o : Obj S D) (x : Int) : (o.setStackIndex x m).base.getStackIndex m = x := by
  unfold Obj.setStackIndex HitObject.setStackIndex HitObject.getStackIndex
  by_cases h1 : m.active Mod.HardRock
  · simp [h1]
  · by_cases h2 : m.active Mod.Easy <;> simp [h1, h2]

omit [GoFloat D] [GoConv S D] in
theorem setIdx_put (i : Nat) (x : Int) : setIdx (put m st v) i x m = put m st (Function.update v i x) := by
  unfold setIdx
  apply List.ext_getElem?
  intro j
  rw [List.getElem?_modify, put_getElem?, put_getElem?]
  cases st[j]? with
  | none => rfl
  | some o =>
    by_cases h : i = j
    · subst h
      simp [set_set]
    · simp [h, Function.update_of_ne (Ne.symm h)]

omit [GoFloat D] [GoConv S D] in
theorem getIdx_put {i : Nat} (h : i < st.length) : getIdx (put m st v) i m = v i := by
  unfold getIdx
  rw [put_getElem?, List.getElem?_eq_getElem h]
  exact get_set _ _ _

omit [GoFloat D] [GoConv S D] in
@[simp] theorem setStackIndex_static (o : Obj S D) (x : Int) :
    (o.setStackIndex x m).isSpinner = o.isSpinner ∧ (o.setStackIndex x m).isSlider = o.isSlider ∧
    (o.setStackIndex x m).base.startPosRaw = o.base.startPosRaw ∧
    (o.setStackIndex x m).base.endPosRaw = o.base.endPosRaw ∧
    (o.setStackIndex x m).base.startTime = o.base.startTime ∧
    (o.setStackIndex x m).base.endTime = o.base.endTime := by
  unfold Obj.setStackIndex HitObject.setStackIndex
  refine ⟨rfl, rfl, ?_⟩
  by_cases h1 : m.active Mod.HardRock
  · simp [h1]
  · by_cases h2 : m.active Mod.Easy <;> simp [h1, h2]

theorem shift_put (e : Vec S) (lo hi : Nat) (off : Int) : ∃ v', shift m e lo hi off (put m st v) = put m st v' ∧
    ∀ j o, st[j]? = some o → near (D := D) e o.base.startPosRaw = false → v' j = v j := by
  refine ⟨fun j => match st[j]? with
    | some o => if lo ≤ j ∧ j ≤ hi ∧ near (D := D) e o.base.startPosRaw = true then v j - off else v j
    | none => v j, ?_, ?_⟩
  · unfold shift
    apply List.ext_getElem?
    intro j
    rw [List.getElem?_mapIdx, put_getElem?, put_getElem?]
    cases hj : st[j]? with
    | none => rfl
    | some o =>
      simp only [Option.map_some, (setStackIndex_static m o _).2.2.1, get_set, set_set]
      split <;> rfl
  · intro j o hj hn
    simp only [hj, hn]
    simp

end basics

/-- How many members of the group come after `j`. -/
def rank (g : List Nat) (j : Nat) : Nat := g.countP (fun k => decide (j < k))

theorem rank_step {g : List Nat} (hs : g.Pairwise (· < ·)) {n cur : Nat} (hc : cur ∈ g) (hlt : n < cur)
    (hb : ∀ l ∈ g, ¬(n < l ∧ l < cur)) : rank g n = rank g cur + 1 := by
  unfold rank
  have hnd : g.Nodup := hs.imp (fun h => Nat.ne_of_lt h)
  induction g with
  | nil => cases hc
  | cons a g ih =>
    rw [List.countP_cons, List.countP_cons]
    rw [List.pairwise_cons] at hs
    rcases List.mem_cons.mp hc with rfl | hc'
    · have e : g.countP (fun k => decide (n < k)) = g.countP (fun k => decide (cur < k)) := by
        apply List.countP_congr
        intro x hx
        have := hs.1 x hx
        simp only [decide_eq_true_eq]
        omega
      rw [e]
      simp [hlt]
    · have h1 := ih hs.2 hc' (fun l hl => hb l (List.mem_cons_of_mem _ hl)) (List.nodup_cons.mp hnd).2
      have h2 := hs.1 cur hc'
      have h3 := hb a List.mem_cons_self
      have : ¬ n < a := by omega
      rw [h1]
      simp [this]
      omega

theorem rank_last {g : List Nat} {j : Nat} (h : ∀ l ∈ g, l ≤ j) : rank g j = 0 := by
  unfold rank
  rw [List.countP_eq_zero]
  intro a ha
  have := h a ha
  simp only [decide_eq_true_eq]
  omega

theorem rank_zero {g : List Nat} {j : Nat} (h : rank g j = 0) : ∀ l ∈ g, l ≤ j := by
  intro l hl
  unfold rank at h
  rw [List.countP_eq_zero] at h
  have := h l hl
  simp only [decide_eq_true_eq] at this
  omega

theorem rank_getElem {g : List Nat} (hs : g.Pairwise (· < ·)) {p : Nat} (hp : p < g.length) :
    rank g g[p] = g.length - 1 - p := by
  induction g generalizing p with
  | nil => simp at hp
  | cons a g ih =>
    rw [List.pairwise_cons] at hs
    unfold rank
    rw [List.countP_cons]
    cases p with
    | zero =>
      have : g.countP (fun k => decide (a < k)) = g.length := by
        rw [List.countP_eq_length]
        intro x hx
        simpa using hs.1 x hx
      simp [this]
    | succ p =>
      have hp' : p < g.length := by simpa using hp
      have h1 := hs.1 _ (List.getElem_mem hp')
      have h2 := ih hs.2 hp'
      unfold rank at h2
      simp only [List.getElem_cons_succ, h2, List.length_cons]
      have : ¬ g[p] < a := by omega
      simp [this]
      omega

theorem lt_length {st : List (Obj S D)} {j : Nat} {o : Obj S D} (h : st[j]? = some o) : j < st.length := by
  by_contra hn
  rw [List.getElem?_eq_none (by omega)] at h
  cases h

omit [GoFloat S] [GoFloat D] [GoConv S D] in
theorem isCircle_not {o : Obj S D} (h : o.isCircle = true) : o.isSlider = false ∧ o.isSpinner = false := by
  unfold Obj.isCircle at h
  unfold Obj.isSlider Obj.isSpinner
  split at h
  · rename_i e; rw [e]; exact ⟨rfl, rfl⟩
  · cases h

section new
variable {m : Modifier} {version : Int} {thr : D} {st : List (Obj S D)} {g : List Nat}

/-- Loops that start outside the group do not touch it. -/
theorem circleLoop_other (hv : 6 ≤ version) (hg : Spec.StackGroup version thr st g) (i n cur : Nat) (v : Nat → Int)
    (hcur : cur ∉ g) (hspin : ∀ o, st[cur]? = some o → o.isSpinner = false) :
    ∃ v', circleLoop m thr i n cur 0 (put m st v) = (put m st v', 0) ∧ ∀ l ∈ g, v' l = v l := by
  induction n generalizing cur v with
  | zero => exact ⟨v, rfl, fun _ _ => rfl⟩
  | succ n ih =>
    rw [circleLoop, put_getElem?, put_getElem?]
    cases hc : st[cur]? with
    | none => exact ⟨v, rfl, fun _ _ => rfl⟩
    | some oI =>
    cases hn : st[n]? with
    | none => exact ⟨v, rfl, fun _ _ => rfl⟩
    | some oN =>
    have hsI := hspin oI hc
    simp only [Option.map_some, (setStackIndex_static m _ _).1, (setStackIndex_static m _ _).2.1,
      (setStackIndex_static m _ _).2.2.1, (setStackIndex_static m _ _).2.2.2.1,
      (setStackIndex_static m _ _).2.2.2.2.1, (setStackIndex_static m _ _).2.2.2.2.2, Nat.not_lt_zero, if_false]
    split
    · exact ih cur v hcur hspin
    rename_i hsN
    split
    · exact ⟨v, rfl, fun _ _ => rfl⟩
    split
    · obtain ⟨v', h1, h2⟩ := shift_put m st v oN.base.endPosRaw (n + 1) i
        (getIdx (put m st v) cur m - getIdx (put m st v) n m + 1)
      rename_i hsl
      simp only [Bool.and_eq_true] at hsl
      refine ⟨v', by rw [h1], fun l hl => ?_⟩
      obtain ⟨o, ho, hoc, -⟩ := hg.circle l hl
      refine h2 l o ho ?_
      have hn' : n ∉ g := by
        intro hmem
        obtain ⟨o', ho', hoc', -⟩ := hg.circle n hmem
        rw [hn] at ho'
        cases ho'
        rw [(isCircle_not hoc').1] at hsl
        cases hsl.1
      have := (hg.apart l hl n hn' o oN ho hn (fun _ => by simpa using hsN)) _ List.mem_cons_self
        oN.base.endPosRaw (by simp)
      exact this.2
    split
    · rename_i hnear
      by_cases hn' : n ∈ g
      · exfalso
        have := (hg.apart n hn' cur hcur oN oI hn hc (fun _ => hsI)) _ List.mem_cons_self _ List.mem_cons_self
        rw [show near (D := D) oN.base.startPosRaw oI.base.startPosRaw = false from this.1] at hnear
        cases hnear
      · rw [setIdx_put]
        obtain ⟨v', h1, h2⟩ := ih n (Function.update v n (getIdx (put m st v) cur m + 1)) hn'
          (by intro o ho; rw [hn] at ho; cases ho; simpa using hsN)
        refine ⟨v', h1, fun l hl => ?_⟩
        rw [h2 l hl, Function.update_of_ne]
        rintro rfl
        exact hn' hl
    · exact ih cur v hcur hspin

theorem sliderLoop_other (hv : 6 ≤ version) (hg : Spec.StackGroup version thr st g) (n cur : Nat) (v : Nat → Int)
    (hcur : cur ∉ g) (hspin : ∀ o, st[cur]? = some o → o.isSpinner = false) :
    ∃ v', sliderLoop m thr n cur (put m st v) = put m st v' ∧ ∀ l ∈ g, v' l = v l := by
  induction n generalizing cur v with
  | zero => exact ⟨v, rfl, fun _ _ => rfl⟩
  | succ n ih =>
    rw [sliderLoop, put_getElem?, put_getElem?]
    cases hc : st[cur]? with
    | none => exact ⟨v, rfl, fun _ _ => rfl⟩
    | some oI =>
    cases hn : st[n]? with
    | none => exact ⟨v, rfl, fun _ _ => rfl⟩
    | some oN =>
    have hsI := hspin oI hc
    simp only [Option.map_some, (setStackIndex_static m _ _).1, (setStackIndex_static m _ _).2.1,
      (setStackIndex_static m _ _).2.2.1, (setStackIndex_static m _ _).2.2.2.1,
      (setStackIndex_static m _ _).2.2.2.2.1, (setStackIndex_static m _ _).2.2.2.2.2]
    split
    · exact ih cur v hcur hspin
    rename_i hsN
    split
    · exact ⟨v, rfl, fun _ _ => rfl⟩
    split
    · rename_i hnear
      by_cases hn' : n ∈ g
      · exfalso
        have := (hg.apart n hn' cur hcur oN oI hn hc (fun _ => hsI)) oN.base.endPosRaw (by simp) _ List.mem_cons_self
        rw [show near (D := D) oN.base.endPosRaw oI.base.startPosRaw = false from this.1] at hnear
        cases hnear
      · rw [setIdx_put]
        obtain ⟨v', h1, h2⟩ := ih n (Function.update v n (getIdx (put m st v) cur m + 1)) hn'
          (by intro o ho; rw [hn] at ho; cases ho; simpa using hsN)
        refine ⟨v', h1, fun l hl => ?_⟩
        rw [h2 l hl, Function.update_of_ne]
        rintro rfl
        exact hn' hl
    · exact ih cur v hcur hspin

/-- The loop that starts at the last member of the group numbers the group. -/
theorem circleLoop_group (hv : 6 ≤ version) (hg : Spec.StackGroup version thr st g) (i n cur : Nat) (v : Nat → Int)
    (hcur : cur ∈ g) (hlow : ∀ l ∈ g, l < cur → l < n) (hn : n ≤ cur) (hval : ∀ l ∈ g, cur ≤ l → v l = rank g l) :
    ∃ v', circleLoop m thr i n cur 0 (put m st v) = (put m st v', 0) ∧ ∀ l ∈ g, v' l = rank g l := by
  induction n generalizing cur v with
  | zero =>
    refine ⟨v, rfl, fun l hl => hval l hl ?_⟩
    by_contra hlt
    have := hlow l hl (by omega)
    omega
  | succ n ih =>
    rw [circleLoop, put_getElem?, put_getElem?]
    obtain ⟨oI, hc, hcI, -⟩ := hg.circle cur hcur
    have hcl := lt_length hc
    have hnl : n < st.length := by omega
    have hn0 : st[n]? = some st[n] := List.getElem?_eq_getElem hnl
    rw [hc, hn0]
    generalize st[n] = oN at hn0
    simp only [Option.map_some, (setStackIndex_static m _ _).1, (setStackIndex_static m _ _).2.1,
      (setStackIndex_static m _ _).2.2.1, (setStackIndex_static m _ _).2.2.2.1,
      (setStackIndex_static m _ _).2.2.2.2.1, (setStackIndex_static m _ _).2.2.2.2.2, Nat.not_lt_zero, if_false]
    by_cases hng : n ∈ g
    · -- the next member
      obtain ⟨oN', hn1, hcN, -⟩ := hg.circle n hng
      rw [hn0] at hn1
      cases hn1
      have hnext : Spec.Next g n cur := ⟨hng, hcur, by omega, fun l hl hb => by
        have := hlow l hl hb.2
        omega⟩
      rw [if_neg (by rw [(isCircle_not hcN).2]; simp),
        if_neg (by
          rw [hg.timesNew hv n cur hnext n (Nat.le_refl _) (by omega) oN oI hn0 hc (isCircle_not hcN).2]; simp),
        if_neg (by rw [(isCircle_not hcN).1]; simp),
        if_pos (show near (D := D) oN.base.startPosRaw oI.base.startPosRaw = true from
          hg.close n hng cur hcur (by omega) oN oI hn0 hc), setIdx_put, getIdx_put m st v hcl]
      refine ih n _ hng (fun l hl h => h) (Nat.le_refl _) ?_
      intro l hl hle
      by_cases he : l = n
      · subst he
        rw [Function.update_self, hval cur hcur (Nat.le_refl _), rank_step hg.sorted hcur (by omega) hnext.2.2.2]
        push_cast
        rfl
      · rw [Function.update_of_ne he]
        refine hval l hl ?_
        by_contra hlt
        have := hlow l hl (by omega)
        omega
    · -- another object
      have hlow' : ∀ l ∈ g, l < cur → l < n := by
        intro l hl h
        have h1 := hlow l hl h
        have h2 : l ≠ n := by rintro rfl; exact hng hl
        omega
      split
      · exact ih cur v hcur hlow' (by omega) hval
      rename_i hsN
      have hap := hg.apart cur hcur n hng oI oN hc hn0 (fun _ => by simpa using hsN)
      split
      · rename_i hbreak
        refine ⟨v, rfl, fun l hl => hval l hl ?_⟩
        by_contra hlt
        -- a member below `n` would not have been reached
        obtain ⟨p, hp⟩ : ∃ p, Spec.Next g p cur := by
          have key : ∀ d l, l ∈ g → l < cur → cur - l ≤ d → ∃ p, Spec.Next g p cur := by
            intro d
            induction d with
            | zero => intro l _ h1 h2; omega
            | succ d ihd =>
              intro l hl h1 h2
              by_cases hex : ∃ q ∈ g, l < q ∧ q < cur
              · obtain ⟨q, hq, h3, h4⟩ := hex
                exact ihd q hq h4 (by omega)
              · exact ⟨l, hl, hcur, h1, fun q hq hb => hex ⟨q, hq, hb⟩⟩
          exact key _ l hl (by omega) (Nat.le_refl _)
        have h1 := hlow' p hp.1 hp.2.2.1
        rw [hg.timesNew hv p cur hp n (by omega) (by omega) oN oI hn0 hc (by simpa using hsN)] at hbreak
        cases hbreak
      rw [if_neg, if_neg]
      · exact ih cur v hcur hlow' (by omega) hval
      · have := (hap _ List.mem_cons_self _ List.mem_cons_self).2
        rw [show near (D := D) oN.base.startPosRaw oI.base.startPosRaw = false from this]
        simp
      · have := (hap _ List.mem_cons_self oN.base.endPosRaw (by simp)).2
        rw [show near (D := D) oN.base.endPosRaw oI.base.startPosRaw = false from this]
        simp

theorem mainLoop_group (hv : 6 ≤ version) (hg : Spec.StackGroup version thr st g) (i : Nat) (hi : i = 0 ∨ i < st.length)
    (v : Nat → Int) (hval : (∀ l ∈ g, v l = rank g l) ∨ ((∀ l ∈ g, l ≤ i) ∧ ∀ l ∈ g, v l = 0)) :
    ∃ v', mainLoop m thr i 0 (put m st v) = put m st v' ∧ ∀ l ∈ g, v' l = rank g l := by
  induction i generalizing v with
  | zero =>
    refine ⟨v, rfl, fun l hl => ?_⟩
    rcases hval with h | ⟨h1, h2⟩
    · exact h l hl
    · rw [h2 l hl, rank_last (fun k hk => by have := h1 k hk; omega)]
      rfl
  | succ i ih =>
    have hi' : i = 0 ∨ i < st.length := by omega
    rw [mainLoop, put_getElem?]
    by_cases hig : i + 1 ∈ g
    · obtain ⟨o, ho, hoc, -⟩ := hg.circle _ hig
      rw [ho]
      simp only [Option.map_some, get_set, (setStackIndex_static m _ _).1, (setStackIndex_static m _ _).2.1,
        (isCircle_not hoc).1, (isCircle_not hoc).2]
      by_cases h0 : v (i + 1) = 0
      · have hlast : ∀ l ∈ g, l ≤ i + 1 := by
          rcases hval with h | ⟨h1, -⟩
          · rw [h _ hig] at h0
            exact rank_zero (by exact_mod_cast h0)
          · exact h1
        obtain ⟨v', h1, h2⟩ := circleLoop_group (m := m) hv hg (i + 1) (i + 1) (i + 1) v hig (fun l _ h => h)
          (Nat.le_refl _) (fun l hl hle => by
            have : l = i + 1 := by have := hlast l hl; omega
            subst this
            rw [h0, rank_last hlast]
            rfl)
        simp only [h0, ne_eq, not_true_eq_false, Bool.false_eq_true, or_self, if_false, Bool.not_false, Bool.and_self,
          if_true, h1]
        exact ih hi' v' (.inl h2)
      · rw [if_pos (.inl h0)]
        refine ih hi' v ?_
        rcases hval with h | ⟨-, h2⟩
        · exact .inl h
        · exact absurd (h2 _ hig) h0
    · have hval' : (∀ l ∈ g, v l = rank g l) ∨ ((∀ l ∈ g, l ≤ i) ∧ ∀ l ∈ g, v l = 0) := by
        rcases hval with h | ⟨h1, h2⟩
        · exact .inl h
        · refine .inr ⟨fun l hl => ?_, h2⟩
          have := h1 l hl
          have h3 : l ≠ i + 1 := by rintro rfl; exact hig hl
          omega
      have hkeep : ∀ v' : Nat → Int, (∀ l ∈ g, v' l = v l) →
          (∀ l ∈ g, v' l = rank g l) ∨ ((∀ l ∈ g, l ≤ i) ∧ ∀ l ∈ g, v' l = 0) := by
        intro v' h
        rcases hval' with h1 | ⟨h1, h2⟩
        · exact .inl (fun l hl => by rw [h l hl, h1 l hl])
        · exact .inr ⟨h1, fun l hl => by rw [h l hl, h2 l hl]⟩
      cases ho : st[i + 1]? with
      | none =>
        rw [List.getElem?_eq_none_iff] at ho
        omega
      | some o =>
        simp only [Option.map_some, get_set, (setStackIndex_static m _ _).1, (setStackIndex_static m _ _).2.1]
        split
        · exact ih hi' v hval'
        rename_i hskip
        have hsp : o.isSpinner = false := by
          rw [not_or] at hskip
          simpa using hskip.2
        have hspin : ∀ o', st[i + 1]? = some o' → o'.isSpinner = false := by
          intro o' h'
          rw [ho] at h'
          cases h'
          exact hsp
        split
        · obtain ⟨v', h1, h2⟩ := circleLoop_other (m := m) hv hg (i + 1) (i + 1) (i + 1) v hig hspin
          simp only [h1]
          exact ih hi' v' (hkeep v' h2)
        split
        · obtain ⟨v', h1, h2⟩ := sliderLoop_other (m := m) hv hg (i + 1) (i + 1) v hig hspin
          rw [h1]
          exact ih hi' v' (hkeep v' h2)
        · exact ih hi' v hval'

omit [GoFloat D] [GoConv S D] in
theorem put_zero_set (n : Nat) : setIdx (put m st fun _ => 0) n 0 m = put m st fun _ => 0 := by
  rw [setIdx_put]
  congr 1
  funext j
  by_cases h : j = n
  · subst h; rw [Function.update_self]
  · rw [Function.update_of_ne h]

theorem baseLoop_zero (k n base : Nat) (hk : n + k ≤ st.length) (hb : base < st.length) :
    ∃ base', baseLoop m thr k n base (put m st fun _ => 0) = (put m st fun _ => 0, base') ∧ base' < st.length := by
  induction k generalizing n base with
  | zero => exact ⟨base, rfl, hb⟩
  | succ k ih =>
    rw [baseLoop]
    split
    · split
      · exact ⟨base, rfl, hb⟩
      split
      · exact ih (n + 1) base (by omega) hb
      split
      · exact ⟨base, rfl, hb⟩
      split
      · rw [put_zero_set]
        exact ih (n + 1) n (by omega) (by omega)
      · exact ih (n + 1) base (by omega) hb
    · exact ⟨base, rfl, hb⟩

/-- Looking for an extended end finds nothing: the search begins with the last object. -/
theorem extendLoop_zero (i : Nat) (hi : i ≤ st.length) :
    extendLoop m thr i ((st.length : Int) - 1) (put m st fun _ => 0) = (put m st fun _ => 0, (st.length : Int) - 1) := by
  induction i with
  | zero => rfl
  | succ i ih =>
    rw [extendLoop, put_length]
    obtain ⟨base', h1, h2⟩ := baseLoop_zero (m := m) (thr := thr) (st := st) (st.length - (i + 1)) (i + 1) i
      (by omega) (by omega)
    simp only [h1]
    rw [if_neg (by omega)]
    exact ih (by omega)

theorem applyNew_group (hv : 6 ≤ version) (hg : Spec.StackGroup version thr st g) :
    ∃ v', applyNew m thr (put m st fun _ => 0) = put m st v' ∧ ∀ l ∈ g, v' l = rank g l := by
  unfold applyNew
  rw [put_length, extendLoop_zero _ (Nat.le_refl _)]
  simp only
  refine mainLoop_group hv hg _ (by omega) _ (.inr ⟨fun l hl => ?_, fun _ _ => rfl⟩)
  obtain ⟨o, ho, -⟩ := hg.circle l hl
  have := lt_length ho
  omega

end new

section old
variable {m : Modifier} {version : Int} {thr : D} {st : List (Obj S D)} {g : List Nat}

theorem oldInner_other (hv : version < 6) (hg : Spec.StackGroup version thr st g) (i k n : Nat) (t : D) (ss : Int)
    (v : Nat → Int) (hi : i ∉ g) :
    ∃ v', oldInner m thr i k n t ss (put m st v) = put m st v' ∧ ∀ l ∈ g, v' l = v l := by
  induction k generalizing n t ss v with
  | zero => exact ⟨v, rfl, fun _ _ => rfl⟩
  | succ k ih =>
    rw [oldInner, put_getElem?, put_getElem?]
    cases hc : st[i]? with
    | none => exact ⟨v, rfl, fun _ _ => rfl⟩
    | some oI =>
    cases hn : st[n]? with
    | none => exact ⟨v, rfl, fun _ _ => rfl⟩
    | some oN =>
    simp only [Option.map_some, (setStackIndex_static m _ _).2.2.1, (setStackIndex_static m _ _).2.2.2.1,
      (setStackIndex_static m _ _).2.2.2.2.1, (setStackIndex_static m _ _).2.2.2.2.2]
    split
    · exact ⟨v, rfl, fun _ _ => rfl⟩
    split
    · rw [setIdx_put]
      obtain ⟨v', h1, h2⟩ := ih (n + 1) oN.base.endTime ss (Function.update v i (getIdx (put m st v) i m + 1))
      refine ⟨v', h1, fun l hl => ?_⟩
      rw [h2 l hl, Function.update_of_ne]
      rintro rfl
      exact hi hl
    split
    · rename_i hnear
      by_cases hng : n ∈ g
      · exfalso
        have := (hg.apart n hng i hi oN oI hn hc (fun h => by omega)) _ List.mem_cons_self oI.base.endPosRaw (by simp)
        rw [show near (D := D) oN.base.startPosRaw oI.base.endPosRaw = false from this.1] at hnear
        cases hnear
      · rw [setIdx_put]
        obtain ⟨v', h1, h2⟩ := ih (n + 1) oN.base.endTime (ss + 1)
          (Function.update v n (getIdx (put m st v) n m - (ss + 1)))
        refine ⟨v', h1, fun l hl => ?_⟩
        rw [h2 l hl, Function.update_of_ne]
        rintro rfl
        exact hng hl
    · exact ih (n + 1) t ss v

/-- The loop of a member counts the members after it. -/
theorem oldInner_group (hv : version < 6) (hg : Spec.StackGroup version thr st g) (i k n p : Nat) (oP : Obj S D) (ss : Int)
    (v : Nat → Int) (hi : i ∈ g) (hin : i < n) (hk : n + k = st.length) (hp : p ∈ g) (hpn : p < n)
    (hlast : ∀ l ∈ g, ¬(p < l ∧ l < n)) (hoP : st[p]? = some oP) :
    oldInner m thr i k n oP.base.endTime ss (put m st v) =
      put m st (Function.update v i (v i + (g.countP (fun l => decide (n ≤ l)) : Nat))) := by
  have hnone : (∀ l ∈ g, l < n) → Function.update v i (v i + (g.countP (fun l => decide (n ≤ l)) : Nat)) = v := by
    intro h
    have : g.countP (fun l => decide (n ≤ l)) = 0 := by
      rw [List.countP_eq_zero]
      intro l hl
      have := h l hl
      simp only [decide_eq_true_eq]
      omega
    rw [this]
    simp
  induction k generalizing n p oP v with
  | zero =>
    rw [oldInner, hnone]
    intro l hl
    obtain ⟨o, ho, -⟩ := hg.circle l hl
    have := lt_length ho
    omega
  | succ k ih =>
    obtain ⟨oI, hc, hcI, hce⟩ := hg.circle i hi
    have hnl : n < st.length := by omega
    have hn0 : st[n]? = some st[n] := List.getElem?_eq_getElem hnl
    rw [oldInner, put_getElem?, put_getElem?, hc, hn0]
    generalize st[n] = oN at hn0
    simp only [Option.map_some, (setStackIndex_static m _ _).2.2.1, (setStackIndex_static m _ _).2.2.2.1,
      (setStackIndex_static m _ _).2.2.2.2.1, (setStackIndex_static m _ _).2.2.2.2.2]
    have hcount : g.countP (fun l => decide (n ≤ l)) = g.countP (fun l => decide (n + 1 ≤ l)) + if n ∈ g then 1 else 0 := by
      have hnd : g.Nodup := hg.sorted.imp (fun h => Nat.ne_of_lt h)
      clear hnone ih hlast hp hi hg
      induction g with
      | nil => rfl
      | cons a g ihg =>
        rw [List.nodup_cons] at hnd
        rw [List.countP_cons, List.countP_cons, ihg hnd.2]
        by_cases ha : a = n
        · subst ha
          simp [hnd.1]
        · have : n ≠ a := fun h => ha h.symm
          have h2 : (n ≤ a ↔ n + 1 ≤ a) := by omega
          simp only [List.mem_cons, this, false_or, h2]
          omega
    by_cases hng : n ∈ g
    · obtain ⟨oN', hn1, hcN, -⟩ := hg.circle n hng
      rw [hn0] at hn1
      cases hn1
      have hnext : Spec.Next g p n := ⟨hp, hng, hpn, hlast⟩
      rw [if_neg (by rw [hg.timesOld hv p n hnext n hpn (Nat.le_refl _) oP oN hoP hn0]; simp),
        if_pos (show near (D := D) oN.base.startPosRaw oI.base.startPosRaw = true from
          hg.close n hng i hi (by omega) oN oI hn0 hc), setIdx_put, getIdx_put m st v (lt_length hc)]
      rw [ih (n + 1) n oN _ (by omega) (by omega) hng (by omega) (fun l _ hb => by omega) hn0]
      · congr 1
        rw [Function.update_idem, Function.update_self, hcount, if_pos hng]
        congr 1
        push_cast
        ring
      · intro h
        have : g.countP (fun l => decide (n + 1 ≤ l)) = 0 := by
          rw [List.countP_eq_zero]
          intro l hl
          have := h l hl
          simp only [decide_eq_true_eq]
          omega
        rw [this]
        simp
    · have hap := hg.apart i hi n hng oI oN hc hn0 (fun h => by omega)
      split
      · rename_i hbreak
        rw [hnone]
        intro l hl
        by_contra hle
        obtain ⟨q, hq⟩ : ∃ q, Spec.Next g p q := by
          have key : ∀ d l, l ∈ g → p < l → l - p ≤ d → ∃ q, Spec.Next g p q := by
            intro d
            induction d with
            | zero => intro l _ h1 h2; omega
            | succ d ihd =>
              intro l hl h1 h2
              by_cases hex : ∃ q ∈ g, p < q ∧ q < l
              · obtain ⟨q, hq, h3, h4⟩ := hex
                exact ihd q hq h3 (by omega)
              · exact ⟨l, hp, hl, h1, fun q hq hb => hex ⟨q, hq, hb⟩⟩
          exact key _ l hl (by omega) (Nat.le_refl _)
        have h1 : n ≤ q := by
          by_contra hlt
          exact hlast q hq.2.1 ⟨hq.2.2.1, by omega⟩
        rw [hg.timesOld hv p q hq n hpn h1 oP oN hoP hn0] at hbreak
        cases hbreak
      rw [if_neg, if_neg]
      · rw [ih (n + 1) p oP v (by omega) (by omega) hp (by omega) _ hoP]
        · rw [hcount, if_neg hng]
          simp
        · intro h
          have : g.countP (fun l => decide (n + 1 ≤ l)) = 0 := by
            rw [List.countP_eq_zero]
            intro l hl
            have := h l hl
            simp only [decide_eq_true_eq]
            omega
          rw [this]
          simp
        · intro l hl hb
          have h2 : l ≠ n := by rintro rfl; exact hng hl
          exact hlast l hl ⟨hb.1, by omega⟩
      · have := (hap oI.base.endPosRaw (by simp) _ List.mem_cons_self).2
        rw [show near (D := D) oN.base.startPosRaw oI.base.endPosRaw = false from this]
        simp
      · have := (hap _ List.mem_cons_self _ List.mem_cons_self).2
        rw [show near (D := D) oN.base.startPosRaw oI.base.startPosRaw = false from this]
        simp

theorem oldLoop_group (hv : version < 6) (hg : Spec.StackGroup version thr st g) (k i : Nat) (v : Nat → Int)
    (hk : i + k = st.length) (hval : ∀ l ∈ g, v l = if l < i then (rank g l : Int) else 0) :
    ∃ v', oldLoop m thr k i (put m st v) = put m st v' ∧ ∀ l ∈ g, v' l = rank g l := by
  induction k generalizing i v with
  | zero =>
    refine ⟨v, rfl, fun l hl => ?_⟩
    obtain ⟨o, ho, -⟩ := hg.circle l hl
    rw [hval l hl, if_pos (by have := lt_length ho; omega)]
  | succ k ih =>
    have hil : i < st.length := by omega
    have hi0 : st[i]? = some st[i] := List.getElem?_eq_getElem hil
    rw [oldLoop, put_getElem?, hi0]
    generalize st[i] = oI at hi0
    simp only [Option.map_some, get_set, (setStackIndex_static m _ _).2.1, (setStackIndex_static m _ _).2.2.2.2.2,
      put_length]
    by_cases hig : i ∈ g
    · have h0 : v i = 0 := by rw [hval i hig, if_neg (by omega)]
      rw [if_pos (.inl h0), oldInner_group hv hg i _ (i + 1) i oI 0 v hig (by omega) (by omega) hig (by omega)
        (fun l _ hb => by omega) hi0]
      refine ih (i + 1) _ (by omega) ?_
      intro l hl
      by_cases he : l = i
      · subst he
        rw [Function.update_self, h0, if_pos (by omega), zero_add]
        unfold rank
        congr 1
      · rw [Function.update_of_ne he, hval l hl]
        have : (l < i ↔ l < i + 1) := by omega
        simp only [this]
    · have hnext : ∀ v' : Nat → Int, (∀ l ∈ g, v' l = v l) →
          ∀ l ∈ g, v' l = if l < i + 1 then (rank g l : Int) else 0 := by
        intro v' h l hl
        have he : l ≠ i := by rintro rfl; exact hig hl
        rw [h l hl, hval l hl]
        have : (l < i ↔ l < i + 1) := by omega
        simp only [this]
      split
      · obtain ⟨v', h1, h2⟩ := oldInner_other (m := m) hv hg i (st.length - (i + 1)) (i + 1) oI.base.endTime 0 v hig
        rw [h1]
        exact ih (i + 1) v' (by omega) (hnext v' h2)
      · exact ih (i + 1) v (by omega) (hnext v (fun _ _ => rfl))

theorem applyOld_group (hv : version < 6) (hg : Spec.StackGroup version thr st g) :
    ∃ v', applyOld m thr (put m st fun _ => 0) = put m st v' ∧ ∀ l ∈ g, v' l = rank g l := by
  unfold applyOld
  rw [put_length]
  exact oldLoop_group hv hg _ 0 _ (by omega) (fun l _ => by simp)

end old

section isolated
variable {m : Modifier} {version : Int} {thr : D} {st : List (Obj S D)}

theorem circleLoop_isolated (hs : Spec.Isolated version st) (i n cur : Nat) (v : Nat → Int) (hn : n ≤ cur)
    (hspin : ∀ o, st[cur]? = some o → o.isSpinner = false) :
    circleLoop m thr i n cur 0 (put m st v) = (put m st v, 0) := by
  induction n with
  | zero => rfl
  | succ n ih =>
    have ih := ih (by omega)
    rw [circleLoop, put_getElem?, put_getElem?]
    cases hc : st[cur]? with
    | none => rfl
    | some oI =>
    cases hn0 : st[n]? with
    | none => rfl
    | some oN =>
    simp only [Option.map_some, (setStackIndex_static m _ _).1, (setStackIndex_static m _ _).2.1,
      (setStackIndex_static m _ _).2.2.1, (setStackIndex_static m _ _).2.2.2.1,
      (setStackIndex_static m _ _).2.2.2.2.1, (setStackIndex_static m _ _).2.2.2.2.2, Nat.not_lt_zero, if_false]
    split
    · exact ih
    rename_i hsN
    have hap := hs n cur oN oI (by omega) hn0 hc (fun _ => ⟨by simpa using hsN, hspin oI hc⟩)
    split
    · rfl
    rw [if_neg, if_neg]
    · exact ih
    · rw [show near (D := D) oN.base.startPosRaw oI.base.startPosRaw = false from
        (hap _ List.mem_cons_self _ List.mem_cons_self).1]
      simp
    · rw [show near (D := D) oN.base.endPosRaw oI.base.startPosRaw = false from
        (hap oN.base.endPosRaw (by simp) _ List.mem_cons_self).1]
      simp

theorem sliderLoop_isolated (hs : Spec.Isolated version st) (n cur : Nat) (v : Nat → Int) (hn : n ≤ cur)
    (hspin : ∀ o, st[cur]? = some o → o.isSpinner = false) :
    sliderLoop m thr n cur (put m st v) = put m st v := by
  induction n with
  | zero => rfl
  | succ n ih =>
    have ih := ih (by omega)
    rw [sliderLoop, put_getElem?, put_getElem?]
    cases hc : st[cur]? with
    | none => rfl
    | some oI =>
    cases hn0 : st[n]? with
    | none => rfl
    | some oN =>
    simp only [Option.map_some, (setStackIndex_static m _ _).1, (setStackIndex_static m _ _).2.1,
      (setStackIndex_static m _ _).2.2.1, (setStackIndex_static m _ _).2.2.2.1,
      (setStackIndex_static m _ _).2.2.2.2.1, (setStackIndex_static m _ _).2.2.2.2.2]
    split
    · exact ih
    rename_i hsN
    have hap := hs n cur oN oI (by omega) hn0 hc (fun _ => ⟨by simpa using hsN, hspin oI hc⟩)
    split
    · rfl
    rw [if_neg]
    · exact ih
    · rw [show near (D := D) oN.base.endPosRaw oI.base.startPosRaw = false from
        (hap oN.base.endPosRaw (by simp) _ List.mem_cons_self).1]
      simp

theorem mainLoop_isolated (hs : Spec.Isolated version st) (i : Nat) (v : Nat → Int) :
    mainLoop m thr i 0 (put m st v) = put m st v := by
  induction i with
  | zero => rfl
  | succ i ih =>
    rw [mainLoop, put_getElem?]
    cases ho : st[i + 1]? with
    | none => rfl
    | some o =>
      simp only [Option.map_some, get_set, (setStackIndex_static m _ _).1, (setStackIndex_static m _ _).2.1]
      split
      · exact ih
      rename_i hskip
      have hspin : ∀ o', st[i + 1]? = some o' → o'.isSpinner = false := by
        intro o' h'
        rw [ho] at h'
        cases h'
        rw [not_or] at hskip
        simpa using hskip.2
      rw [circleLoop_isolated hs _ _ _ _ (Nat.le_refl _) hspin, sliderLoop_isolated hs _ _ _ (Nat.le_refl _) hspin]
      simp only [ih, ite_self]

theorem oldInner_isolated (hv : version < 6) (hs : Spec.Isolated version st) (i k n : Nat) (t : D) (ss : Int)
    (v : Nat → Int) (hin : i < n) : oldInner m thr i k n t ss (put m st v) = put m st v := by
  induction k generalizing n with
  | zero => rfl
  | succ k ih =>
    rw [oldInner, put_getElem?, put_getElem?]
    cases hc : st[i]? with
    | none => rfl
    | some oI =>
    cases hn0 : st[n]? with
    | none => rfl
    | some oN =>
    simp only [Option.map_some, (setStackIndex_static m _ _).2.2.1, (setStackIndex_static m _ _).2.2.2.1,
      (setStackIndex_static m _ _).2.2.2.2.1, (setStackIndex_static m _ _).2.2.2.2.2]
    have hap := hs n i oN oI (by omega) hn0 hc (fun h => by omega)
    split
    · rfl
    rw [if_neg, if_neg]
    · exact ih (n + 1) (by omega)
    · rw [show near (D := D) oN.base.startPosRaw oI.base.endPosRaw = false from
        (hap _ List.mem_cons_self oI.base.endPosRaw (by simp)).1]
      simp
    · rw [show near (D := D) oN.base.startPosRaw oI.base.startPosRaw = false from
        (hap _ List.mem_cons_self _ List.mem_cons_self).1]
      simp

theorem oldLoop_isolated (hv : version < 6) (hs : Spec.Isolated version st) (k i : Nat) (v : Nat → Int) :
    oldLoop m thr k i (put m st v) = put m st v := by
  induction k generalizing i with
  | zero => rfl
  | succ k ih =>
    rw [oldLoop, put_getElem?]
    cases ho : st[i]? with
    | none => rfl
    | some o =>
      simp only [Option.map_some, oldInner_isolated hv hs _ _ _ _ _ _ (Nat.lt_succ_self i), ih, ite_self]

end isolated

/-! ### The whole calculation -/

omit [GoFloat D] [GoConv S D] in
theorem stackOf_index (o : Obj S D) (v : Spec.Variant) : (Spec.stackOf o v).1 = o.base.getStackIndex v.mods := by
  cases v <;> rfl

/-- What the stacking of one variant does to an object: its index comes from the loops. -/
theorem runVariant_get {version : Int} {d : Difficulty D} {sl : D} {v : Spec.Variant} {objs : List (Obj S D)}
    {w : Nat → Int}
    (hw : (if version ≥ 6 then applyNew v.mods (Spec.threshold d sl v) (put v.mods objs fun _ => 0)
      else applyOld v.mods (Spec.threshold d sl v) (put v.mods objs fun _ => 0)) = put v.mods objs w)
    {i : Nat} {o : Obj S D} (ho : objs[i]? = some o) :
    (Spec.runVariant version d sl v objs)[i]? =
      some (finish ((Difficulty.new d.getHP d.getCS d.getOD d.getAR).setMods v.mods) (o.setStackIndex (w i) v.mods)) := by
  have h0 : objs.map (fun o : Obj S D => o.setStackIndex 0 v.mods) = put v.mods objs fun _ => 0 := by
    unfold put
    rw [List.mapIdx_eq_zipIdx_map]
    apply List.ext_getElem?
    intro j
    rw [List.getElem?_map, List.getElem?_map, List.getElem?_zipIdx]
    cases objs[j]? <;> rfl
  unfold Spec.runVariant process
  simp only [variantMods]
  rw [h0]
  have hw' : (if version ≥ 6 then applyNew v.mods
        (GoFloat.floor (((Difficulty.new d.getHP d.getCS d.getOD d.getAR).setMods v.mods).preempt *. sl))
        (put v.mods objs fun _ => 0)
      else applyOld v.mods
        (GoFloat.floor (((Difficulty.new d.getHP d.getCS d.getOD d.getAR).setMods v.mods).preempt *. sl))
        (put v.mods objs fun _ => 0)) = put v.mods objs w := hw
  rw [hw', List.getElem?_map, put_getElem?, ho]
  rfl

theorem finish_index {d : Difficulty D} {v : Spec.Variant} {o : Obj S D} {x : Int} (hs : o.isSpinner = false) :
    Spec.stackOf (finish ((Difficulty.new d.getHP d.getCS d.getOD d.getAR).setMods v.mods) (o.setStackIndex x v.mods)) v =
      (x, Vec.scl ⟨lit 1, lit 1⟩ (fneg (ofInt x) *.
        down ((Difficulty.new d.getHP d.getCS d.getOD d.getAR).setMods v.mods).circleRadius /. lit 10)) := by
  unfold finish
  rw [(setStackIndex_static v.mods o x).1, hs, if_neg (by simp), variantMods, get_set]
  cases v <;> rfl

end Stacking
end GosuPP
