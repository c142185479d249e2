import Verif.Lemmas.Sorting
import Verif.Lemmas.IEEE
import Verif.Spec.Timing

/-! Helper lemmas for timing points. -/

namespace GosuPP
open Go Fl

section
variable {D : Type} [GoFloat D]

theorem pointAt_eq (l : List (ControlPoint D)) (t : D) :
    Timings.pointAt l t = index l (maxI 0 (((search l.length
      (fun i => (l[i]?).elim true (fun p => t <. p.time)) : Nat) : Int) - 1)) := by
  unfold Timings.pointAt
  simp only
  congr 5
  funext i
  cases l[i]? <;> rfl

theorem finalizeLoop_inh {p l : ControlPoint D} (hp : p.inherited = true)
    (rest : List (ControlPoint D)) :
    Timings.finalizeLoop (some l) (p :: rest) =
      ({ p with beatLengthBase := l.beatLengthBase } ::
        (Timings.finalizeLoop (some { p with beatLengthBase := l.beatLengthBase }) rest).1,
       (Timings.finalizeLoop (some { p with beatLengthBase := l.beatLengthBase }) rest).2) := by
  simp only [Timings.finalizeLoop, hp]

theorem finalizeLoop_unt {p : ControlPoint D} (last : Option (ControlPoint D))
    (hp : p.inherited = false) (rest : List (ControlPoint D)) :
    Timings.finalizeLoop last (p :: rest) =
      (p :: (Timings.finalizeLoop (some p) rest).1, p :: (Timings.finalizeLoop (some p) rest).2) := by
  simp only [Timings.finalizeLoop, hp]

theorem finalizeLoop_first (p : ControlPoint D) (rest : List (ControlPoint D)) :
    Timings.finalizeLoop none (p :: rest) =
      (p :: (Timings.finalizeLoop (some p) rest).1, p :: (Timings.finalizeLoop (some p) rest).2) := by
  cases hp : p.inherited <;> simp only [Timings.finalizeLoop, hp]

theorem finalizeLoop_time (last : Option (ControlPoint D)) (l : List (ControlPoint D)) :
    (Timings.finalizeLoop last l).1.map (fun p => p.time) = l.map (fun p => p.time) := by
  induction l generalizing last with
  | nil => rfl
  | cons p rest ih =>
    cases hp : p.inherited with
    | false => rw [finalizeLoop_unt _ hp, List.map_cons, List.map_cons, ih]
    | true =>
      cases last with
      | none => rw [finalizeLoop_first, List.map_cons, List.map_cons, ih]
      | some l => rw [finalizeLoop_inh hp, List.map_cons, List.map_cons, ih]

theorem finalizeLoop_length (last : Option (ControlPoint D)) (l : List (ControlPoint D)) :
    (Timings.finalizeLoop last l).1.length = l.length := by
  have := congrArg List.length (finalizeLoop_time last l)
  simpa using this

theorem finalizeLoop_some_out (l : ControlPoint D) (ps : List (ControlPoint D)) :
    (Timings.finalizeLoop (some l) ps).2 =
      (Timings.finalizeLoop (some l) ps).1.filter (fun q => !q.inherited) := by
  induction ps generalizing l with
  | nil => rfl
  | cons p rest ih =>
    cases hp : p.inherited with
    | true =>
      rw [finalizeLoop_inh hp]
      simp only [List.filter_cons, hp, Bool.not_true]
      exact ih _
    | false =>
      rw [finalizeLoop_unt _ hp]
      simp only [List.filter_cons, hp, Bool.not_false, if_true, ih]

theorem finalizeLoop_some_in (l : ControlPoint D) (ps : List (ControlPoint D)) :
    (Timings.finalizeLoop (some l) ps).2 = ps.filter (fun q => !q.inherited) := by
  induction ps generalizing l with
  | nil => rfl
  | cons p rest ih =>
    cases hp : p.inherited with
    | true =>
      rw [finalizeLoop_inh hp]
      simp only [List.filter_cons, hp, Bool.not_true]
      exact ih _
    | false =>
      rw [finalizeLoop_unt _ hp]
      simp only [List.filter_cons, hp, Bool.not_false, if_true, ih]

theorem finalizeLoop_none (ps : List (ControlPoint D)) :
    (Timings.finalizeLoop none ps).2 = Spec.originals (Timings.finalizeLoop none ps).1 ∧
    (Timings.finalizeLoop none ps).2 = Spec.originals ps := by
  cases ps with
  | nil => exact ⟨rfl, rfl⟩
  | cons p rest =>
    rw [finalizeLoop_first]
    exact ⟨by simp only [Spec.originals]; rw [finalizeLoop_some_out],
      by simp only [Spec.originals]; rw [finalizeLoop_some_in]⟩

/-- What one entry of the result looks like, given the previous anchor. -/
theorem finalizeLoop_base (l : ControlPoint D) (ps : List (ControlPoint D))
    (hb : ∀ p ∈ ps, p.beatLengthBase = p.beatLength) :
    ∀ (i : Nat) (p : ControlPoint D), ps[i]? = some p →
      (Timings.finalizeLoop (some l) ps).1[i]? = some { p with beatLengthBase :=
        (((ps.take (i + 1)).reverse.find? (fun q => !q.inherited)).elim l.beatLengthBase
          (fun a => a.beatLength)) } := by
  induction ps generalizing l with
  | nil => intro i p h; simp at h
  | cons p rest ih =>
    intro i q hq
    have hb' : ∀ p ∈ rest, p.beatLengthBase = p.beatLength := fun p hp => hb p (by simp [hp])
    cases hp : p.inherited with
    | true =>
      rw [finalizeLoop_inh hp]
      cases i with
      | zero => simp at hq; subst hq; simp [hp]
      | succ i =>
        simp only [List.getElem?_cons_succ] at hq ⊢
        rw [ih _ hb' i q hq]
        simp only [List.take_succ_cons, List.reverse_cons, List.find?_append, List.find?_cons, hp,
          Bool.not_true, List.find?_nil]
        cases (List.find? (fun q => !q.inherited) (List.take (i + 1) rest).reverse) <;> simp
    | false =>
      rw [finalizeLoop_unt _ hp]
      cases i with
      | zero =>
        simp at hq; subst hq
        have := hb p (by simp)
        cases p
        simp_all
      | succ i =>
        simp only [List.getElem?_cons_succ] at hq ⊢
        rw [ih _ hb' i q hq]
        simp only [List.take_succ_cons, List.reverse_cons, List.find?_append, List.find?_cons, hp,
          Bool.not_false, List.find?_nil]
        have := hb p (by simp)
        cases (List.find? (fun q => !q.inherited) (List.take (i + 1) rest).reverse) <;> simp [this]

/-- An already finalised list is not changed again. -/
theorem finalizeLoop_idem (last : Option (ControlPoint D)) (ps : List (ControlPoint D)) :
    (Timings.finalizeLoop last (Timings.finalizeLoop last ps).1).1 =
      (Timings.finalizeLoop last ps).1 := by
  induction ps generalizing last with
  | nil => rfl
  | cons p rest ih =>
    cases hp : p.inherited with
    | false => rw [finalizeLoop_unt _ hp, finalizeLoop_unt _ hp, ih]
    | true =>
      cases last with
      | none => rw [finalizeLoop_first, finalizeLoop_first, ih]
      | some l => rw [finalizeLoop_inh hp, finalizeLoop_inh (by exact hp), ih]

end

section
variable {f : Fmt}

/-- `<` on times without NaN is a strict weak order. -/
theorem time_strictWeak (l : List (ControlPoint (Fl f))) (h : ∀ p ∈ l, NN p.time) :
    StrictWeak (fun a b : ControlPoint (Fl f) => a.time <. b.time) l where
  irrefl a _ := Fl.lt_irrefl _
  trans a _ b _ c _ h1 h2 := Fl.lt_trans h1 h2
  negTrans a ha b hb c hc h1 h2 := by
    have h1 := le_of_not_lt (h b hb) (h a ha) h1
    have h2 := le_of_not_lt (h c hc) (h b hb) h2
    exact not_lt_of_le (Fl.le_trans h2 h1)

/-- On a list sorted by time without NaN, the binary search of `GetPointAt` finds the
specified point. -/
theorem pointAt_pick {l : List (ControlPoint (Fl f))} (hn : ∀ p ∈ l, NN p.time)
    (hs : l.Pairwise (fun a b => (b.time <. a.time) = false)) {t : Fl f} (ht : NN t) :
    (l = [] → Timings.pointAt l t = .error .panic) ∧
    (l ≠ [] → ∃ p, Spec.pick l t = some p ∧ Timings.pointAt l t = .ok p) := by
  refine ⟨by rintro rfl; simp [Timings.pointAt, search, searchLoop, index, maxI], fun hne => ?_⟩
  have hlen : 0 < l.length := List.length_pos_iff.mpr hne
  set P : Nat → Bool := fun i => (l[i]?).elim true (fun p => t <. p.time) with hP
  have hsearch := searchLoop_spec P 0 l.length (by omega) (by
    intro a b _ hab hb ha
    have ha' : a < l.length := by omega
    simp only [hP, List.getElem?_eq_getElem ha', Option.elim] at ha
    simp only [hP, List.getElem?_eq_getElem hb, Option.elim]
    rcases Nat.lt_or_ge a b with h | h
    · have := List.pairwise_iff_getElem.mp hs a b ha' hb h
      exact lt_of_lt_of_le ha (le_of_not_lt (hn _ (List.getElem_mem ha')) (hn _ (List.getElem_mem hb)) this)
    · have : a = b := by omega
      subst this; exact ha)
  obtain ⟨_, hk, hlo, hhi⟩ := hsearch
  have hsd : search l.length P = searchLoop P 0 l.length := rfl
  rw [pointAt_eq, ← hP, hsd]
  generalize searchLoop P 0 l.length = k at hk hlo hhi
  -- the points not after `t` are the first `k`
  have hfilter : l.filter (fun p => p.time <=. t) = l.take k := by
    conv_lhs => rw [← List.take_append_drop k l]
    rw [List.filter_append]
    have h1 : (l.take k).filter (fun p => p.time <=. t) = l.take k := by
      rw [List.filter_eq_self]
      intro p hp
      obtain ⟨i, hi, rfl⟩ := List.getElem_of_mem hp
      rw [List.length_take] at hi
      have hi' : i < l.length := by omega
      have := hlo i (by omega) (by omega)
      simp only [hP, List.getElem?_eq_getElem hi', Option.elim] at this
      rw [List.getElem_take]
      exact le_of_not_lt (hn _ (List.getElem_mem hi')) ht this
    have h2 : (l.drop k).filter (fun p => p.time <=. t) = [] := by
      rw [List.filter_eq_nil_iff]
      intro p hp
      obtain ⟨i, hi, rfl⟩ := List.getElem_of_mem hp
      rw [List.length_drop] at hi
      have hi' : k + i < l.length := by omega
      have := hhi (k + i) (by omega) hi'
      simp only [hP, List.getElem?_eq_getElem hi', Option.elim] at this
      rw [List.getElem_drop]
      intro hc
      have hf : (t <. l[k + i].time) = false := not_lt_of_le hc
      rw [hf] at this
      cases this
    rw [h1, h2, List.append_nil]
  unfold Spec.pick
  rw [hfilter]
  rcases Nat.eq_zero_or_pos k with hk0 | hk0
  · subst hk0
    refine ⟨l[0], by simp [List.head?_eq_getElem?, List.getElem?_eq_getElem hlen], ?_⟩
    simp [maxI, index, List.getElem?_eq_getElem hlen]
  · have hkl : k - 1 < l.length := by omega
    refine ⟨l[k - 1], ?_, ?_⟩
    · rw [List.getLast?_eq_getElem?, List.length_take, Nat.min_eq_left hk,
        List.getElem?_take_of_lt (by omega), List.getElem?_eq_getElem hkl]
    · have e : maxI 0 ((k : Int) - 1) = ((k - 1 : Nat) : Int) := by
        unfold maxI; split <;> omega
      rw [e]
      simp [index, List.getElem?_eq_getElem hkl]

/-- A NaN query time finds the last point. -/
theorem pointAt_nan {l : List (ControlPoint (Fl f))} (hne : l ≠ []) :
    Timings.pointAt l nan = .ok (l.getLast hne) := by
  have hlen : 0 < l.length := List.length_pos_iff.mpr hne
  set P : Nat → Bool := fun i => (l[i]?).elim true (fun p => (nan : Fl f) <. p.time) with hP
  have hF : ∀ i, i < l.length → P i = false := by
    intro i hi
    simp only [hP, List.getElem?_eq_getElem hi, Option.elim]
    rfl
  have hsearch := searchLoop_spec P 0 l.length (by omega) (by
    intro a b _ hab hb ha
    rw [hF a (by omega)] at ha; cases ha)
  obtain ⟨_, hk, hlo, hhi⟩ := hsearch
  rw [pointAt_eq, ← hP, search]
  generalize searchLoop P 0 l.length = k at hk hlo hhi
  have hkn : k = l.length := by
    by_contra hc
    have := hhi k (by omega) (by omega)
    rw [hF k (by omega)] at this; cases this
  subst hkn
  have e : maxI 0 ((l.length : Int) - 1) = ((l.length - 1 : Nat) : Int) := by
    unfold maxI; split <;> omega
  rw [e]
  have : l.length - 1 < l.length := by omega
  simp [index, List.getElem?_eq_getElem this, List.getLast_eq_getElem]

end

section
variable {f : Fmt}

theorem pointAt_found {o : List (ControlPoint (Fl f))} (hn : ∀ p ∈ o, NN p.time)
    (hs : o.Pairwise (fun a b => (b.time <. a.time) = false)) {t : Fl f} {j : Nat}
    (hj : j < o.length) (h1 : (o[j].time <=. t) = true)
    (h2 : ∀ (h : j + 1 < o.length), (t <. (o[j + 1]).time) = true) :
    Timings.pointAt o t = .ok o[j] := by
  have hmono : ∀ a b (hb : b < o.length) (hab : a ≤ b), (o[a].time <=. o[b].time) = true := by
    intro a b hb hab
    rcases Nat.eq_or_lt_of_le hab with rfl | h
    · exact Fl.le_refl (hn _ (List.getElem_mem _))
    · exact le_of_not_lt (hn _ (List.getElem_mem _)) (hn _ (List.getElem_mem _))
        (List.pairwise_iff_getElem.mp hs a b (by omega) hb h)
  rw [pointAt_eq]
  obtain ⟨hA, hB⟩ := search_switch o.length (fun i => (o[i]?).elim true (fun p => t <. p.time))
  have hle := search_le o.length (fun i => (o[i]?).elim true (fun p => t <. p.time))
  generalize search o.length (fun i => (o[i]?).elim true (fun p => t <. p.time)) = k at hA hB hle
  have hk : k = j + 1 := by
    rcases Nat.lt_trichotomy k (j + 1) with h | h | h
    · have hk : k < o.length := by omega
      have := hA hk
      simp only [List.getElem?_eq_getElem hk, Option.elim] at this
      have h3 := hmono k j hj (by omega)
      have h4 : (t <. o[k].time) = false := not_lt_of_le (Fl.le_trans h3 h1)
      rw [h4] at this; cases this
    · exact h
    · have hk : k - 1 < o.length := by omega
      have := hB (by omega)
      simp only [List.getElem?_eq_getElem hk, Option.elim] at this
      have h3 := hmono (j + 1) (k - 1) hk (by omega)
      have h4 : (t <. o[k - 1].time) = true := lt_of_lt_of_le (h2 (by omega)) h3
      rw [h4] at this; cases this
  subst hk
  have e : maxI 0 (((j + 1 : Nat) : Int) - 1) = (j : Nat) := by unfold maxI; split <;> omega
  rw [e]
  simp [index, List.getElem?_eq_getElem hj]

theorem pointAt_before {o : List (ControlPoint (Fl f))} (hn : ∀ p ∈ o, NN p.time)
    (hs : o.Pairwise (fun a b => (b.time <. a.time) = false)) {t : Fl f}
    (hj : 0 < o.length) (h1 : (t <. o[0].time) = true) :
    Timings.pointAt o t = .ok o[0] := by
  rw [pointAt_eq]
  obtain ⟨hA, hB⟩ := search_switch o.length (fun i => (o[i]?).elim true (fun p => t <. p.time))
  have hle := search_le o.length (fun i => (o[i]?).elim true (fun p => t <. p.time))
  generalize search o.length (fun i => (o[i]?).elim true (fun p => t <. p.time)) = k at hA hB hle
  have hk : k = 0 := by
    by_contra hk0
    have hk : k - 1 < o.length := by omega
    have := hB (by omega)
    simp only [List.getElem?_eq_getElem hk, Option.elim] at this
    have h3 : (o[0].time <=. o[k - 1].time) = true := by
      rcases Nat.eq_zero_or_pos (k - 1) with h | h
      · simp only [h]; exact Fl.le_refl (hn _ (List.getElem_mem _))
      · exact le_of_not_lt (hn _ (List.getElem_mem _)) (hn _ (List.getElem_mem _))
          (List.pairwise_iff_getElem.mp hs 0 (k - 1) (by omega) hk h)
    have h4 : (t <. o[k - 1].time) = true := lt_of_lt_of_le h1 h3
    rw [h4] at this; cases this
  subst hk
  simp [index, maxI, List.getElem?_eq_getElem hj]

theorem getElem?_copies {α : Type} (o : List α) (n i : Nat) (hi : i < n * o.length) :
    (List.replicate n o).flatten[i]? = o[i % o.length]? := by
  induction n generalizing i with
  | zero => omega
  | succ n ih =>
    rw [List.replicate_succ, List.flatten_cons]
    rcases Nat.lt_or_ge i o.length with h | h
    · rw [List.getElem?_append_left h, Nat.mod_eq_of_lt h]
    · rw [List.getElem?_append_right h, ih _ (by rw [Nat.succ_mul] at hi; omega),
        ← Nat.mod_eq_sub_mod h]

/-- Searching several copies of a sorted list one after the other finds the same point as
searching one copy. -/
theorem pointAt_copies {o : List (ControlPoint (Fl f))} (hn : ∀ p ∈ o, NN p.time)
    (hs : o.Pairwise (fun a b => (b.time <. a.time) = false)) (n : Nat) (t : Fl f) :
    Timings.pointAt (List.replicate (n + 1) o).flatten t = Timings.pointAt o t := by
  rcases Nat.eq_zero_or_pos o.length with h0 | hm
  · rw [List.length_eq_zero_iff] at h0
    subst h0
    simp
  set L := (List.replicate (n + 1) o).flatten with hL
  have hlen : L.length = (n + 1) * o.length := by simp [hL]
  have hget : ∀ i, i < (n + 1) * o.length → L[i]? = some (o[i % o.length]'(Nat.mod_lt _ hm)) := by
    intro i hi
    rw [hL, getElem?_copies o (n + 1) i hi, List.getElem?_eq_getElem]
  have hpos : 0 < (n + 1) * o.length := by positivity
  by_cases ht : NN t
  swap
  · -- NaN: the last point of both
    have ht : t = nan := by cases t <;> simp_all [NN]
    subst ht
    have hne : o ≠ [] := List.length_pos_iff.mp hm
    have hLne : L ≠ [] := List.length_pos_iff.mp (by omega)
    rw [pointAt_nan hne, pointAt_nan hLne, List.getLast_eq_getElem, List.getLast_eq_getElem]
    congr 1
    have h1 : L.length - 1 < L.length := by omega
    have := hget (L.length - 1) (by omega)
    rw [List.getElem?_eq_getElem h1, Option.some_inj] at this
    rw [this]
    congr 1
    rw [hlen, Nat.succ_mul, Nat.add_sub_assoc hm, Nat.mul_comm, Nat.mul_add_mod,
      Nat.mod_eq_of_lt (by omega)]
  have hmono : ∀ a b (hb : b < o.length) (hab : a ≤ b), (o[a].time <=. o[b].time) = true := by
    intro a b hb hab
    rcases Nat.eq_or_lt_of_le hab with rfl | h
    · exact Fl.le_refl (hn _ (List.getElem_mem _))
    · exact le_of_not_lt (hn _ (List.getElem_mem _)) (hn _ (List.getElem_mem _))
        (List.pairwise_iff_getElem.mp hs a b (by omega) hb h)
  rw [pointAt_eq L]
  obtain ⟨hA, hB⟩ := search_switch L.length (fun i => (L[i]?).elim true (fun p => t <. p.time))
  have hle := search_le L.length (fun i => (L[i]?).elim true (fun p => t <. p.time))
  generalize search L.length (fun i => (L[i]?).elim true (fun p => t <. p.time)) = k at hA hB hle
  rcases Nat.eq_zero_or_pos k with hk | hk
  · subst hk
    have := hA (by omega)
    simp only [hget 0 hpos, Option.elim, Nat.zero_mod] at this
    rw [pointAt_before hn hs hm this]
    simp [index, maxI, hget 0 hpos]
  · have hi : k - 1 < (n + 1) * o.length := by omega
    have hb := hB hk
    simp only [hget _ hi, Option.elim] at hb
    have hble := le_of_not_lt (hn _ (List.getElem_mem _)) ht hb
    have e : maxI 0 ((k : Int) - 1) = ((k - 1 : Nat) : Int) := by unfold maxI; split <;> omega
    rw [e, pointAt_found hn hs (Nat.mod_lt (k - 1) hm) hble]
    · simp [index, hget _ hi]
    · intro hlt
      have hmod : k % o.length = (k - 1) % o.length + 1 := by
        conv_lhs => rw [show k = (k - 1) + 1 by omega, Nat.add_mod]
        rcases Nat.lt_or_ge 1 o.length with h1 | h1
        · rw [Nat.mod_eq_of_lt h1, Nat.mod_eq_of_lt hlt]
        · omega
      have hkl : k < L.length := by
        rcases Nat.lt_or_ge k L.length with h | h
        · exact h
        · have : k = (n + 1) * o.length := by omega
          rw [this, Nat.mul_mod_left] at hmod
          omega
      have := hA hkl
      simp only [hget k (by omega), Option.elim, hmod] at this
      exact this

end

section
variable {D : Type} [GoFloat D]

theorem addAll_eq (ps : List (ControlPoint D)) :
    (Spec.addAll ps).points = ps.map (fun p => { p with beatLengthBase := p.beatLength }) ∧
    (Spec.addAll ps).originalPoints = [] := by
  unfold Spec.addAll
  suffices H : ∀ t : Timings D,
      (ps.foldl (fun t p => t.addPoint p.time p.beatLength p.sampleSet p.sampleIndex p.sampleVolume
        p.signature p.inherited p.kiai p.omitFirstBarLine) t).points =
        t.points ++ ps.map (fun p => { p with beatLengthBase := p.beatLength }) ∧
      (ps.foldl (fun t p => t.addPoint p.time p.beatLength p.sampleSet p.sampleIndex p.sampleVolume
        p.signature p.inherited p.kiai p.omitFirstBarLine) t).originalPoints = t.originalPoints from
    ⟨by rw [(H _).1]; rfl, by rw [(H _).2]; rfl⟩
  induction ps with
  | nil => intro t; simp
  | cons p ps ih =>
    intro t
    rw [List.foldl_cons, (ih _).1, (ih _).2]
    simp [Timings.addPoint]

/-- forget the base beat length -/
def eraseBase (p : ControlPoint D) : ControlPoint D := { p with beatLengthBase := lit 0 }

theorem finalizeLoop_erase (last : Option (ControlPoint D)) (l : List (ControlPoint D)) :
    (Timings.finalizeLoop last l).1.map eraseBase = l.map eraseBase := by
  induction l generalizing last with
  | nil => rfl
  | cons p rest ih =>
    cases hp : p.inherited with
    | false => rw [finalizeLoop_unt _ hp, List.map_cons, List.map_cons, ih]
    | true =>
      cases last with
      | none => rw [finalizeLoop_first, List.map_cons, List.map_cons, ih]
      | some l => rw [finalizeLoop_inh hp, List.map_cons, List.map_cons, ih]; rfl

theorem pick_erase (l : List (ControlPoint D)) (t : D) :
    Spec.pick (l.map eraseBase) t = (Spec.pick l t).map eraseBase := by
  have e : (l.map eraseBase).filter (fun p => p.time <=. t) =
      (l.filter (fun p => p.time <=. t)).map eraseBase := by
    rw [List.filter_map]; rfl
  unfold Spec.pick
  rw [e, List.getLast?_map, List.head?_map]
  cases (l.filter (fun p => p.time <=. t)).getLast? <;> rfl

theorem sameButBase_of_erase {p q : ControlPoint D} (h : eraseBase p = eraseBase q) :
    Spec.SameButBase p q := by
  cases p; cases q
  simp only [eraseBase, ControlPoint.mk.injEq] at h
  simp [Spec.SameButBase, h]

theorem finalizeLoop_baseOf (S : List (ControlPoint D))
    (hb : ∀ p ∈ S, p.beatLengthBase = p.beatLength) :
    Spec.BaseOf S (Timings.finalizeLoop none S).1 := by
  refine ⟨finalizeLoop_length _ _, ?_⟩
  cases S with
  | nil => intro i p h; simp at h
  | cons p0 rest =>
    intro i p hi
    have hb0 := hb p0 (by simp)
    rw [finalizeLoop_first]
    cases i with
    | zero =>
      simp at hi; subst hi
      refine ⟨0, p0, le_refl _, rfl, Or.inl rfl, fun k q h1 h2 => by omega, ?_⟩
      cases p0; simp_all
    | succ i =>
      simp only [List.getElem?_cons_succ] at hi ⊢
      rw [finalizeLoop_base p0 rest (fun p hp => hb p (by simp [hp])) i p hi]
      cases hf : (rest.take (i + 1)).reverse.find? (fun q => !q.inherited) with
      | none =>
        refine ⟨0, p0, by omega, rfl, Or.inl rfl, ?_, by simp [hb0]⟩
        intro k q h1 h2 hq
        rw [List.find?_eq_none] at hf
        have : q ∈ (rest.take (i + 1)).reverse := by
          obtain ⟨k, rfl⟩ : ∃ k', k = k' + 1 := ⟨k - 1, by omega⟩
          rw [List.getElem?_cons_succ] at hq
          rw [List.mem_reverse]
          refine List.mem_of_getElem? (i := k) ?_
          rw [List.getElem?_take_of_lt (by omega)]; exact hq
        simpa using hf q this
      | some a =>
        rw [List.find?_eq_some_iff_getElem] at hf
        obtain ⟨ha, n, hn, hna, hlt⟩ := hf
        have hlen : (rest.take (i + 1)).length = i + 1 := by
          rw [List.length_take]
          have := (List.getElem?_eq_some_iff.mp hi).1
          omega
        rw [List.length_reverse, hlen] at hn
        refine ⟨i - n + 1, a, by omega, ?_, Or.inr (by simpa using ha), ?_, rfl⟩
        · rw [List.getElem?_cons_succ, ← hna, List.getElem_reverse, List.getElem_take,
            List.getElem?_eq_getElem]
          · congr 2
            omega
          · have := (List.getElem?_eq_some_iff.mp hi).1
            omega
        · intro k q h1 h2 hq
          obtain ⟨k, rfl⟩ : ∃ k', k = k' + 1 := ⟨k - 1, by omega⟩
          rw [List.getElem?_cons_succ] at hq
          have hkl := (List.getElem?_eq_some_iff.mp hq).1
          have := hlt (i - k) (by omega)
          rw [List.getElem_reverse, List.getElem_take] at this
          have e : rest[(List.take (i + 1) rest).length - 1 - (i - k)]'(by omega) = q := by
            have := (List.getElem?_eq_some_iff.mp hq).2
            rw [← this]
            congr 1
            omega
          rw [e] at this
          simpa using this

end

variable [GoSort]

theorem finalize_points {f : Fmt} (tim : Timings (Fl f)) (hn : ∀ p ∈ tim.points, NN p.time) :
    (tim.finalizePoints).points = (Timings.finalizeLoop none (Spec.byTime tim.points)).1 ∧
    (tim.finalizePoints).originalPoints =
      tim.originalPoints ++ Spec.originals (tim.finalizePoints).points ∧
    (tim.finalizePoints).points.Pairwise (fun a b => (b.time <. a.time) = false) ∧
    (∀ p ∈ (tim.finalizePoints).points, NN p.time) := by
  have hw := time_strictWeak tim.points hn
  have he : GoSort.stable (fun a b : ControlPoint (Fl f) => a.time <. b.time) tim.points =
      Spec.byTime tim.points := stable_eq_insertionSort hw
  have h1 : (tim.finalizePoints).points = (Timings.finalizeLoop none (Spec.byTime tim.points)).1 := by
    unfold Timings.finalizePoints; simp only [he]
  have hsorted := insertionSort_sorted hw
  have ht := finalizeLoop_time none (Spec.byTime tim.points)
  refine ⟨h1, ?_, ?_, ?_⟩
  · rw [h1, ← (finalizeLoop_none _).1]
    unfold Timings.finalizePoints; simp only [he]
  · rw [h1]
    rw [← List.pairwise_map (f := fun p : ControlPoint (Fl f) => p.time) (R := fun a b => (b <. a) = false), ht,
      List.pairwise_map]
    exact hsorted
  · rw [h1]
    intro p hp
    have : p.time ∈ (Timings.finalizeLoop none (Spec.byTime tim.points)).1.map (fun p => p.time) :=
      List.mem_map_of_mem hp
    rw [ht, List.mem_map] at this
    obtain ⟨q, hq, hqe⟩ := this
    rw [← hqe]
    exact hn q ((insertionSort_perm _ _).mem_iff.mp hq)

end GosuPP
