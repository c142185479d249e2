import Verif.Spec.Malformed
import Verif.Lemmas.Curve
import Verif.Lemmas.ParserLines
import Verif.Props.Bezier

/-! Which lines cannot be read. -/

namespace GosuPP
open Go
variable {S D : Type} [GoFloat S] [GoFloat D] [GoConv S D]

theorem index_none {α : Type} {l : List α} {n : Nat} (h : l.length ≤ n) : index l (n : Int) = .error .panic := by
  unfold index
  rw [if_neg (by omega), Int.toNat_natCast, List.getElem?_eq_none h]

theorem index_get {α : Type} {l : List α} {n : Nat} (h : n < l.length) : index l (n : Int) = .ok l[n] :=
  index_of (List.getElem?_eq_getElem h)

/-! ### Paths -/

theorem processBezierLoop_no_panic (fuel : Nat) (points : List (Vec S)) (k i last : Nat) (h : last ≤ i) :
    processBezierLoop fuel points k i last ≠ .error .panic := by
  induction k generalizing i last with
  | zero => rw [processBezierLoop]; exact fun h => by cases h
  | succ k ih =>
    rw [processBezierLoop]
    cases hp : points[i]? with
    | none => exact fun h => by cases h
    | some p =>
      simp only
      have hi : i < points.length := by
        by_contra hc
        rw [List.getElem?_eq_none (by omega)] at hp
        cases hp
      generalize (decide (i + 2 < points.length) &&
        match points[i + 1]? with | some q => p.eq q | none => false) = multi
      have hrest : ∀ ls : List (Linear S), (do
          let rest ← processBezierLoop fuel points k ((if multi = true then i + 1 else i) + 1)
            (if multi = true then i + 1 else i)
          return ls ++ rest) ≠ .error .panic := by
        intro ls hc
        have hr := ih ((if multi = true then i + 1 else i) + 1) (if multi = true then i + 1 else i) (by omega)
        generalize processBezierLoop fuel points k _ _ = q at hc hr
        cases q with
        | ok x => cases hc
        | error e => cases e <;> first | exact hr rfl | cases hc
      split
      · have hne : (points.drop last).take (i + 1 - last) ≠ [] := by
          intro h0
          have := congrArg List.length h0
          rw [List.length_take, List.length_drop, List.length_nil] at this
          omega
        generalize (points.drop last).take (i + 1 - last) = sub at hne ⊢
        split
        · exact hrest _
        · cases hb : Approximator.createBezier fuel sub with
          | ok x =>
            have : approximateBezier fuel sub = .ok (joinPoints x) := by
              unfold approximateBezier; rw [hb]; rfl
            rw [this]
            exact hrest _
          | error e =>
            have : approximateBezier fuel sub = .error e := by
              unfold approximateBezier; rw [hb]; rfl
            rw [this]
            intro hc
            cases e with
            | panic => exact hne ((C35_panic fuel sub).mp hb)
            | hang => cases hc
      · exact ih _ _ (by omega)

theorem processBezier_no_panic (fuel : Nat) (points : List (Vec S)) :
    processBezier fuel points ≠ .error .panic := processBezierLoop_no_panic fuel points _ _ _ (Nat.le_refl 0)

section
variable [GoLibm D]

/-- Only arcs through three points can panic. -/
theorem processType_panic {fuel : Nat} {typ : Str} {points : List (Vec S)}
    (h : processType (D := D) fuel typ points = .error .panic) : typ = ['P'] ∧ points.length = 3 := by
  unfold processType at h
  split at h
  · rename_i ht
    refine ⟨ht, ?_⟩
    unfold processPerfect at h
    split at h
    · exact absurd h (processBezier_no_panic fuel points)
    · split at h
      · rfl
      · cases h
  split at h
  · cases h
  split at h
  · exact absurd h (processBezier_no_panic fuel points)
  split at h <;> cases h

/-- Paths that are neither arcs nor Bezier curves are always made. -/
theorem processType_ok {fuel : Nat} {typ : Str} {points : List (Vec S)} (hP : typ ≠ ['P']) (hB : typ ≠ ['B']) :
    ∃ ls, processType (D := D) fuel typ points = .ok ls := by
  unfold processType
  rw [if_neg hP, if_neg hB]
  split
  · exact ⟨_, rfl⟩
  · split <;> exact ⟨_, rfl⟩

theorem newT_cases (fuel : Nat) (typ : Str) (p : Vec S) (points : List (Vec S)) (len : D) :
    (∃ e, processType (D := D) fuel typ (p :: points) = .error e ∧
      MultiCurve.newT fuel typ (p :: points) len = .error e) ∨
    ∃ ls mc, processType (D := D) fuel typ (p :: points) = .ok ls ∧
      MultiCurve.newT fuel typ (p :: points) len = .ok mc := by
  unfold MultiCurve.newT
  cases processType (D := D) fuel typ (p :: points) with
  | error e => exact .inl ⟨e, rfl, rfl⟩
  | ok ls => exact .inr ⟨ls, _, rfl, rfl⟩

/-! ### Records -/

omit [GoLibm D] in
theorem commonParse_ok {f : List Str} (h : 5 ≤ f.length) : ∃ b, commonParse (S := S) (D := D) f = .ok b ∧
    ∃ n, b.sounds = [n] := by
  unfold commonParse
  have h0 := index_get (l := f) (n := 0) (by omega)
  have h1 := index_get (l := f) (n := 1) (by omega)
  have h2 := index_get (l := f) (n := 2) (by omega)
  have h3 := index_get (l := f) (n := 3) (by omega)
  have h4 := index_get (l := f) (n := 4) (by omega)
  simp only [Nat.cast_zero, Nat.cast_one, Nat.cast_ofNat] at h0 h1 h2 h3 h4
  simp only [h0, h1, h2, h3, h4, ok_bind]
  exact ⟨_, rfl, _, rfl⟩

omit [GoLibm D] in
theorem commonParse_panic {f : List Str} (h : f.length < 5) :
    commonParse (S := S) (D := D) f = .error .panic := by
  unfold commonParse
  have hi : ∀ n : Nat, index f (n : Int) = .error .panic ∨ ∃ v, index f (n : Int) = .ok v := by
    intro n
    by_cases hn : n < f.length
    · exact .inr ⟨_, index_get hn⟩
    · exact .inl (index_none (by omega))
  have h4 := index_none (l := f) (n := 4) (by omega)
  have h0 := hi 0
  have h1 := hi 1
  have h2 := hi 2
  have h3 := hi 3
  simp only [Nat.cast_zero, Nat.cast_one, Nat.cast_ofNat] at h0 h1 h2 h3 h4
  rcases h0 with h0 | ⟨v0, h0⟩
  · simp only [h0]; rfl
  rcases h1 with h1 | ⟨v1, h1⟩
  · simp only [h0, h1, ok_bind]; rfl
  rcases h2 with h2 | ⟨v2, h2⟩
  · simp only [h0, h1, h2, ok_bind]; rfl
  rcases h3 with h3 | ⟨v3, h3⟩
  · simp only [h0, h1, h2, h3, ok_bind]; rfl
  simp only [h0, h1, h2, h3, h4, ok_bind]
  rfl

theorem split_colon {p : Str} : 2 ≤ (split ':' p).length ↔ ':' ∈ p := by
  constructor
  · intro h
    by_contra hc
    rw [split_none hc] at h
    simp at h
  · intro h
    exact split_length_of_mem h

omit [GoFloat D] [GoConv S D] [GoLibm D] in
theorem parsePoints_ok {l : List Str} (h : ∀ p ∈ l, ':' ∈ p) :
    ∃ ps, parsePoints (S := S) l = .ok ps ∧ ps.length = l.length := by
  induction l with
  | nil => exact ⟨[], rfl, rfl⟩
  | cons p l ih =>
    obtain ⟨ps, h1, h2⟩ := ih (fun q hq => h q (List.mem_cons_of_mem _ hq))
    have hl := split_colon.mpr (h p (List.mem_cons_self ..))
    have i0 := index_get (l := split ':' p) (n := 0) (by omega)
    have i1 := index_get (l := split ':' p) (n := 1) (by omega)
    simp only [Nat.cast_zero, Nat.cast_one] at i0 i1
    rw [parsePoints]
    simp only [i0, i1, h1, ok_bind]
    exact ⟨_, rfl, by simp [h2]⟩

omit [GoFloat D] [GoConv S D] [GoLibm D] in
theorem parsePoints_panic {l : List Str} {p : Str} (hp : p ∈ l) (hc : ':' ∉ p) :
    parsePoints (S := S) l = .error .panic := by
  induction l with
  | nil => cases hp
  | cons q l ih =>
    rw [parsePoints]
    have i0 := index_get (l := split ':' q) (n := 0) (split_length ':' q)
    simp only [Nat.cast_zero] at i0
    by_cases hq : ':' ∈ q
    · have i1 := index_get (l := split ':' q) (n := 1) (split_colon.mpr hq)
      simp only [Nat.cast_one] at i1
      have hl : p ∈ l := by
        rcases List.mem_cons.mp hp with rfl | h
        · exact absurd hq hc
        · exact h
      simp only [i0, i1, ih hl, ok_bind]
      rfl
    · have i1 := index_none (l := split ':' q) (n := 1) (by
        have := mt split_colon.mp hq; omega)
      simp only [Nat.cast_one] at i1
      simp only [i0, i1, ok_bind]
      rfl

omit [GoFloat S] [GoFloat D] [GoConv S D] [GoLibm D] in
theorem setSounds_cases (vs : List Str) (i : Nat) (sounds : List Int) :
    (vs = [] ∨ i + vs.length ≤ sounds.length) ∧ (∃ s, setSounds vs i sounds = .ok s) ∨
    (vs ≠ [] ∧ sounds.length < i + vs.length) ∧ setSounds vs i sounds = .error .panic := by
  induction vs generalizing i sounds with
  | nil => exact .inl ⟨.inl rfl, _, rfl⟩
  | cons v vs ih =>
    rw [setSounds]
    split
    · rename_i hi
      rcases ih (i + 1) (sounds.set i (parseInt v)) with ⟨h1, h2⟩ | ⟨h1, h2⟩
      · refine .inl ⟨.inr ?_, h2⟩
        rcases h1 with rfl | h1
        · simp only [List.length_cons, List.length_nil]; omega
        · rw [List.length_set] at h1
          simp only [List.length_cons]; omega
      · refine .inr ⟨⟨by simp, ?_⟩, h2⟩
        rw [List.length_set] at h1
        simp only [List.length_cons]; omega
    · exact .inr ⟨⟨by simp, by simp only [List.length_cons]; omega⟩, rfl⟩

omit [GoFloat S] [GoFloat D] [GoConv S D] [GoLibm D] in
theorem edgeSounds_cases (f : List Str) (sounds : List Int) :
    ¬(8 < f.length ∧ sounds.length < (split '|' ((f[8]?).getD [])).length) ∧
      (∃ s, edgeSounds f sounds = .ok s) ∨
    (8 < f.length ∧ sounds.length < (split '|' ((f[8]?).getD [])).length) ∧
      edgeSounds f sounds = .error .panic := by
  unfold edgeSounds
  split
  · rename_i h
    have h : 8 < f.length := h
    have i8 := index_get (l := f) (n := 8) h
    simp only [Nat.cast_ofNat] at i8
    rw [List.getElem?_eq_getElem h]
    simp only [i8, ok_bind, Option.getD_some]
    have hne := split_ne_nil '|' f[8]
    rcases setSounds_cases (split '|' f[8]) 0 sounds with ⟨h1, h2⟩ | ⟨h1, h2⟩
    · refine .inl ⟨?_, h2⟩
      rcases h1 with h1 | h1
      · exact absurd h1 hne
      · omega
    · exact .inr ⟨⟨h, by omega⟩, h2⟩
  · rename_i h
    exact .inl ⟨fun hc => h hc.1, _, rfl⟩

theorem addI64_small {r : Int} (h1 : -2 ^ 63 ≤ r) (h2 : r < 2 ^ 63 - 1) : addI64 r 1 = r + 1 := by
  unfold addI64
  rw [BitVec.toInt_ofInt]
  simp only [Int.bmod]
  omega

theorem parseUint_bound : ∀ (s : Str) (n m : Nat), parseUintLoop s n = .ok m → n ≤ 18446744073709551615 →
    m ≤ 18446744073709551615 := by
  intro s
  induction s with
  | nil => intro n m h hn; cases h; exact hn
  | cons c s ih =>
    intro n m h hn
    rw [parseUintLoop] at h
    split at h
    · simp only at h
      split at h
      · cases h
      · exact ih _ _ h (by omega)
    · cases h

theorem parseInt_range (s : Str) : -2 ^ 63 ≤ parseInt s ∧ parseInt s ≤ 2 ^ 63 - 1 := by
  unfold parseInt
  simp only
  split
  · omega
  · split <;> omega
  · split
    · split <;> omega
    · split <;> omega

omit [GoLibm D] in
/-- The allocation of the sounds. -/
theorem makeCheck_sounds (r : Int) (h : -2 ^ 63 ≤ r ∧ r ≤ 2 ^ 63 - 1) :
    (r < -1 ∨ 2 ^ 45 ≤ r) ∧ makeCheck 8 (addI64 r 1) = .error .panic ∨
    (-1 ≤ r ∧ r < 2 ^ 45) ∧ makeCheck 8 (addI64 r 1) = .ok () ∧ addI64 r 1 = r + 1 := by
  unfold makeCheck
  by_cases hr : r = 2 ^ 63 - 1
  · subst hr
    left
    refine ⟨by omega, ?_⟩
    have : addI64 (2 ^ 63 - 1) 1 = -2 ^ 63 := by decide
    rw [this]
    decide
  · rw [addI64_small (by omega) (by omega)]
    by_cases hb : r < -1 ∨ 2 ^ 45 ≤ r
    · left
      refine ⟨hb, if_pos ?_⟩
      omega
    · right
      refine ⟨by omega, if_neg (by omega), rfl⟩

/-- What a slider record can do. -/
theorem newSlider_cases (fuel : Nat) {f : List Str} (hk : Spec.lineKind f = .slider) :
    (f.length < 8 ∨ ∃ p ∈ (Spec.path f).tail, ':' ∉ p) ∧
      newSlider (S := S) (D := D) fuel f = .error .panic ∨
    ¬(f.length < 8 ∨ ∃ p ∈ (Spec.path f).tail, ':' ∉ p) ∧
      ((∃ e, newSlider (S := S) (D := D) fuel f = .error e ∧
          (e = .panic → Spec.ArcRecord f) ∧
          ((Spec.path f)[0]? = some ['P'] ∨ (Spec.path f)[0]? = some ['B'])) ∨
        (Spec.BadEdges f ∧ newSlider (S := S) (D := D) fuel f = .error .panic) ∨
        (¬ Spec.BadEdges f ∧ ∃ o, newSlider (S := S) (D := D) fuel f = .ok o)) := by
  unfold newSlider
  by_cases h5 : f.length < 5
  · left
    refine ⟨.inl (by omega), ?_⟩
    simp only [commonParse_panic (S := S) (D := D) h5]
    rfl
  obtain ⟨b, hb, n, hn⟩ := commonParse_ok (S := S) (D := D) (f := f) (by omega)
  by_cases h8 : f.length < 8
  · left
    refine ⟨.inl h8, ?_⟩
    have i7 := index_none (l := f) (n := 7) (by omega)
    simp only [Nat.cast_ofNat] at i7
    simp only [hb, i7, ok_bind]
    rfl
  have i7 := index_get (l := f) (n := 7) (by omega)
  have i6 := index_get (l := f) (n := 6) (by omega)
  have i5 := index_get (l := f) (n := 5) (by omega)
  simp only [Nat.cast_ofNat] at i7 i6 i5
  have hpath : split '|' f[5] = Spec.path f := by
    unfold Spec.path
    rw [List.getElem?_eq_getElem (by omega), Option.getD_some]
  have hrep : parseInt f[6] = Spec.repeats f := by
    unfold Spec.repeats
    rw [List.getElem?_eq_getElem (by omega), Option.getD_some]
  simp only [hb, i7, i6, i5, ok_bind, hpath, hrep]
  by_cases hp : ∃ p ∈ (Spec.path f).tail, ':' ∉ p
  · left
    refine ⟨.inr hp, ?_⟩
    obtain ⟨p, hp1, hp2⟩ := hp
    simp only [parsePoints_panic hp1 hp2]
    rfl
  right
  refine ⟨fun h => h.elim h8 hp, ?_⟩
  obtain ⟨ps, hps, hlen⟩ := parsePoints_ok (S := S) (l := (Spec.path f).tail) (by
    intro p hp1
    by_contra hc
    exact hp ⟨p, hp1, hc⟩)
  have hpos : 0 < (Spec.path f).length := split_length _ _
  have i0 := index_get hpos
  simp only [Nat.cast_zero] at i0
  simp only [hps, i0, ok_bind]
  rcases newT_cases fuel (Spec.path f)[0] b.startPosRaw ps (parseFloat f[7] : D) with
    ⟨e, e1, e2⟩ | ⟨ls, mc, -, e2⟩
  · left
    refine ⟨e, by simp only [e2]; rfl, ?_, ?_⟩
    · rintro rfl
      obtain ⟨t1, t2⟩ := processType_panic e1
      refine ⟨hk, ?_, ?_⟩
      · rw [List.getElem?_eq_getElem hpos, t1]
      · rw [List.length_cons, hlen, List.length_tail] at t2
        omega
    · rw [List.getElem?_eq_getElem hpos]
      by_contra hc
      rw [not_or] at hc
      obtain ⟨ls, hls⟩ := processType_ok (D := D) (fuel := fuel) (points := b.startPosRaw :: ps)
        (fun h => hc.1 (congrArg some h)) (fun h => hc.2 (congrArg some h))
      rw [hls] at e1
      cases e1
  · right
    obtain ⟨q, hq⟩ := mc.pointAt_ok (MultiCurve.newT_shaped e2) (lit 1)
    have s0 : index b.sounds 0 = .ok n := by rw [hn]; rfl
    simp only [e2, hq, s0, ok_bind]
    rcases makeCheck_sounds (Spec.repeats f) (parseInt_range _) with ⟨m1, m2⟩ | ⟨m1, m2, m3⟩
    · left
      refine ⟨⟨hk, by tauto⟩, ?_⟩
      simp only [m2]
      rfl
    · rw [m3] at m2
      simp only [m3, m2, ok_bind]
      rcases edgeSounds_cases f (List.replicate (Spec.repeats f + 1).toNat n) with ⟨g1, s, g2⟩ | ⟨g1, g2⟩
      · right
        rw [List.length_replicate] at g1
        refine ⟨?_, ?_⟩
        · rintro ⟨-, h | h | h⟩
          · omega
          · omega
          · exact g1 ⟨h.1, by omega⟩
        · simp only [g2, ok_bind]
          exact ⟨_, rfl⟩
      · left
        rw [List.length_replicate] at g1
        refine ⟨⟨hk, .inr (.inr ⟨g1.1, by omega⟩)⟩, ?_⟩
        simp only [g2]
        rfl

/-- What a hit object record can do. -/
theorem parseHitObjectLine_cases (fuel : Nat) (f : List Str) (b : BeatMap S D) :
    Spec.BadObject f ∧ parseHitObjectLine fuel f b = .error .panic ∨
    ¬ Spec.BadObject f ∧
      ((∃ e, parseHitObjectLine fuel f b = .error e ∧ (e = .panic → Spec.ArcRecord f) ∧
          Spec.lineKind f = .slider ∧
          ((Spec.path f)[0]? = some ['P'] ∨ (Spec.path f)[0]? = some ['B'])) ∨
        (Spec.BadEdges f ∧ parseHitObjectLine fuel f b = .error .panic) ∨
        (¬ Spec.BadEdges f ∧ ∃ b', parseHitObjectLine fuel f b = .ok b')) := by
  by_cases h4 : f.length < 4
  · left
    refine ⟨.inl h4, ?_⟩
    unfold parseHitObjectLine countObject
    have i3 := index_none (l := f) (n := 3) (by omega)
    simp only [Nat.cast_ofNat] at i3
    simp only [i3]
    rfl
  have i3 := index_get (l := f) (n := 3) (by omega)
  have i2 := index_get (l := f) (n := 2) (by omega)
  simp only [Nat.cast_ofNat] at i3 i2
  have hkind := lineKind_eq (List.getElem?_eq_getElem (l := f) (i := 3) (by omega))
  have hbad : Spec.BadObject f ↔ match Spec.lineKind f with
      | .circle => f.length < 5
      | .spinner => f.length < 6
      | .slider => f.length < 8 ∨ ∃ p ∈ (Spec.path f).tail, ':' ∉ p
      | .hold => f.length < 6
      | .other => False := by
    unfold Spec.BadObject
    exact ⟨fun h => h.resolve_left h4, .inr⟩
  have hedge : Spec.lineKind f ≠ .slider → ¬ Spec.BadEdges f := fun h hc => h hc.1
  unfold parseHitObjectLine countObject parseHitObjects createObject
  simp only [i3, ok_bind]
  by_cases c1 : typeCircle (parseInt f[3]) = true
  · rw [if_pos c1] at hkind
    rw [hbad, hkind]
    have he := hedge (by rw [hkind]; decide)
    simp only [c1, if_true, i2, ok_bind, pure_bind]
    by_cases h5 : f.length < 5
    · left
      refine ⟨h5, ?_⟩
      unfold newCircle
      simp only [commonParse_panic h5]
      rfl
    · right
      obtain ⟨x, hx, -⟩ := commonParse_ok (S := S) (D := D) (f := f) (by omega)
      refine ⟨h5, .inr (.inr ⟨he, ?_⟩)⟩
      unfold newCircle
      simp only [hx, ok_bind]
      exact ⟨_, rfl⟩
  rw [if_neg c1] at hkind
  by_cases c2 : typeSpinner (parseInt f[3]) = true
  · rw [if_pos c2] at hkind
    rw [hbad, hkind]
    have he := hedge (by rw [hkind]; decide)
    simp only [c1, c2, if_true, if_false, Bool.false_eq_true]
    by_cases h6 : f.length < 6
    · left
      refine ⟨h6, ?_⟩
      have i5 := index_none (l := f) (n := 5) (by omega)
      simp only [Nat.cast_ofNat] at i5
      simp only [i5]
      rfl
    · right
      have i5 := index_get (l := f) (n := 5) (by omega)
      simp only [Nat.cast_ofNat] at i5
      obtain ⟨x, hx, -⟩ := commonParse_ok (S := S) (D := D) (f := f) (by omega)
      refine ⟨h6, .inr (.inr ⟨he, ?_⟩)⟩
      unfold newSpinner
      simp only [hx, i5, ok_bind, pure_bind]
      exact ⟨_, rfl⟩
  rw [if_neg c2] at hkind
  by_cases c3 : typeSlider (parseInt f[3]) = true
  · rw [if_pos c3] at hkind
    rw [hbad, hkind]
    simp only [c1, c2, c3, if_true, if_false, Bool.false_eq_true, i2, ok_bind, pure_bind]
    rcases newSlider_cases (S := S) (D := D) fuel hkind with ⟨h1, h2⟩ | ⟨h1, ⟨e, h2, h3, h4⟩ | ⟨h2, h3⟩ | ⟨h2, o, h3⟩⟩
    · exact .inl ⟨h1, by simp only [h2]; rfl⟩
    · exact .inr ⟨h1, .inl ⟨e, by simp only [h2]; rfl, h3, trivial, h4⟩⟩
    · exact .inr ⟨h1, .inr (.inl ⟨h2, by simp only [h3]; rfl⟩)⟩
    · exact .inr ⟨h1, .inr (.inr ⟨h2, by simp only [h3]; exact ⟨_, rfl⟩⟩)⟩
  rw [if_neg c3] at hkind
  have he : Spec.lineKind f ≠ .slider := by
    rw [hkind]
    split <;> decide
  by_cases c4 : typeLongNote (parseInt f[3]) = true
  · rw [if_pos c4] at hkind
    rw [hbad, hkind]
    have he := hedge (by rw [hkind]; decide)
    simp only [c1, c2, c3, c4, if_true, if_false, Bool.false_eq_true]
    by_cases h6 : f.length < 6
    · left
      refine ⟨h6, ?_⟩
      have i5 := index_none (l := f) (n := 5) (by omega)
      simp only [Nat.cast_ofNat] at i5
      simp only [i5]
      rfl
    · right
      have i5 := index_get (l := f) (n := 5) (by omega)
      have i0 := index_get (split_length ':' f[5])
      simp only [Nat.cast_ofNat, Nat.cast_zero] at i5 i0
      refine ⟨h6, .inr (.inr ⟨he, ?_⟩)⟩
      simp only [i5, i0, ok_bind, pure_bind]
      exact ⟨_, rfl⟩
  · rw [if_neg c4] at hkind
    rw [hbad, hkind]
    right
    refine ⟨id, .inr (.inr ⟨hedge he, ?_⟩)⟩
    simp only [c1, c2, c3, c4, if_false, Bool.false_eq_true, pure_bind]
    exact ⟨_, rfl⟩

omit [GoLibm D] [GoFloat S] [GoConv S D] in
theorem parseEvents_cases (f : List Str) (h2 : 1 < f.length) (b : BeatMap S D) :
    Spec.BadEvent f ∧ parseEvents f b = .error .panic ∨ ¬ Spec.BadEvent f ∧ ∃ b', parseEvents f b = .ok b' := by
  have i0 := index_get (l := f) (n := 0) (by omega)
  have g0 : f[0]? = some f[0] := List.getElem?_eq_getElem _
  have i1 := index_get (l := f) (n := 1) h2
  simp only [Nat.cast_zero, Nat.cast_one] at i0 i1
  unfold parseEvents Spec.BadEvent newPause
  simp only [i0, g0, i1, ok_bind, Option.some.injEq]
  by_cases h3 : f.length < 3
  · have j := index_none (l := f) (n := 2) (by omega)
    simp only [Nat.cast_ofNat] at j
    simp only [j, h3, and_true]
    by_cases c1 : f[0] = "Background".toList ∨ f[0] = ['0']
    · left
      rw [if_pos c1]
      exact ⟨c1.elim .inl (fun h => .inr (.inl h)), rfl⟩
    rw [if_neg c1]
    by_cases c2 : f[0] = "Break".toList ∨ f[0] = ['2']
    · left
      rw [if_pos c2]
      exact ⟨.inr (.inr c2), rfl⟩
    rw [if_neg c2]
    right
    refine ⟨?_, _, rfl⟩
    rintro (h | h | h)
    · exact c1 (.inl h)
    · exact c1 (.inr h)
    · exact c2 h
  · right
    refine ⟨fun h => h3 h.2, ?_⟩
    have j := index_get (l := f) (n := 2) (by omega)
    simp only [Nat.cast_ofNat] at j
    simp only [j, ok_bind]
    split
    · exact ⟨_, rfl⟩
    split <;> exact ⟨_, rfl⟩

omit [GoLibm D] [GoFloat S] [GoConv S D] in
theorem parsePoint_total {line : Str} (h : 2 ≤ (split ',' line).length) (b : BeatMap S D) :
    ∃ b', b.parsePoint line = .ok b' := by
  have i0 := index_get (l := split ',' line) (n := 0) (by omega)
  have i1 := index_get (l := split ',' line) (n := 1) (by omega)
  simp only [Nat.cast_zero, Nat.cast_one] at i0 i1
  unfold BeatMap.parsePoint
  simp only [i0, i1, ok_bind]
  exact ⟨_, rfl⟩

/-- A record that cannot be read. -/
def Bad (p : Str × Str) : Prop :=
  ∃ f, Spec.fields p.2 = some f ∧
    (p.1 = "Events".toList ∧ Spec.BadEvent f ∨ p.1 = "HitObjects".toList ∧ Spec.BadObject f)

/-- A slider record. -/
def SliderLine (P : List Str → Prop) (p : Str × Str) : Prop :=
  ∃ f, Spec.fields p.2 = some f ∧ p.1 = "HitObjects".toList ∧ P f

/-- What a line can do. -/
theorem parseInSection_cases (fuel : Nat) (sec line : Str) (st : ParseState S D) :
    Bad (sec, line) ∧ parseInSection fuel sec line st = .error .panic ∨
    ¬ Bad (sec, line) ∧
      ((∃ e, parseInSection fuel sec line st = .error e ∧ (e = .panic → SliderLine Spec.ArcRecord (sec, line)) ∧
          SliderLine (fun f => Spec.lineKind f = .slider ∧
            ((Spec.path f)[0]? = some ['P'] ∨ (Spec.path f)[0]? = some ['B'])) (sec, line)) ∨
        (SliderLine Spec.BadEdges (sec, line) ∧ parseInSection fuel sec line st = .error .panic) ∨
        (¬ SliderLine Spec.BadEdges (sec, line) ∧ ∃ st', parseInSection fuel sec line st = .ok st' ∧
          st'.currentSection = st.currentSection)) := by
  have other : sec ≠ "Events".toList → sec ≠ "HitObjects".toList → ∀ {r : Result (ParseState S D)} {st'},
      r = .ok st' → st'.currentSection = st.currentSection →
      Bad (sec, line) ∧ r = .error .panic ∨
      ¬ Bad (sec, line) ∧
      ((∃ e, r = .error e ∧ (e = .panic → SliderLine Spec.ArcRecord (sec, line)) ∧
          SliderLine (fun f => Spec.lineKind f = .slider ∧
            ((Spec.path f)[0]? = some ['P'] ∨ (Spec.path f)[0]? = some ['B'])) (sec, line)) ∨
        (SliderLine Spec.BadEdges (sec, line) ∧ r = .error .panic) ∨
        (¬ SliderLine Spec.BadEdges (sec, line) ∧ ∃ st', r = .ok st' ∧
          st'.currentSection = st.currentSection)) := by
    intro h1 h2 r st' hr hst
    refine .inr ⟨?_, .inr (.inr ⟨?_, st', hr, hst⟩)⟩
    · rintro ⟨f, -, h | h⟩
      · exact h1 h.1
      · exact h2 h.1
    · rintro ⟨f, -, h, -⟩
      exact h2 h
  unfold parseInSection
  simp only [tokenize2_eq, tokenize_eq]
  by_cases h1 : sec = "General".toList
  · rw [if_pos h1]
    have a1 : sec ≠ "Events".toList := by rw [h1]; decide
    have a2 : sec ≠ "HitObjects".toList := by rw [h1]; decide
    cases hk : Spec.keyValue line with
    | none => exact other a1 a2 rfl rfl
    | some kv => exact other a1 a2 rfl rfl
  rw [if_neg h1]
  by_cases h2 : sec = "Metadata".toList
  · rw [if_pos h2]
    have a1 : sec ≠ "Events".toList := by rw [h2]; decide
    have a2 : sec ≠ "HitObjects".toList := by rw [h2]; decide
    cases hk : Spec.keyValue line with
    | none => exact other a1 a2 rfl rfl
    | some kv => exact other a1 a2 rfl rfl
  rw [if_neg h2]
  by_cases h3 : sec = "Difficulty".toList
  · rw [if_pos h3]
    have a1 : sec ≠ "Events".toList := by rw [h3]; decide
    have a2 : sec ≠ "HitObjects".toList := by rw [h3]; decide
    cases hk : Spec.keyValue line with
    | none => exact other a1 a2 rfl rfl
    | some kv => exact other a1 a2 rfl rfl
  rw [if_neg h3]
  by_cases h4 : sec = "Events".toList
  · rw [if_pos h4]
    have a2 : sec ≠ "HitObjects".toList := by rw [h4]; decide
    have nb : ¬ SliderLine Spec.BadEdges (sec, line) := fun ⟨f, _, h, _⟩ => a2 h
    cases hk : Spec.fields line with
    | none =>
      refine .inr ⟨?_, .inr (.inr ⟨nb, st, rfl, rfl⟩)⟩
      rintro ⟨f, hf, -⟩
      have hf : Spec.fields line = some f := hf
      rw [hk] at hf; cases hf
    | some f =>
      have hl := fields_length hk
      simp only [gt_iff_lt, hl, if_true]
      rcases parseEvents_cases f hl st.beatMap with ⟨e1, e2⟩ | ⟨e1, b', e2⟩
      · exact .inl ⟨⟨f, hk, .inl ⟨h4, e1⟩⟩, by simp only [e2]; rfl⟩
      · refine .inr ⟨?_, .inr (.inr ⟨nb, ?_⟩)⟩
        · rintro ⟨f', hf', h | h⟩
          · have hf' : Spec.fields line = some f' := hf'
            rw [hk] at hf'; cases hf'
            exact e1 h.2
          · exact a2 h.1
        · simp only [e2, ok_bind]
          exact ⟨_, rfl, rfl⟩
  rw [if_neg h4]
  by_cases h5 : sec = "TimingPoints".toList
  · rw [if_pos h5]
    have a1 : sec ≠ "Events".toList := by rw [h5]; decide
    have a2 : sec ≠ "HitObjects".toList := by rw [h5]; decide
    cases hk : Spec.fields line with
    | none => exact other a1 a2 rfl rfl
    | some f =>
      have hl := fields_length hk
      have hs : 2 ≤ (split ',' line).length := by
        unfold Spec.fields at hk
        split at hk
        · cases hk
        · cases hk
          rwa [List.length_map] at hl
      obtain ⟨b', hb⟩ := parsePoint_total hs st.beatMap
      simp only [gt_iff_lt, hl, if_true, hb, ok_bind]
      exact other a1 a2 rfl rfl
  rw [if_neg h5]
  by_cases h6 : sec = "HitObjects".toList
  · rw [if_pos h6]
    have a1 : sec ≠ "Events".toList := by rw [h6]; decide
    cases hk : Spec.fields line with
    | none =>
      refine .inr ⟨?_, .inr (.inr ⟨?_, st, rfl, rfl⟩)⟩
      · rintro ⟨f, hf, -⟩
        have hf : Spec.fields line = some f := hf
        rw [hk] at hf; cases hf
      · rintro ⟨f, hf, -⟩
        have hf : Spec.fields line = some f := hf
        rw [hk] at hf; cases hf
    | some f =>
      have uniq : ∀ f', Spec.fields (sec, line).2 = some f' → f' = f := by
        intro f' hf'
        have hf' : Spec.fields line = some f' := hf'
        rw [hk] at hf'; exact (Option.some.inj hf').symm
      have nbad : ¬ Spec.BadObject f → ¬ Bad (sec, line) := by
        rintro hn ⟨f', hf', h | h⟩
        · exact a1 h.1
        · rw [uniq f' hf'] at h; exact hn h.2
      simp only
      rcases parseHitObjectLine_cases fuel f st.beatMap with
        ⟨e1, e2⟩ | ⟨e1, ⟨e, e2, e3, e4, e5⟩ | ⟨e2, e3⟩ | ⟨e2, b', e3⟩⟩
      · exact .inl ⟨⟨f, hk, .inr ⟨h6, e1⟩⟩, by simp only [e2]; rfl⟩
      · exact .inr ⟨nbad e1, .inl ⟨e, by simp only [e2]; rfl, fun he => ⟨f, hk, h6, e3 he⟩, ⟨f, hk, h6, e4, e5⟩⟩⟩
      · exact .inr ⟨nbad e1, .inr (.inl ⟨⟨f, hk, h6, e2⟩, by simp only [e3]; rfl⟩)⟩
      · refine .inr ⟨nbad e1, .inr (.inr ⟨?_, by simp only [e3, ok_bind]; exact ⟨_, rfl, rfl⟩⟩)⟩
        rintro ⟨f', hf', -, h⟩
        rw [uniq f' hf'] at h
        exact e2 h
  rw [if_neg h6]
  exact other h4 h6 rfl rfl

end
end GosuPP
