import Verif.Lemmas.Curve
import Verif.Spec.Path

/-! Slider paths in exact arithmetic. -/

namespace GosuPP
open Go MultiCurve

theorem lit_zero_real : (lit 0 : ℝ) = 0 := by rw [RealArith.lit]; simp
theorem lit_one_real : (lit 1 : ℝ) = 1 := by rw [RealArith.lit]; simp
theorem lit_two_real : (lit 2 : ℝ) = 2 := by rw [RealArith.lit]; simp

theorem getLength_real (l : Linear ℝ) : l.getLength (D := ℝ) = Spec.len l := by
  show Real.sqrt ((l.p2.x - l.p1.x) * (l.p2.x - l.p1.x) + (l.p2.y - l.p1.y) * (l.p2.y - l.p1.y)) = _
  unfold Spec.len
  rw [sq, sq]

theorem len_nonneg (l : Linear ℝ) : 0 ≤ Spec.len l := Real.sqrt_nonneg _

theorem len_sq (l : Linear ℝ) : Spec.len l ^ 2 = (l.p2.x - l.p1.x) ^ 2 + (l.p2.y - l.p1.y) ^ 2 :=
  Real.sq_sqrt (by positivity)

theorem len_eq_zero {l : Linear ℝ} : Spec.len l = 0 ↔ l.p1 = l.p2 := by
  constructor
  · intro h
    have h2 := len_sq l
    rw [h] at h2
    have hx : (l.p2.x - l.p1.x) ^ 2 = 0 := by nlinarith [sq_nonneg (l.p2.x - l.p1.x), sq_nonneg (l.p2.y - l.p1.y)]
    have hy : (l.p2.y - l.p1.y) ^ 2 = 0 := by nlinarith [sq_nonneg (l.p2.x - l.p1.x), sq_nonneg (l.p2.y - l.p1.y)]
    have hx := pow_eq_zero_iff (two_ne_zero) |>.mp hx
    have hy := pow_eq_zero_iff (two_ne_zero) |>.mp hy
    apply Vec.ext <;> linarith
  · intro h
    unfold Spec.len
    rw [h]
    simp

theorem pathLength_nil : Spec.pathLength [] = 0 := rfl

theorem pathLength_cons (l : Linear ℝ) (ls : List (Linear ℝ)) :
    Spec.pathLength (l :: ls) = Spec.len l + Spec.pathLength ls := by
  simp [Spec.pathLength]

theorem pathLength_append (a b : List (Linear ℝ)) :
    Spec.pathLength (a ++ b) = Spec.pathLength a + Spec.pathLength b := by
  simp [Spec.pathLength]

theorem pathLength_reverse (a : List (Linear ℝ)) : Spec.pathLength a.reverse = Spec.pathLength a := by
  unfold Spec.pathLength
  rw [List.map_reverse, List.sum_reverse]

theorem pathLength_nonneg (ls : List (Linear ℝ)) : 0 ≤ Spec.pathLength ls := by
  induction ls with
  | nil => exact le_refl _
  | cons l ls ih => rw [pathLength_cons]; linarith [len_nonneg l]

theorem foldl_length (ls : List (Linear ℝ)) (p : ℝ) :
    ls.foldl (fun acc l => acc +. l.getLength (D := ℝ)) p = p + Spec.pathLength ls := by
  induction ls generalizing p with
  | nil => simp [pathLength_nil]
  | cons l ls ih =>
    rw [List.foldl_cons, ih, pathLength_cons, getLength_real, RealArith.add]
    ring

theorem totalLength_real (ls : List (Linear ℝ)) : totalLength (D := ℝ) ls = Spec.pathLength ls := by
  unfold totalLength
  rw [foldl_length, lit_zero_real, zero_add]

theorem pointAt_real (l : Linear ℝ) (u : ℝ) : l.pointAt u = Spec.along l u := by
  show (⟨(l.p2.x - l.p1.x) * u + l.p1.x, (l.p2.y - l.p1.y) * u + l.p1.y⟩ : Vec ℝ) = _
  unfold Spec.along
  congr 1 <;> ring

theorem along_zero (l : Linear ℝ) : Spec.along l 0 = l.p1 := by
  unfold Spec.along
  simp

theorem along_one (l : Linear ℝ) : Spec.along l 1 = l.p2 := by
  unfold Spec.along
  apply Vec.ext <;> simp

/-- The lengths and sections of a path belong to its lines. -/
def MeasuredR (mc : MultiCurve ℝ) : Prop :=
  mc.length = totalLength (D := ℝ) mc.lines ∧ mc.sections = mkSections (D := ℝ) mc.lines

theorem newT_measuredR {fuel : Nat} {typ : Str} {points : List (Vec ℝ)} {len : ℝ}
    {mc : MultiCurve ℝ} (h : MultiCurve.newT fuel typ points len = .ok mc) : MeasuredR mc := by
  unfold MultiCurve.newT at h
  obtain ⟨lines, h1, h⟩ := bind_ok h
  obtain ⟨fp, h2, h⟩ := bind_ok h
  cases h
  exact ⟨rfl, rfl⟩

theorem sectionsFrom_getElem {ls : List (Linear ℝ)} {p : ℝ} {i : ℕ} (hi : i < ls.length) :
    (sectionsFrom (D := ℝ) p ls)[i]? = some (p + Spec.pathLength (ls.take (i + 1))) := by
  induction ls generalizing p i with
  | nil => simp at hi
  | cons l ls ih =>
    rw [sectionsFrom]
    cases i with
    | zero =>
      rw [List.getElem?_cons_zero, getLength_real, RealArith.add]
      simp [pathLength_cons, pathLength_nil]
    | succ i =>
      rw [List.getElem?_cons_succ, ih (by simpa using hi), List.take_succ_cons, pathLength_cons, getLength_real,
        RealArith.add]
      congr 1
      ring

theorem pathLength_take_mono (ls : List (Linear ℝ)) {i j : ℕ} (h : i ≤ j) :
    Spec.pathLength (ls.take i) ≤ Spec.pathLength (ls.take j) := by
  obtain ⟨d, rfl⟩ := Nat.exists_eq_add_of_le h
  rw [List.take_add, pathLength_append]
  linarith [pathLength_nonneg ((ls.drop i).take d)]

/-- Walking the distance `w`, when line `i` is the first one whose end is at least `w` away. -/
theorem walk_line {start : Vec ℝ} {ls : List (Linear ℝ)} {w : ℝ} {i : ℕ} {l : Linear ℝ}
    (hl : ls[i]? = some l) (h1 : w ≤ Spec.pathLength (ls.take (i + 1)))
    (h2 : 0 < i → Spec.pathLength (ls.take i) < w) :
    Spec.walk start ls w = Spec.along l ((w - Spec.pathLength (ls.take i)) / Spec.len l) := by
  induction ls generalizing start w i with
  | nil => simp at hl
  | cons a ls ih =>
    unfold Spec.walk
    cases i with
    | zero =>
      cases hl
      rw [List.take_succ_cons, pathLength_cons, List.take_zero, pathLength_nil, add_zero] at h1
      rw [if_pos h1, List.take_zero, pathLength_nil, sub_zero]
    | succ i =>
      rw [List.getElem?_cons_succ] at hl
      have h2 := h2 (Nat.succ_pos _)
      rw [List.take_succ_cons, pathLength_cons] at h1 h2
      have hnot : ¬ w ≤ Spec.len a := by
        have := pathLength_nonneg (ls.take i)
        linarith
      rw [if_neg hnot, ih hl (by linarith) (fun _ => by linarith), List.take_succ_cons, pathLength_cons]
      congr 2
      ring

theorem clampF32_real (t : ℝ) : clampF32 (D := ℝ) t (lit 0) (lit 1) = min 1 (max 0 t) := by
  unfold clampF32 Math32.min Math32.max
  show Go.fmin (lit 1 : ℝ) (Go.fmax (lit 0) t) = _
  rw [RealArith.fmin, RealArith.fmax, lit_zero_real, lit_one_real]

/-- `PointAt` walks the given fraction of the length along the path. -/
theorem pointAt_walk {mc : MultiCurve ℝ} (hm : MeasuredR mc) (hpos : 0 < mc.length) (t : ℝ) :
    mc.pointAt (D := ℝ) t = .ok (Spec.walk mc.firstPoint mc.lines (min 1 (max 0 t) * mc.length)) := by
  obtain ⟨hlen, hsec⟩ := hm
  rw [totalLength_real] at hlen
  have hne : 0 < mc.lines.length := by
    rcases Nat.eq_zero_or_pos mc.lines.length with h | h
    · rw [List.length_eq_zero_iff.mp h, pathLength_nil] at hlen
      linarith
    · exact h
  unfold MultiCurve.pointAt
  have hc : ¬ ((mc.lines.length == 0 || mc.length ==. lit 0) = true) := by
    simp only [Bool.or_eq_true, beq_iff_eq, RealArith.eq, lit_zero_real, not_or]
    exact ⟨hne.ne', hpos.ne'⟩
  rw [if_neg hc]
  simp only
  rw [clampF32_real, RealArith.mul]
  set w : ℝ := mc.length * min 1 (max 0 t) with hw
  have hw' : min 1 (max 0 t) * mc.length = w := by rw [hw]; ring
  rw [hw']
  have hwL : w ≤ mc.length := by
    have : min 1 (max 0 t) ≤ 1 := min_le_left _ _
    rw [hw]
    nlinarith
  -- the index found
  set p : ℕ → Bool := fun i => match mc.sections.tail[i]? with
    | some s => s >=. w
    | none => true with hp
  have htail : mc.sections.tail = sectionsFrom (D := ℝ) (lit 0) mc.lines := by rw [hsec]; rfl
  have hlenT : mc.sections.tail.length = mc.lines.length := by rw [htail, sectionsFrom_length]
  have hpi : ∀ i, i < mc.lines.length → (p i = true ↔ w ≤ Spec.pathLength (mc.lines.take (i + 1))) := by
    intro i hi
    rw [hp]
    simp only
    rw [htail, sectionsFrom_getElem hi, lit_zero_real, zero_add]
    simp only
    rw [RealArith.le]
  obtain ⟨hs1, hs2⟩ := search_switch mc.sections.tail.length p
  have hs3 := search_le mc.sections.tail.length p
  set i := search mc.sections.tail.length p with hi
  rw [hlenT] at hs1 hs3
  have hlt : i < mc.lines.length := by
    rcases Nat.lt_or_ge i mc.lines.length with h | h
    · exact h
    · exfalso
      have hieq : i = mc.lines.length := by omega
      have h2 := hs2 (by omega)
      have h3 := (hpi (i - 1) (by omega)).mpr (by
        have e : i - 1 + 1 = mc.lines.length := by omega
        rw [e, List.take_length, ← hlen]
        exact hwL)
      rw [h2] at h3
      cases h3
  have hidx : mc.lineIndex w = (i : ℤ) := by
    unfold MultiCurve.lineIndex minI
    simp only
    have key : ∀ q : ℕ → Bool, (∀ j, q j = p j) → search mc.sections.tail.length q = i := by
      intro q hq
      rw [show q = p from funext hq]
    rw [key _ (fun j => by simp only [hp]; cases mc.sections.tail[j]? <;> rfl)]
    split
    · rfl
    · omega
  rw [hidx]
  obtain ⟨l, hl⟩ : ∃ l, mc.lines[i]? = some l := ⟨_, List.getElem?_eq_getElem hlt⟩
  have hhi : index mc.sections ((i : ℤ) + 1) = .ok (Spec.pathLength (mc.lines.take (i + 1))) := by
    unfold index
    rw [if_neg (by omega)]
    have e : ((i : ℤ) + 1).toNat = i + 1 := by omega
    rw [e, hsec]
    unfold mkSections
    rw [List.getElem?_cons_succ, sectionsFrom_getElem hlt, lit_zero_real, zero_add]
  have hlo : index mc.sections (i : ℤ) = .ok (Spec.pathLength (mc.lines.take i)) := by
    unfold index
    rw [if_neg (by omega)]
    have e : ((i : ℤ)).toNat = i := by omega
    rw [e, hsec]
    unfold mkSections
    cases hi0 : i with
    | zero => rw [List.getElem?_cons_zero, List.take_zero, pathLength_nil, lit_zero_real]
    | succ j =>
      rw [List.getElem?_cons_succ, sectionsFrom_getElem (by omega), lit_zero_real, zero_add]
  have hline : index mc.lines (i : ℤ) = .ok l := by
    unfold index
    rw [if_neg (by omega)]
    have e : ((i : ℤ)).toNat = i := by omega
    rw [e, hl]
  simp only [hhi, hlo, hline, ok_bind]
  have hdiff : Spec.pathLength (mc.lines.take (i + 1)) -. Spec.pathLength (mc.lines.take i) = Spec.len l := by
    rw [RealArith.sub, List.take_succ, hl, pathLength_append]
    simp [pathLength_cons, pathLength_nil]
  rw [hdiff]
  rw [walk_line hl ((hpi i hlt).mp (hs1 hlt)) (fun h0 => ?_)]
  · split
    · rename_i hz
      rw [RealArith.eq, lit_zero_real] at hz
      rw [hz, div_zero, along_zero]
      rfl
    · rw [pointAt_real]
      rfl
  · have := hs2 h0
    have hh := fun hle => Bool.eq_false_iff.mp this ((hpi (i - 1) (by omega)).mpr hle)
    have e : i - 1 + 1 = i := by omega
    rw [e] at hh
    exact not_le.mp hh

/-- Walking the whole length of a connected polyline leads to its end. -/
theorem walk_end {start : Vec ℝ} {ls : List (Linear ℝ)} (hc : Spec.Connected start ls) :
    Spec.walk start ls (Spec.pathLength ls) = Spec.pathEnd start ls := by
  have zero : ∀ (ls : List (Linear ℝ)) (start : Vec ℝ), Spec.Connected start ls → Spec.pathLength ls ≤ 0 →
      Spec.pathEnd start ls = start := by
    intro ls
    induction ls with
    | nil => intros; rfl
    | cons l ls ih =>
      intro start hc h
      rw [pathLength_cons] at h
      have h1 := len_nonneg l
      have h2 := pathLength_nonneg ls
      have h3 : Spec.len l = 0 := by linarith
      unfold Spec.pathEnd
      rw [ih l.p2 hc.2 (by linarith), ← len_eq_zero.mp h3]
      exact hc.1
  induction ls generalizing start with
  | nil => rfl
  | cons l ls ih =>
    unfold Spec.walk Spec.pathEnd
    rw [pathLength_cons]
    split
    · rename_i h
      have h1 := pathLength_nonneg ls
      rw [zero ls l.p2 hc.2 (by linarith)]
      have h2 : Spec.pathLength ls = 0 := by linarith
      rw [h2, add_zero]
      by_cases hz : Spec.len l = 0
      · rw [hz, div_zero, along_zero, len_eq_zero.mp hz]
      · rw [div_self hz, along_one]
    · rw [add_sub_cancel_left]
      exact ih hc.2

/-! ### Trimming -/

theorem len_along (l : Linear ℝ) (u : ℝ) : Spec.len ⟨l.p1, Spec.along l u⟩ = |u| * Spec.len l := by
  unfold Spec.along Spec.len
  simp only
  have e : (l.p1.x + u * (l.p2.x - l.p1.x) - l.p1.x) ^ 2 + (l.p1.y + u * (l.p2.y - l.p1.y) - l.p1.y) ^ 2 =
      u ^ 2 * ((l.p2.x - l.p1.x) ^ 2 + (l.p2.y - l.p1.y) ^ 2) := by ring
  rw [e, Real.sqrt_mul (sq_nonneg u), Real.sqrt_sq_eq_abs]

theorem vec_eq_real {a b : Vec ℝ} : a.eq b = true ↔ a = b := by
  unfold Vec.eq
  rw [Bool.and_eq_true, RealArith.eq, RealArith.eq]
  constructor
  · intro h; exact Vec.ext h.1 h.2
  · rintro rfl; exact ⟨rfl, rfl⟩

/-- The trimmed line: `keep` of its length is kept (or it is made that long). -/
noncomputable def cut (l : Linear ℝ) (keep : ℝ) : Linear ℝ := ⟨l.p1, Spec.along l (keep / Spec.len l)⟩

theorem trimRev_real (ls : List (Linear ℝ)) (diff : ℝ) : trimRev ls diff =
    match ls with
    | [] => []
    | l :: rest =>
      if diff + 0.0001 < Spec.len l then
        (if l.p1 = l.p2 then l else cut l (Spec.len l - diff)) :: rest
      else trimRev rest (diff - Spec.len l) := by
  cases ls with
  | nil => rfl
  | cons l rest =>
    rw [trimRev]
    have e1 : (up (l.getLength (D := ℝ)) >. diff +. lit 0.0001) = true ↔ diff + 0.0001 < Spec.len l := by
      rw [RealArith.lt, RealArith.up, getLength_real, RealArith.add, RealArith.lit]
      norm_num
    have e2 : l.p1.eq l.p2 = true ↔ l.p1 = l.p2 := vec_eq_real
    simp only [e1, e2]
    have e3 : (⟨l.p1, l.pointAt ((l.getLength (D := ℝ) -. down diff) /. l.getLength (D := ℝ))⟩ : Linear ℝ) =
        cut l (Spec.len l - diff) := by
      rw [pointAt_real, getLength_real]
      rfl
    rw [e3, RealArith.sub, RealArith.up, getLength_real]

/-- What trimming does: it removes lines from the end and cuts the last remaining one, so that the
length is as desired; or it removes everything; or the last remaining line has no length and nothing
is cut. -/
theorem trimRev_cases (ls : List (Linear ℝ)) (diff : ℝ) :
    (∃ gone l rest, ls = gone ++ l :: rest ∧ trimRev ls diff = cut l (Spec.len l - (diff - Spec.pathLength gone)) :: rest ∧
      l.p1 ≠ l.p2 ∧ diff - Spec.pathLength gone + 0.0001 < Spec.len l ∧
      (gone = [] ∨ -0.0001 ≤ diff - Spec.pathLength gone)) ∨
    (trimRev ls diff = [] ∧ (ls = [] ∨ Spec.pathLength ls ≤ diff + 0.0001)) ∨
    (diff < -0.0001 ∧ ∃ l rest, ls = l :: rest ∧ l.p1 = l.p2 ∧ trimRev ls diff = ls) := by
  induction ls generalizing diff with
  | nil => exact .inr (.inl ⟨rfl, .inl rfl⟩)
  | cons l rest ih =>
    rw [trimRev_real]
    simp only
    by_cases h : diff + 0.0001 < Spec.len l
    · rw [if_pos h]
      by_cases he : l.p1 = l.p2
      · right; right
        rw [if_pos he]
        rw [len_eq_zero.mpr he] at h
        exact ⟨by linarith, l, rest, rfl, he, rfl⟩
      · left
        rw [if_neg he]
        refine ⟨[], l, rest, rfl, ?_, he, ?_, .inl rfl⟩
        · rw [pathLength_nil, sub_zero]
        · rw [pathLength_nil, sub_zero]; exact h
    · rw [if_neg h]
      have h := not_lt.mp h
      rcases ih (diff - Spec.len l) with ⟨gone, l', rest', h1, h2, h3, h4, h5⟩ | ⟨h1, h2⟩ | ⟨h1, -⟩
      · left
        have e : diff - Spec.len l - Spec.pathLength gone = diff - Spec.pathLength (l :: gone) := by
          rw [pathLength_cons]; ring
        rw [e] at h2 h4 h5
        refine ⟨l :: gone, l', rest', by rw [h1]; rfl, h2, h3, h4, .inr ?_⟩
        rcases h5 with h5 | h5
        · subst h5
          rw [pathLength_cons, pathLength_nil]
          linarith
        · exact h5
      · right; left
        refine ⟨h1, .inr ?_⟩
        rcases h2 with h2 | h2
        · rw [h2, pathLength_cons, pathLength_nil]; linarith
        · rw [pathLength_cons]; linarith
      · exfalso; linarith

theorem len_cut {l : Linear ℝ} {k : ℝ} (hk : 0 ≤ k) (hne : l.p1 ≠ l.p2) : Spec.len (cut l k) = k := by
  have hpos : 0 < Spec.len l := lt_of_le_of_ne (len_nonneg l) (fun h => hne (len_eq_zero.mp h.symm))
  unfold cut
  rw [len_along, abs_of_nonneg (div_nonneg hk hpos.le)]
  field_simp

/-- The lines of a path, untrimmed and trimmed. -/
theorem newT_lines {fuel : Nat} {typ : Str} {points : List (Vec ℝ)} {len : ℝ} {mc : MultiCurve ℝ}
    (h : MultiCurve.newT fuel typ points len = .ok mc) :
    ∃ lines, processType (D := ℝ) fuel typ points = .ok lines ∧ mc.lines =
      (if 0 < Spec.pathLength lines then (trimRev lines.reverse (Spec.pathLength lines - len)).reverse else lines) := by
  unfold MultiCurve.newT at h
  obtain ⟨lines, h1, h⟩ := bind_ok h
  obtain ⟨fp, h2, h⟩ := bind_ok h
  cases h
  refine ⟨lines, h1, ?_⟩
  simp only
  have e : (totalLength (D := ℝ) lines >. lit 0) = true ↔ 0 < Spec.pathLength lines := by
    rw [RealArith.lt, lit_zero_real, totalLength_real]
  simp only [e]
  rw [totalLength_real]
  rfl

/-- Walking within the first lines does not depend on the lines that follow. -/
theorem walk_append {start : Vec ℝ} {a b : List (Linear ℝ)} {w : ℝ} (hw : w ≤ Spec.pathLength a) (ha : a ≠ []) :
    Spec.walk start (a ++ b) w = Spec.walk start a w := by
  induction a generalizing start w with
  | nil => exact absurd rfl ha
  | cons l ls ih =>
    rw [List.cons_append]
    unfold Spec.walk
    split
    · rfl
    · rename_i h
      rw [pathLength_cons] at hw
      cases ls with
      | nil => rw [pathLength_nil] at hw; exact absurd (by linarith : w ≤ Spec.len l) h
      | cons x xs => exact ih (by linarith) (by simp)

/-- Cutting the last line does not change the way up to the cut. -/
theorem walk_cut {start : Vec ℝ} {a : List (Linear ℝ)} {l : Linear ℝ} {k w : ℝ} (hne : l.p1 ≠ l.p2) (hk : 0 < k)
    (hw : w ≤ Spec.pathLength a + k) (hwl : w ≤ Spec.pathLength a + Spec.len l) :
    Spec.walk start (a ++ [cut l k]) w = Spec.walk start (a ++ [l]) w := by
  induction a generalizing start w with
  | nil =>
    rw [pathLength_nil, zero_add] at hw hwl
    have hpos : 0 < Spec.len l := lt_of_le_of_ne (len_nonneg l) (fun h => hne (len_eq_zero.mp h.symm))
    simp only [List.nil_append]
    unfold Spec.walk
    rw [len_cut hk.le hne, if_pos hw, if_pos hwl]
    unfold cut Spec.along
    simp only
    apply Vec.ext
    · simp only
      field_simp
      ring
    · simp only
      field_simp
      ring
  | cons x xs ih =>
    rw [List.cons_append, List.cons_append]
    unfold Spec.walk
    rw [pathLength_cons] at hw hwl
    split
    · rfl
    · exact ih (by linarith) (by linarith)

end GosuPP
