import Verif.Lemmas.PointOrder
import Verif.Lemmas.IEEE

/-! The lowest and highest of numbers do not depend on their order. -/

namespace Go.Fl
variable {f : Fmt}

/-- Only zeros have a sign of zero. All results of operations are of this kind. -/
def Plain : Fl f → Prop
  | .fin v nz => v ≠ 0 → nz = false
  | _ => True

def lower : Fl f → Fl f → Fl f
  | .inf true, _ => .inf true
  | _, .inf true => .inf true
  | .nan, _ => .nan
  | _, .nan => .nan
  | .inf false, y => y
  | x, .inf false => x
  | .fin v a, .fin w b => if v < w then .fin v a else if w < v then .fin w b else .fin v (a || b)

def higher : Fl f → Fl f → Fl f
  | .inf false, _ => .inf false
  | _, .inf false => .inf false
  | .nan, _ => .nan
  | _, .nan => .nan
  | .inf true, y => y
  | x, .inf true => x
  | .fin v a, .fin w b => if w < v then .fin v a else if v < w then .fin w b else .fin v (a && b)

theorem ofRat_plain (q : ℚ) (z : Bool) : Plain (ofRat f q z) := by
  unfold ofRat
  dsimp only
  split_ifs
  · trivial
  · intro h
    rw [decide_eq_false h, Bool.false_and]
  · intro h
    rw [decide_eq_false h, Bool.false_and]

theorem lit_plain (q : ℚ) : Plain (lit q : Fl f) := by
  rw [go_lit]
  exact ofRat_plain _ _

theorem plain_of_lit {q : ℚ} {z : Fl f} (h : lit q = z) : Plain z := by
  rw [← h]
  exact lit_plain q

theorem div_plain (x y : Fl f) : Plain (div x y) := by
  cases x <;> cases y <;> simp only [div] <;> first | trivial | (intro h; exact absurd rfl h) | skip
  split_ifs
  · trivial
  · trivial
  · exact ofRat_plain ..

theorem fmin_lower [f.Ok] {x y : Fl f} (hx : Plain x) (hy : Plain y) : fmin x y = lower x y := by
  unfold fmin
  simp only [go_isNegInf, go_isNaN, go_inf, go_nan, go_eq, go_lt, go_signbit, go_lit, ofRat_zero]
  rcases x with _ | (_ | _) | ⟨v, a⟩ <;> rcases y with _ | (_ | _) | ⟨w, b⟩ <;>
    simp [isNegInf, isNaN, eq, lt, lower, signbit]
  by_cases h0 : v = 0
  · subst h0
    by_cases h1 : 0 = w
    · subst h1
      cases a <;> simp
    · rcases lt_or_gt_of_ne h1 with h | h
      · simp [h1, h]
      · simp [h1, h, not_lt_of_gt h]
  · have ha := hx h0
    rcases lt_trichotomy v w with h | h | h
    · simp [h0, h]
    · subst h
      simp [h0, ha, hy h0]
    · simp [h0, h, not_lt_of_gt h]

theorem fmax_higher [f.Ok] {x y : Fl f} (hx : Plain x) (hy : Plain y) : fmax x y = higher x y := by
  unfold fmax
  simp only [go_isPosInf, go_isNaN, go_inf, go_nan, go_eq, go_lt, go_signbit, go_lit, ofRat_zero]
  rcases x with _ | (_ | _) | ⟨v, a⟩ <;> rcases y with _ | (_ | _) | ⟨w, b⟩ <;>
    simp [isPosInf, isNaN, eq, lt, higher, signbit]
  by_cases h0 : v = 0
  · subst h0
    by_cases h1 : 0 = w
    · subst h1
      cases a <;> simp
    · rcases lt_or_gt_of_ne h1 with h | h
      · simp [h1, h, not_lt_of_gt h]
      · simp [h1, h]
  · have ha := hx h0
    rcases lt_trichotomy v w with h | h | h
    · simp [h0, h, not_lt_of_gt h]
    · subst h
      simp [h0, ha, hy h0]
    · simp [h0, h]

theorem lower_plain {x y : Fl f} (hx : Plain x) (hy : Plain y) : Plain (lower x y) := by
  rcases x with _ | (_ | _) | ⟨v, a⟩ <;> rcases y with _ | (_ | _) | ⟨w, b⟩ <;> first | trivial | exact hx | exact hy | skip
  simp only [lower]
  split_ifs with h1 h2
  · exact hx
  · exact hy
  · have : v = w := le_antisymm (not_lt.mp h2) (not_lt.mp h1)
    subst this
    intro h
    rw [hx h, hy h]
    rfl

theorem higher_plain {x y : Fl f} (hx : Plain x) (hy : Plain y) : Plain (higher x y) := by
  rcases x with _ | (_ | _) | ⟨v, a⟩ <;> rcases y with _ | (_ | _) | ⟨w, b⟩ <;> first | trivial | exact hx | exact hy | skip
  simp only [higher]
  split_ifs with h1 h2
  · exact hx
  · exact hy
  · intro h
    rw [hx h, Bool.false_and]

theorem lower_comm (x y z : Fl f) : lower (lower z x) y = lower (lower z y) x := by
  rcases x with _ | (_ | _) | ⟨v, a⟩ <;> rcases y with _ | (_ | _) | ⟨w, b⟩ <;> rcases z with _ | (_ | _) | ⟨u, c⟩ <;>
    simp only [lower] <;> (try split_ifs) <;> (try simp only [lower]) <;> (try split_ifs) <;>
    first | rfl | (exfalso; linarith) | (simp only [Fl.fin.injEq]; constructor <;> first | trivial | linarith | simp only [Bool.or_comm, Bool.or_left_comm])

theorem higher_comm (x y z : Fl f) : higher (higher z x) y = higher (higher z y) x := by
  rcases x with _ | (_ | _) | ⟨v, a⟩ <;> rcases y with _ | (_ | _) | ⟨w, b⟩ <;> rcases z with _ | (_ | _) | ⟨u, c⟩ <;>
    simp only [higher] <;> (try split_ifs) <;> (try simp only [higher]) <;> (try split_ifs) <;>
    first | rfl | (exfalso; linarith) | (simp only [Fl.fin.injEq]; constructor <;> first | trivial | linarith | simp only [Bool.and_comm, Bool.and_left_comm])

theorem foldl_fmin [f.Ok] : ∀ {l : List (Fl f)} {z : Fl f}, (∀ x ∈ l, Plain x) → Plain z → l.foldl fmin z = l.foldl lower z
  | [], z, _, _ => rfl
  | x :: l, z, h, hz => by
    have hx := h x (List.mem_cons_self ..)
    rw [List.foldl_cons, List.foldl_cons, fmin_lower hz hx]
    exact foldl_fmin (fun y hy => h y (List.mem_cons_of_mem _ hy)) (lower_plain hz hx)

theorem foldl_fmax [f.Ok] : ∀ {l : List (Fl f)} {z : Fl f}, (∀ x ∈ l, Plain x) → Plain z → l.foldl fmax z = l.foldl higher z
  | [], z, _, _ => rfl
  | x :: l, z, h, hz => by
    have hx := h x (List.mem_cons_self ..)
    rw [List.foldl_cons, List.foldl_cons, fmax_higher hz hx]
    exact foldl_fmax (fun y hy => h y (List.mem_cons_of_mem _ hy)) (higher_plain hz hx)

theorem fmin_perm [f.Ok] {l l' : List (Fl f)} (hp : l.Perm l') {z : Fl f} (h : ∀ x ∈ l, Plain x) (hz : Plain z) :
    l.foldl fmin z = l'.foldl fmin z := by
  rw [foldl_fmin h hz, foldl_fmin (fun x hx => h x (hp.mem_iff.mpr hx)) hz]
  exact hp.foldl_eq' (fun x _ y _ z => lower_comm x y z) z

theorem fmax_perm [f.Ok] {l l' : List (Fl f)} (hp : l.Perm l') {z : Fl f} (h : ∀ x ∈ l, Plain x) (hz : Plain z) :
    l.foldl fmax z = l'.foldl fmax z := by
  rw [foldl_fmax h hz, foldl_fmax (fun x hx => h x (hp.mem_iff.mpr hx)) hz]
  exact hp.foldl_eq' (fun x _ y _ z => higher_comm x y z) z

end Go.Fl

namespace GosuPP
open Go Spec

/-- The tempo of a timing point that is not inherited. -/
def tempoOf (p : ControlPoint F64) : Option F64 :=
  if !GoFloat.isNaN p.beatLength && p.beatLength >=. lit 0 then some (lit 60000 /. p.beatLength) else none

theorem tempo_fold (ps : List (ControlPoint F64)) (st : ParseState F32 F64) :
    (ps.foldl withPoint st).beatMap.minBPM = (ps.filterMap tempoOf).foldl fmin st.beatMap.minBPM ∧
    (ps.foldl withPoint st).beatMap.maxBPM = (ps.filterMap tempoOf).foldl fmax st.beatMap.maxBPM := by
  induction ps generalizing st with
  | nil => exact ⟨rfl, rfl⟩
  | cons p ps ih =>
    rw [List.foldl_cons, (ih _).1, (ih _).2, List.filterMap_cons]
    unfold withPoint BeatMap.updateBPM tempoOf
    dsimp only
    split_ifs <;> exact ⟨rfl, rfl⟩

theorem tempo_plain {ps : List (ControlPoint F64)} {x : F64} (h : x ∈ ps.filterMap tempoOf) : Fl.Plain x := by
  obtain ⟨p, -, h⟩ := List.mem_filterMap.mp h
  unfold tempoOf at h
  split_ifs at h
  cases h
  exact Fl.div_plain _ _

/-- The bounds of the tempo do not depend on the order of the lines. -/
theorem tempo_same [GoLibm F64] {fuel : ℕ} {a b : List Str} (h : (pointLines a).Perm (pointLines b)) {st st' : ParseState F32 F64}
    (ha : parseLines fuel a ParseState.init = .ok st) (hb : parseLines fuel b ParseState.init = .ok st') :
    st'.beatMap.minBPM = st.beatMap.minBPM ∧ st'.beatMap.maxBPM = st.beatMap.maxBPM := by
  have val : ∀ {c : List Str} {s : ParseState F32 F64}, parseLines fuel c ParseState.init = .ok s →
      s.beatMap.minBPM = (((pointLines c).filterMap pointOn).filterMap tempoOf).foldl fmin (GoFloat.inf false : F64) ∧
      s.beatMap.maxBPM = (((pointLines c).filterMap pointOn).filterMap tempoOf).foldl fmax (lit 0 : F64) := by
    intro c s hs
    have r := (Sec.parts fuel c (ParseState.init : ParseState F32 F64)).1 s hs .timing
    rw [timing_run] at r
    have r := (Except.ok.inj r).symm
    have e := tempo_fold (((Sec.lines .timing (ParseState.init : ParseState F32 F64).currentSection c)).filterMap pointOn)
      (Sec.only .timing (ParseState.init : ParseState F32 F64))
    rw [← r] at e
    exact e
  have hp := (h.filterMap (pointOn (D := F64))).filterMap tempoOf
  rw [(val ha).1, (val ha).2, (val hb).1, (val hb).2]
  have z1 : Fl.Plain (GoFloat.inf false : F64) := trivial
  refine ⟨(Fl.fmin_perm hp (fun x hx => tempo_plain hx) z1).symm, ?_⟩
  generalize hz : (lit 0 : F64) = z
  have z2 : Fl.Plain z := Fl.plain_of_lit hz
  exact (Fl.fmax_perm hp (fun x hx => tempo_plain hx) z2).symm

theorem points_same [GoSort] [GoLibm F64] {fuel : ℕ} {a b : List Str} (h : PointsReordered a b) {r : Option (BeatMap F32 F64)}
    (ha : parseFromLines fuel a = .ok r) : parseFromLines fuel b = .ok r := by
  unfold parseFromLines at ha ⊢
  obtain ⟨st, h1, ha⟩ := bind_ok ha
  obtain ⟨st', h2, e1, e2⟩ := points_lines h h1
  obtain ⟨t1, t2⟩ := tempo_same h.same h1 h2
  have e3 := points_sorted h h1 h2
  have ef : st'.beatMap.timings.finalizePoints = st.beatMap.timings.finalizePoints := by
    unfold Timings.finalizePoints
    rw [e3, e2]
  rw [h2, ok_bind, ← ha]
  unfold finishParse
  dsimp only
  rw [e1, ef]
  rw [t1, t2] at e2
  generalize st.beatMap.timings.finalizePoints = T
  generalize st'.beatMap.timings.points = ps at e2
  rw [e2]

end GosuPP
