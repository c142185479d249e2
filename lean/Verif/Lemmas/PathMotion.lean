import Verif.Lemmas.PathReal
import Verif.Lemmas.Isometry
import Verif.Lemmas.SwapIEEE
import Verif.Props.Bezier

/-! Moving the control points of a slider moves its path, in exact arithmetic. -/

namespace GosuPP
open Go MultiCurve

/-- A rotation or reflection followed by a translation. -/
def turned (a b s t u : ℝ) (v : Vec ℝ) : Vec ℝ := ⟨a * v.x - s * b * v.y + t, b * v.x + s * a * v.y + u⟩

/-- What the code needs to know about a map of the plane: it commutes with the constructions, and keeps the lengths. -/
structure Fits (D : Type) {S : Type} [GoFloat S] [GoFloat D] [GoConv S D] (g : Vec S → Vec S) : Prop where
  mid : ∀ v w, g ((v.add w).scl (lit 0.5)) = ((g v).add (g w)).scl (lit 0.5)
  mean : ∀ v w z, g (((v.add (w.scl (lit 2))).add z).scl (lit 0.25)) = (((g v).add ((g w).scl (lit 2))).add (g z)).scl (lit 0.25)
  lerp : ∀ v w r, g (v.lerp w r) = (g v).lerp (g w) r
  catmull : ∀ p1 p2 p3 p4 r, g (catmullPoint p1 p2 p3 p4 r) = catmullPoint (g p1) (g p2) (g p3) (g p4) r
  extend : ∀ v w, g (v.add (v.sub w)) = (g v).add ((g v).sub (g w))
  dst : ∀ v w, (g v).dst (D := D) (g w) = v.dst (D := D) w
  bend : ∀ v w z, (((g v).sub ((g w).scl (lit 2))).add (g z)).lenSq = ((v.sub (w.scl (lit 2))).add z).lenSq
  eq : ∀ v w, (g v).eq (g w) = v.eq w
  straight : ∀ v w z, Vec.isStraightLine (D := D) (g v) (g w) (g z) = Vec.isStraightLine (D := D) v w z

section
variable {S D : Type} [GoFloat S] [GoFloat D] [GoConv S D]

/-- The line between the moved ends. -/
def lineOf (f : Vec S → Vec S) (l : Linear S) : Linear S := ⟨f l.p1, f l.p2⟩

variable {g : Vec S → Vec S} (hg : Fits D g)
include hg

theorem triangle_fits (cps : List (Vec S)) (i : ℕ) : ∀ j, i + j < cps.length →
    Spec.triangle (cps.map g) i j = g (Spec.triangle cps i j) := by
  induction i with
  | zero =>
    intro j hj
    show (cps.map g).getD j Vec.zero = g (cps.getD j Vec.zero)
    rw [List.getD_eq_getElem _ _ (by simpa using hj), List.getD_eq_getElem _ _ (by omega), List.getElem_map]
  | succ i ih =>
    intro j hj
    rw [Spec.triangle, Spec.triangle, hg.mid, ih j (by omega), ih (j + 1) (by omega)]

theorem leftHalf_fits (cps : List (Vec S)) : Spec.leftHalf (cps.map g) = (Spec.leftHalf cps).map g := by
  unfold Spec.leftHalf
  rw [List.length_map, List.map_map]
  refine List.map_congr_left fun i hi => ?_
  exact triangle_fits hg cps i 0 (by simpa using hi)

theorem rightHalf_fits (cps : List (Vec S)) : Spec.rightHalf (cps.map g) = (Spec.rightHalf cps).map g := by
  unfold Spec.rightHalf
  rw [List.length_map, List.map_map]
  refine List.map_congr_left fun i hi => ?_
  have := List.mem_range.mp hi
  exact triangle_fits hg cps _ i (by omega)

theorem flat_fits (cps : List (Vec S)) : Spec.flat (cps.map g) ↔ Spec.flat cps := by
  unfold Spec.flat
  simp only [List.getElem?_map, Option.map_eq_some_iff]
  constructor
  · intro h i x y z hx hy hz
    have := h i (g x) (g y) (g z) ⟨x, hx, rfl⟩ ⟨y, hy, rfl⟩ ⟨z, hz, rfl⟩
    rwa [hg.bend] at this
  · rintro h i _ _ _ ⟨x, hx, rfl⟩ ⟨y, hy, rfl⟩ ⟨z, hz, rfl⟩
    rw [hg.bend]
    exact h i x y z hx hy hz

theorem pieces_fits (cps : List (Vec S)) : Spec.pieces (cps.map g) = (Spec.pieces cps).map g := by
  unfold Spec.pieces
  simp only [leftHalf_fits hg, rightHalf_fits hg, List.length_map, List.map_append, List.map_map, List.map_take, ← List.map_tail]
  congr 1
  refine List.map_congr_left fun i hi => ?_
  have hi := List.mem_range.mp hi
  have key : ∀ j, j < 2 * cps.length - 1 → ((Spec.leftHalf cps).map g ++ ((Spec.rightHalf cps).tail.map g)).getD j Vec.zero =
      g ((Spec.leftHalf cps ++ (Spec.rightHalf cps).tail).getD j Vec.zero) := by
    intro j hj
    have hlen : (Spec.leftHalf cps ++ (Spec.rightHalf cps).tail).length = 2 * cps.length - 1 := by
      rw [List.length_append, Approximator.leftHalf_length, List.length_tail, Approximator.rightHalf_length]; omega
    rw [← List.map_append, List.getD_eq_getElem _ _ (by rw [List.length_map, hlen]; exact hj),
      List.getD_eq_getElem _ _ (by rw [hlen]; exact hj), List.getElem_map]
  rw [key _ (by omega), key _ (by omega), key _ (by omega)]
  exact (hg.mean _ _ _).symm

theorem flattens_fits {cps l : List (Vec S)} (h : Spec.Flattens cps l) : Spec.Flattens (cps.map g) (l.map g) := by
  induction h with
  | flat h =>
    rw [← pieces_fits hg]
    exact .flat ((flat_fits hg _).mpr h)
  | split h hl hr il ir =>
    rw [List.map_append]
    refine .split (fun hf => h ((flat_fits hg _).mp hf)) ?_ ?_
    · rw [leftHalf_fits hg]; exact il
    · rw [rightHalf_fits hg]; exact ir

omit hg [GoFloat D] [GoConv S D] in
theorem joinPoints_map (f : Vec S → Vec S) : ∀ l : List (Vec S), joinPoints (l.map f) = (joinPoints l).map (lineOf f)
  | [] => rfl
  | [_] => rfl
  | x :: y :: rest => by
    show _ :: joinPoints ((y :: rest).map f) = _ :: (joinPoints (y :: rest)).map (lineOf f)
    rw [joinPoints_map f (y :: rest)]
    rfl

theorem approximateBezier_fits {fuel : ℕ} {cps : List (Vec S)} {ls : List (Linear S)}
    (h : approximateBezier fuel cps = .ok ls) :
    ∃ n, ∀ m, n ≤ m → approximateBezier m (cps.map g) = .ok (ls.map (lineOf g)) := by
  obtain ⟨hne, l, hf, rfl⟩ := approximateBezier_out h
  obtain ⟨n, hn⟩ := C35_complete (by simpa using hne) (flattens_fits hg hf)
  refine ⟨n, fun m hm => ?_⟩
  unfold approximateBezier
  rw [hn m hm, ok_bind, ← joinPoints_map, List.map_append, List.map_singleton, List.getLast_map]
  rfl

theorem isMulti_fits (points : List (Vec S)) (i : ℕ) (p : Vec S) : isMulti (points.map g) i (g p) = isMulti points i p := by
  unfold isMulti
  rw [List.length_map, List.getElem?_map]
  congr 1
  cases points[i + 1]? with
  | none => rfl
  | some q => exact hg.eq p q

/-- The lines of one piece of a Bezier path. -/
def pieceLines (fuel : ℕ) (sub : List (Vec S)) : Result (List (Linear S)) :=
  match sub with
  | [x, y] => pure [⟨x, y⟩]
  | _ => approximateBezier fuel sub

omit hg [GoFloat D] [GoConv S D] in
theorem processBezierLoop_pieces {fuel : ℕ} {points : List (Vec S)} {k i last : ℕ} {p : Vec S} (hp : points[i]? = some p) :
    processBezierLoop fuel points (k + 1) i last =
      if isMulti points i p || i + 1 == points.length then
        pieceLines fuel ((points.drop last).take (i + 1 - last)) >>= fun ls =>
        processBezierLoop fuel points k ((if isMulti points i p then i + 1 else i) + 1)
          (if isMulti points i p then i + 1 else i) >>= fun rest => pure (ls ++ rest)
      else processBezierLoop fuel points k (i + 1) last := by
  rw [processBezierLoop_step hp]
  generalize (points.drop last).take (i + 1 - last) = sub
  rcases sub with _ | ⟨x, _ | ⟨y, _ | ⟨z, rest⟩⟩⟩ <;> rfl

theorem processBezierLoop_fits {fuel : ℕ} (points : List (Vec S)) (k : ℕ) : ∀ (i last : ℕ) (ls : List (Linear S)),
    processBezierLoop fuel points k i last = .ok ls →
    ∃ n, ∀ m, n ≤ m → processBezierLoop m (points.map g) k i last = .ok (ls.map (lineOf g)) := by
  induction k with
  | zero =>
    rintro i last ls ⟨⟩
    exact ⟨0, fun m _ => rfl⟩
  | succ k ih =>
    intro i last ls h
    cases hp : points[i]? with
    | none =>
      rw [processBezierLoop, hp] at h
      cases h
      refine ⟨0, fun m _ => ?_⟩
      rw [processBezierLoop, List.getElem?_map, hp]
      rfl
    | some p =>
      have hp' : (points.map g)[i]? = some (g p) := by rw [List.getElem?_map, hp]; rfl
      rw [processBezierLoop_pieces hp] at h
      have step : ∀ m, processBezierLoop m (points.map g) (k + 1) i last = _ := fun m => processBezierLoop_pieces hp'
      simp only [isMulti_fits hg, List.length_map, ← List.map_drop, ← List.map_take] at step
      by_cases hc : (isMulti points i p || i + 1 == points.length) = true
      · rw [if_pos hc] at h
        simp only [if_pos hc] at step
        obtain ⟨l1, e1, h⟩ := bind_ok h
        obtain ⟨l2, e2, h⟩ := bind_ok h
        cases h
        obtain ⟨n2, hn2⟩ := ih _ _ _ e2
        have hn1 : ∃ n, ∀ m, n ≤ m → pieceLines m (((points.drop last).take (i + 1 - last)).map g) = .ok (l1.map (lineOf g)) := by
          generalize (points.drop last).take (i + 1 - last) = sub at e1
          rcases sub with _ | ⟨x, _ | ⟨y, _ | ⟨z, rest⟩⟩⟩
          · exact approximateBezier_fits hg e1
          · exact approximateBezier_fits hg e1
          · cases e1
            exact ⟨0, fun m _ => rfl⟩
          · exact approximateBezier_fits hg e1
        obtain ⟨n1, hn1⟩ := hn1
        refine ⟨max n1 n2, fun m hm => ?_⟩
        rw [step, hn1 m (by omega), ok_bind, hn2 m (by omega), ok_bind, List.map_append]
        rfl
      · rw [if_neg hc] at h
        simp only [if_neg hc] at step
        obtain ⟨n, hn⟩ := ih _ _ _ h
        exact ⟨n, fun m hm => by rw [step, hn m hm]⟩

theorem processBezier_fits {fuel : ℕ} {points : List (Vec S)} {ls : List (Linear S)}
    (h : processBezier fuel points = .ok ls) :
    ∃ n, ∀ m, n ≤ m → processBezier m (points.map g) = .ok (ls.map (lineOf g)) := by
  obtain ⟨n, hn⟩ := processBezierLoop_fits hg points _ _ _ _ h
  refine ⟨n, fun m hm => ?_⟩
  unfold processBezier
  rw [List.length_map]
  exact hn m hm

theorem processLinear_fits : ∀ l : List (Vec S), processLinear (l.map g) = (processLinear l).map (lineOf g)
  | [] => rfl
  | [_] => rfl
  | x :: y :: rest => by
    have ih := processLinear_fits (y :: rest)
    show (if (g x).eq (g y) then processLinear ((y :: rest).map g) else _ :: processLinear ((y :: rest).map g)) =
      (if x.eq y then processLinear (y :: rest) else _ :: processLinear (y :: rest)).map (lineOf g)
    rw [hg.eq, ih]
    by_cases he : x.eq y = true
    · rw [if_pos he, if_pos he]
    · rw [if_neg he, if_neg he]
      rfl

theorem catmullLoop_fits (p1 p2 p3 p4 : Vec S) (d : ℤ) (k : ℕ) : ∀ i : ℤ,
    catmullLoop (g p1) (g p2) (g p3) (g p4) d k i = (catmullLoop p1 p2 p3 p4 d k i).map (lineOf g) := by
  induction k with
  | zero => intro i; rfl
  | succ k ih =>
    intro i
    rw [catmullLoop, catmullLoop, ih, List.map_cons]
    unfold lineOf
    rw [hg.catmull, hg.catmull]

theorem processCatmullLoop_fits : ∀ (l : List (Vec S)) (p : Vec S),
    processCatmullLoop (g p) (l.map g) = (processCatmullLoop p l).map (lineOf g)
  | [], _ => rfl
  | [_], _ => rfl
  | [x, y], p => by
    show approximateCatmullRom (g p) (g x) (g y) ((g y).add ((g y).sub (g x))) ++ [] =
      (approximateCatmullRom p x y (y.add (y.sub x)) ++ []).map (lineOf g)
    rw [List.append_nil, List.append_nil, ← hg.extend]
    exact catmullLoop_fits hg _ _ _ _ _ _ _
  | x :: y :: z :: rest, p => by
    show approximateCatmullRom (g p) (g x) (g y) (g z) ++ processCatmullLoop (g x) ((y :: z :: rest).map g) =
      (approximateCatmullRom p x y z ++ processCatmullLoop x (y :: z :: rest)).map (lineOf g)
    rw [processCatmullLoop_fits (y :: z :: rest) x, List.map_append]
    congr 1
    exact catmullLoop_fits hg _ _ _ _ _ _ _

theorem processCatmull_fits (l : List (Vec S)) : processCatmull (l.map g) = (processCatmull l).map (lineOf g) := by
  cases l with
  | nil => rfl
  | cons x rest => exact processCatmullLoop_fits hg (x :: rest) x

theorem totalLength_fits (ls : List (Linear S)) : totalLength (D := D) (ls.map (lineOf g)) = totalLength (D := D) ls := by
  unfold totalLength
  rw [List.foldl_map]
  congr 1
  funext acc l
  exact congrArg (acc +. ·) (hg.dst l.p1 l.p2)

theorem sectionsFrom_fits : ∀ (ls : List (Linear S)) (x : S),
    sectionsFrom (D := D) x (ls.map (lineOf g)) = sectionsFrom (D := D) x ls
  | [], _ => rfl
  | l :: ls, x => by
    show (x +. (g l.p1).dst (D := D) (g l.p2)) :: sectionsFrom (D := D) (x +. (g l.p1).dst (D := D) (g l.p2)) (ls.map (lineOf g)) = _
    rw [hg.dst, sectionsFrom_fits ls]
    rfl

theorem trimRev_fits : ∀ (ls : List (Linear S)) (x : D),
    trimRev (D := D) (ls.map (lineOf g)) x = (trimRev (D := D) ls x).map (lineOf g)
  | [], _ => rfl
  | l :: ls, x => by
    have hl : (lineOf g l).getLength (D := D) = l.getLength (D := D) := hg.dst l.p1 l.p2
    rw [List.map_cons, trimRev, trimRev, hl, show (lineOf g l).p1.eq (lineOf g l).p2 = l.p1.eq l.p2 from hg.eq _ _]
    split_ifs
    · rfl
    · rw [List.map_cons]
      congr 1
      unfold lineOf
      rw [Linear.mk.injEq]
      exact ⟨rfl, (hg.lerp l.p1 l.p2 _).symm⟩
    · exact trimRev_fits ls _

/-- The path with all its points moved. -/
def MultiCurve.moved (f : Vec S → Vec S) (mc : MultiCurve S) : MultiCurve S :=
  { mc with lines := mc.lines.map (lineOf f), firstPoint := f mc.firstPoint }

omit hg [GoFloat S] [GoFloat D] [GoConv S D] in
theorem index_map {f : Vec S → Vec S} {ls : List (Linear S)} {i : ℤ} {l : Linear S} (h : index ls i = .ok l) :
    index (ls.map (lineOf f)) i = .ok (lineOf f l) := by
  unfold index at h ⊢
  split_ifs at h ⊢
  rw [List.getElem?_map]
  cases he : ls[i.toNat]? with
  | none => rw [he] at h; cases h
  | some x => rw [he] at h; cases h; rfl

theorem pointAt_fits (mc : MultiCurve S) (x : S) {p : Vec S} (h : mc.pointAt x = .ok p) :
    (mc.moved g).pointAt x = .ok (g p) := by
  unfold MultiCurve.pointAt at h ⊢
  have hl : (mc.moved g).lines.length = mc.lines.length := List.length_map _
  have hi : ∀ w, (mc.moved g).lineIndex w = mc.lineIndex w := by
    intro w
    unfold lineIndex
    rw [hl]
    rfl
  dsimp only
  simp only [hl, hi]
  by_cases hc : (mc.lines.length == 0 || mc.length ==. lit 0) = true
  · rw [if_pos hc] at h
    cases h
    exact if_pos hc
  · rw [if_neg hc] at h
    refine (if_neg hc).trans ?_
    obtain ⟨hi, e1, h⟩ := bind_ok h
    obtain ⟨lo, e2, h⟩ := bind_ok h
    obtain ⟨l, e3, h⟩ := bind_ok h
    have e3' : index (mc.moved g).lines (mc.lineIndex (mc.length *. clampF32 x (lit 0) (lit 1))) = .ok (lineOf g l) :=
      index_map e3
    show (index mc.sections _ >>= fun hi => index mc.sections _ >>= fun lo => _) = _
    rw [show (mc.moved g).length = mc.length from rfl, e1, ok_bind, e2, ok_bind, e3', ok_bind]
    split_ifs at h ⊢
    · cases h; rfl
    · cases h
      exact congrArg Except.ok (hg.lerp l.p1 l.p2 _).symm

variable [GoLibm D]

theorem processType_fits {fuel : ℕ} {typ : Str} {points : List (Vec S)}
    {ls : List (Linear S)} (hP : ∀ p q r, typ = ['P'] → points = [p, q, r] → Vec.isStraightLine (D := D) p q r = false →
      ∀ m, fuel ≤ m → approximateCircularArc (D := D) fuel p q r (lit 0.125) = .ok ls →
        approximateCircularArc (D := D) m (g p) (g q) (g r) (lit 0.125) = .ok (ls.map (lineOf g)))
    (h : processType (D := D) fuel typ points = .ok ls) :
    ∃ n, ∀ m, n ≤ m → processType (D := D) m typ (points.map g) = .ok (ls.map (lineOf g)) := by
  unfold processType at h ⊢
  split_ifs at h with c1 c2 c3 c4
  · simp only [if_pos c1]
    unfold processPerfect at h ⊢
    simp only [List.length_map]
    split_ifs at h with c5
    · simp only [if_pos c5]
      exact processBezier_fits hg h
    · simp only [if_neg c5]
      rcases points with _ | ⟨p, _ | ⟨q, _ | ⟨r, _ | ⟨w, rest⟩⟩⟩⟩
      · cases h; exact ⟨0, fun m _ => congrArg Except.ok (processLinear_fits hg _)⟩
      · cases h; exact ⟨0, fun m _ => congrArg Except.ok (processLinear_fits hg _)⟩
      · cases h; exact ⟨0, fun m _ => congrArg Except.ok (processLinear_fits hg _)⟩
      · simp only [List.map_cons, List.map_nil, hg.straight] at h ⊢
        split_ifs at h with c6
        · cases h
          simp only [if_pos c6]
          exact ⟨0, fun m _ => congrArg Except.ok (processLinear_fits hg [p, q, r])⟩
        · simp only [if_neg c6]
          exact ⟨fuel, fun m hm => hP p q r c1 rfl (by simpa using c6) m hm h⟩
      · simp at c5
  · cases h
    simp only [if_neg c1, if_pos c2]
    exact ⟨0, fun m _ => by rw [processLinear_fits hg]⟩
  · simp only [if_neg c1, if_neg c2, if_pos c3]
    exact processBezier_fits hg h
  · cases h
    simp only [if_neg c1, if_neg c2, if_neg c3, if_pos c4]
    exact ⟨0, fun m _ => by rw [processCatmull_fits hg]⟩
  · cases h
    simp only [if_neg c1, if_neg c2, if_neg c3, if_neg c4]
    exact ⟨0, fun m _ => rfl⟩

theorem newT_fits {fuel m : ℕ} {typ : Str} {points : List (Vec S)} {len : D} {mc : MultiCurve S}
    (h : newT (D := D) fuel typ points len = .ok mc)
    (hm : ∀ ls, processType (D := D) fuel typ points = .ok ls →
      processType (D := D) m typ (points.map g) = .ok (ls.map (lineOf g))) :
    newT (D := D) m typ (points.map g) len = .ok (mc.moved g) := by
  unfold newT at h ⊢
  obtain ⟨ls, e1, h⟩ := bind_ok h
  obtain ⟨p, e2, h⟩ := bind_ok h
  cases h
  have e3 : index (points.map g) 0 = .ok (g p) := by
    cases points with
    | nil => simp [index] at e2
    | cons x rest =>
      simp [index] at e2 ⊢
      rw [e2]
  rw [hm ls e1, ok_bind, e3, ok_bind, totalLength_fits hg]
  dsimp only
  have key : (if totalLength (D := D) ls >. lit 0 then
      (trimRev (D := D) (ls.map (lineOf g)).reverse (up (totalLength (D := D) ls) -. len)).reverse else ls.map (lineOf g)) =
      (if totalLength (D := D) ls >. lit 0 then
        (trimRev (D := D) ls.reverse (up (totalLength (D := D) ls) -. len)).reverse else ls).map (lineOf g) := by
    split_ifs
    · rw [← List.map_reverse, trimRev_fits hg, List.map_reverse]
    · rfl
  rw [key]
  generalize (if totalLength (D := D) ls >. lit 0 then
        (trimRev (D := D) ls.reverse (up (totalLength (D := D) ls) -. len)).reverse else ls) = out
  unfold MultiCurve.moved mkSections
  rw [totalLength_fits hg, sectionsFrom_fits hg]
  rfl

end

section
variable {a b s t u : ℝ}

local notation "g" => turned a b s t u

theorem turned_mid (v w : Vec ℝ) : g ((v.add w).scl (lit 0.5)) = ((g v).add (g w)).scl (lit 0.5) := by
  have h : (lit 0.5 : ℝ) = 1 / 2 := by rw [RealArith.lit]; norm_num
  show (⟨_, _⟩ : Vec ℝ) = ⟨_, _⟩
  rw [h, Vec.mk.injEq]
  constructor
  · show a * ((v.x + w.x) * (1 / 2)) - s * b * ((v.y + w.y) * (1 / 2)) + t =
      ((a * v.x - s * b * v.y + t) + (a * w.x - s * b * w.y + t)) * (1 / 2)
    ring
  · show b * ((v.x + w.x) * (1 / 2)) + s * a * ((v.y + w.y) * (1 / 2)) + u =
      ((b * v.x + s * a * v.y + u) + (b * w.x + s * a * w.y + u)) * (1 / 2)
    ring

theorem turned_mean (v w z : Vec ℝ) : g (((v.add (w.scl (lit 2))).add z).scl (lit 0.25)) =
    (((g v).add ((g w).scl (lit 2))).add (g z)).scl (lit 0.25) := by
  have h : (lit 0.25 : ℝ) = 1 / 4 := by rw [RealArith.lit]; norm_num
  have h2 : (lit 2 : ℝ) = 2 := by rw [RealArith.lit]; norm_num
  show (⟨_, _⟩ : Vec ℝ) = ⟨_, _⟩
  rw [h, h2, Vec.mk.injEq]
  constructor
  · show a * ((v.x + w.x * 2 + z.x) * (1 / 4)) - s * b * ((v.y + w.y * 2 + z.y) * (1 / 4)) + t =
      ((a * v.x - s * b * v.y + t) + (a * w.x - s * b * w.y + t) * 2 + (a * z.x - s * b * z.y + t)) * (1 / 4)
    ring
  · show b * ((v.x + w.x * 2 + z.x) * (1 / 4)) + s * a * ((v.y + w.y * 2 + z.y) * (1 / 4)) + u =
      ((b * v.x + s * a * v.y + u) + (b * w.x + s * a * w.y + u) * 2 + (b * z.x + s * a * z.y + u)) * (1 / 4)
    ring

theorem turned_lerp (v w : Vec ℝ) (r : ℝ) : g (v.lerp w r) = (g v).lerp (g w) r := by
  show (⟨_, _⟩ : Vec ℝ) = ⟨_, _⟩
  rw [Vec.mk.injEq]
  constructor
  · show a * ((w.x - v.x) * r + v.x) - s * b * ((w.y - v.y) * r + v.y) + t =
      ((a * w.x - s * b * w.y + t) - (a * v.x - s * b * v.y + t)) * r + (a * v.x - s * b * v.y + t)
    ring
  · show b * ((w.x - v.x) * r + v.x) + s * a * ((w.y - v.y) * r + v.y) + u =
      ((b * w.x + s * a * w.y + u) - (b * v.x + s * a * v.y + u)) * r + (b * v.x + s * a * v.y + u)
    ring

theorem turned_catmull (p1 p2 p3 p4 : Vec ℝ) (r : ℝ) :
    g (catmullPoint p1 p2 p3 p4 r) = catmullPoint (g p1) (g p2) (g p3) (g p4) r := by
  have h5 : (lit 0.5 : ℝ) = 1 / 2 := by rw [RealArith.lit]; norm_num
  have h2 : (lit 2 : ℝ) = 2 := by rw [RealArith.lit]; norm_num
  have h3 : (lit 3 : ℝ) = 3 := by rw [RealArith.lit]; norm_num
  have h4 : (lit 4 : ℝ) = 4 := by rw [RealArith.lit]; norm_num
  have h6 : (lit 5 : ℝ) = 5 := by rw [RealArith.lit]; norm_num
  have key : ∀ x y z w : ℝ, catmullCoord x y z w r = 1 / 2 * (2 * y + (-x + z) * r + (2 * x - 5 * y + 4 * z - w) * (r * r) +
      (-x + 3 * y - 3 * z + w) * (r * (r * r))) := by
    intro x y z w
    show (lit 0.5 : ℝ) * ((lit 2 : ℝ) * y + (-x + z) * r + ((lit 2 : ℝ) * x - (lit 5 : ℝ) * y + (lit 4 : ℝ) * z - w) * (r * r) +
      (-x + (lit 3 : ℝ) * y - (lit 3 : ℝ) * z + w) * (r * (r * r))) = _
    rw [h5, h2, h3, h4, h6]
  unfold turned catmullPoint
  simp only [key, Vec.mk.injEq]
  constructor <;> ring

theorem turned_extend (v w : Vec ℝ) : g (v.add (v.sub w)) = (g v).add ((g v).sub (g w)) := by
  show (⟨_, _⟩ : Vec ℝ) = ⟨_, _⟩
  rw [Vec.mk.injEq]
  constructor
  · show a * (v.x + (v.x - w.x)) - s * b * (v.y + (v.y - w.y)) + t =
      (a * v.x - s * b * v.y + t) + ((a * v.x - s * b * v.y + t) - (a * w.x - s * b * w.y + t))
    ring
  · show b * (v.x + (v.x - w.x)) + s * a * (v.y + (v.y - w.y)) + u =
      (b * v.x + s * a * v.y + u) + ((b * v.x + s * a * v.y + u) - (b * w.x + s * a * w.y + u))
    ring

variable (h1 : a * a + b * b = 1) (hs : s * s = 1)
include h1 hs

theorem turned_dst (v w : Vec ℝ) : (g v).dst (D := ℝ) (g w) = v.dst (D := ℝ) w := by
  show Real.sqrt _ = Real.sqrt _
  congr 1
  show ((a * w.x - s * b * w.y + t) - (a * v.x - s * b * v.y + t)) * ((a * w.x - s * b * w.y + t) - (a * v.x - s * b * v.y + t)) +
    ((b * w.x + s * a * w.y + u) - (b * v.x + s * a * v.y + u)) * ((b * w.x + s * a * w.y + u) - (b * v.x + s * a * v.y + u)) =
    (w.x - v.x) * (w.x - v.x) + (w.y - v.y) * (w.y - v.y)
  linear_combination ((w.x - v.x) ^ 2 + s * s * (w.y - v.y) ^ 2) * h1 + (w.y - v.y) ^ 2 * hs

theorem turned_bend (v w z : Vec ℝ) : ((((g v).sub ((g w).scl (lit 2))).add (g z)).lenSq : ℝ) =
    ((v.sub (w.scl (lit 2))).add z).lenSq := by
  have h2 : (lit 2 : ℝ) = 2 := by rw [RealArith.lit]; norm_num
  rw [h2]
  show ((a * v.x - s * b * v.y + t) - (a * w.x - s * b * w.y + t) * 2 + (a * z.x - s * b * z.y + t)) *
      ((a * v.x - s * b * v.y + t) - (a * w.x - s * b * w.y + t) * 2 + (a * z.x - s * b * z.y + t)) +
    ((b * v.x + s * a * v.y + u) - (b * w.x + s * a * w.y + u) * 2 + (b * z.x + s * a * z.y + u)) *
      ((b * v.x + s * a * v.y + u) - (b * w.x + s * a * w.y + u) * 2 + (b * z.x + s * a * z.y + u)) =
    (v.x - w.x * 2 + z.x) * (v.x - w.x * 2 + z.x) + (v.y - w.y * 2 + z.y) * (v.y - w.y * 2 + z.y)
  linear_combination ((v.x - w.x * 2 + z.x) ^ 2 + s * s * (v.y - w.y * 2 + z.y) ^ 2) * h1 + (v.y - w.y * 2 + z.y) ^ 2 * hs

theorem turned_inj {v w : Vec ℝ} (h : g v = g w) : v = w := by
  obtain ⟨x, y⟩ := v
  obtain ⟨x', y'⟩ := w
  simp only [turned, Vec.mk.injEq] at h ⊢
  obtain ⟨p, q⟩ := h
  constructor
  · linear_combination a * p + b * q - (x - x') * h1
  · linear_combination -s * b * p + s * a * q - s * s * (y - y') * h1 - (y - y') * hs

theorem turned_eq (v w : Vec ℝ) : (g v).eq (g w) = v.eq w := by
  have key : ∀ p q : Vec ℝ, p.eq q = true ↔ p = q := by
    rintro ⟨x, y⟩ ⟨x', y'⟩
    unfold Vec.eq
    rw [Bool.and_eq_true, RealArith.eq, RealArith.eq, Vec.mk.injEq]
  rw [Bool.eq_iff_iff, key, key]
  exact ⟨turned_inj h1 hs, fun h => by rw [h]⟩

theorem turned_straight (v w z : Vec ℝ) : Vec.isStraightLine (D := ℝ) (g v) (g w) (g z) = Vec.isStraightLine (D := ℝ) v w z := by
  have e : |((b * w.x + s * a * w.y + u) - (b * v.x + s * a * v.y + u)) * ((a * z.x - s * b * z.y + t) - (a * v.x - s * b * v.y + t)) -
      ((a * w.x - s * b * w.y + t) - (a * v.x - s * b * v.y + t)) * ((b * z.x + s * a * z.y + u) - (b * v.x + s * a * v.y + u))| =
      |(w.y - v.y) * (z.x - v.x) - (w.x - v.x) * (z.y - v.y)| := by
    rw [show ((b * w.x + s * a * w.y + u) - (b * v.x + s * a * v.y + u)) * ((a * z.x - s * b * z.y + t) - (a * v.x - s * b * v.y + t)) -
      ((a * w.x - s * b * w.y + t) - (a * v.x - s * b * v.y + t)) * ((b * z.x + s * a * z.y + u) - (b * v.x + s * a * v.y + u)) =
      s * ((w.y - v.y) * (z.x - v.x) - (w.x - v.x) * (z.y - v.y)) by
        linear_combination s * ((w.y - v.y) * (z.x - v.x) - (w.x - v.x) * (z.y - v.y)) * h1, abs_mul]
    have : |s| = 1 := by
      have := abs_mul_abs_self s
      nlinarith [abs_nonneg s]
    rw [this, one_mul]
  show GoFloat.lt |_| _ = GoFloat.lt |_| _
  exact congrArg (fun x : ℝ => GoFloat.lt x (lit 0.001)) e

end

section
variable {t u : ℝ}

local notation "g" => turned 1 0 1 t u

theorem shift_x (v : Vec ℝ) : (g v).x = v.x + t := by
  show 1 * v.x - 1 * 0 * v.y + t = _
  ring

theorem shift_y (v : Vec ℝ) : (g v).y = v.y + u := by
  show 0 * v.x + 1 * 1 * v.y + u = _
  ring

theorem shift_ext {v w : Vec ℝ} (hx : w.x = v.x + t) (hy : w.y = v.y + u) : w = g v := by
  obtain ⟨x, y⟩ := w
  simp only at hx hy
  subst hx hy
  rw [← shift_x, ← shift_y (t := t)]

theorem unwind_mono {x : ℝ} {n : ℕ} : ∀ {y z : ℝ} {m : ℕ}, CirArc.unwind x n y = .ok z → n ≤ m → CirArc.unwind x m y = .ok z := by
  induction n with
  | zero => intro y z m h; cases h
  | succ n ih =>
    intro y z m h hm
    obtain ⟨m, rfl⟩ : ∃ k, m = k + 1 := ⟨m - 1, by omega⟩
    rw [CirArc.unwind] at h ⊢
    split_ifs at h ⊢
    · exact ih h (by omega)
    · exact h

theorem arc_shift {fuel m : ℕ} (hm : fuel ≤ m) {p q r : Vec ℝ} {arc : CirArc ℝ}
    (hd : p.x * (q.y - r.y) + q.x * (r.y - p.y) + r.x * (p.y - q.y) ≠ 0)
    (h : CirArc.new (D := ℝ) fuel p q r = .ok arc) :
    CirArc.new (D := ℝ) m (g p) (g q) (g r) = .ok { arc with centre := g arc.centre } := by
  unfold CirArc.new at h ⊢
  simp only at h ⊢
  have hst : Vec.isStraightLine (D := ℝ) (g p) (g q) (g r) = Vec.isStraightLine (D := ℝ) p q r :=
    turned_straight (by norm_num) (by norm_num) p q r
  have hlit : (lit 2 : ℝ) = 2 := by rw [RealArith.lit]; norm_num
  have hlit1 : (lit 1 : ℝ) = 1 := by rw [RealArith.lit]; norm_num
  have hc : (Vec.scl (S := ℝ)
    ⟨(g p).lenSq *. ((g q).y -. (g r).y) +. (g q).lenSq *. ((g r).y -. (g p).y) +. (g r).lenSq *. ((g p).y -. (g q).y),
     (g p).lenSq *. ((g r).x -. (g q).x) +. (g q).lenSq *. ((g p).x -. (g r).x) +. (g r).lenSq *. ((g q).x -. (g p).x)⟩
     (lit 1 /. (lit 2 *. ((g p).x *. ((g q).y -. (g r).y) +. (g q).x *. ((g r).y -. (g p).y) +. (g r).x *. ((g p).y -. (g q).y))))) =
    g (Vec.scl (S := ℝ)
    ⟨p.lenSq *. (q.y -. r.y) +. q.lenSq *. (r.y -. p.y) +. r.lenSq *. (p.y -. q.y),
     p.lenSq *. (r.x -. q.x) +. q.lenSq *. (p.x -. r.x) +. r.lenSq *. (q.x -. p.x)⟩
     (lit 1 /. (lit 2 *. (p.x *. (q.y -. r.y) +. q.x *. (r.y -. p.y) +. r.x *. (p.y -. q.y))))) := by
    have e : ((p.x + t) * ((q.y + u) - (r.y + u)) + (q.x + t) * ((r.y + u) - (p.y + u)) + (r.x + t) * ((p.y + u) - (q.y + u))) =
      p.x * (q.y - r.y) + q.x * (r.y - p.y) + r.x * (p.y - q.y) := by ring
    apply shift_ext
    · rw [hlit, hlit1]
      simp only [Vec.scl, Vec.lenSq, shift_x, shift_y, RealArith.add, RealArith.sub, RealArith.mul, RealArith.div]
      rw [e]
      field_simp
      ring
    · rw [hlit, hlit1]
      simp only [Vec.scl, Vec.lenSq, shift_x, shift_y, RealArith.add, RealArith.sub, RealArith.mul, RealArith.div]
      rw [e]
      field_simp
      ring
  have ha : ∀ v w : Vec ℝ, (g v).angleRV (D := ℝ) (g w) = v.angleRV (D := ℝ) w := by
    intro v w
    unfold Vec.angleRV
    simp only [shift_x, shift_y, RealArith.sub, add_sub_add_right_eq_sub]
  have hb : ∀ v w : Vec ℝ, (g v).sub (g w) = v.sub w := by
    intro v w
    unfold Vec.sub
    simp only [shift_x, shift_y, RealArith.sub, add_sub_add_right_eq_sub]
  rw [hc, hst, turned_dst (by norm_num) (by norm_num), ha, ha, hb, hb]
  obtain ⟨e, e1, h⟩ := bind_ok h
  rw [unwind_mono e1 hm, ok_bind]
  split_ifs at h ⊢ <;> cases h <;> rfl

theorem arc_points_shift (arc : CirArc ℝ) (x : ℝ) :
    CirArc.pointAt (D := ℝ) { arc with centre := g arc.centre } x = g (arc.pointAt (D := ℝ) x) := by
  unfold CirArc.pointAt
  apply shift_ext
  · show _ + (g arc.centre).x = _ + arc.centre.x + t
    rw [shift_x, add_assoc]
  · show _ + (g arc.centre).y = _ + arc.centre.y + u
    rw [shift_y, add_assoc]

theorem arcLoop_shift (arc : CirArc ℝ) (n : ℤ) (k : ℕ) : ∀ i : ℤ,
    arcLoop (D := ℝ) { arc with centre := g arc.centre } n k i = (arcLoop (D := ℝ) arc n k i).map (lineOf g) := by
  induction k with
  | zero => intro i; rfl
  | succ k ih =>
    intro i
    rw [arcLoop, arcLoop, ih, List.map_cons]
    unfold lineOf
    rw [arc_points_shift, arc_points_shift]

theorem bent_area {p q r : Vec ℝ} (h : Vec.isStraightLine (D := ℝ) p q r = false) :
    p.x * (q.y - r.y) + q.x * (r.y - p.y) + r.x * (p.y - q.y) ≠ 0 := by
  intro hz
  have : Vec.isStraightLine (D := ℝ) p q r = true := by
    unfold Vec.isStraightLine
    rw [RealArith.lt]
    show |(q.y - p.y) * (r.x - p.x) - (q.x - p.x) * (r.y - p.y)| < (lit 0.001 : ℝ)
    rw [show (q.y - p.y) * (r.x - p.x) - (q.x - p.x) * (r.y - p.y) = 0 by linear_combination -hz, abs_zero, RealArith.lit]
    norm_num
  rw [h] at this
  cases this

theorem approximateArc_shift {fuel m : ℕ} (hm : fuel ≤ m) {p q r : Vec ℝ} {x : ℝ} {ls : List (Linear ℝ)}
    (hs : Vec.isStraightLine (D := ℝ) p q r = false) (h : approximateCircularArc (D := ℝ) fuel p q r x = .ok ls) :
    approximateCircularArc (D := ℝ) m (g p) (g q) (g r) x = .ok (ls.map (lineOf g)) := by
  unfold approximateCircularArc at h ⊢
  obtain ⟨arc, e1, h⟩ := bind_ok h
  rw [arc_shift hm (bent_area hs) e1, ok_bind]
  dsimp only at h ⊢
  split_ifs at h ⊢
  · cases h; rfl
  · obtain ⟨_, e2, h⟩ := bind_ok h
    cases h
    rw [e2, ok_bind, arcLoop_shift]
    rfl

end

theorem fits_turned {a b s t u : ℝ} (h1 : a * a + b * b = 1) (hs : s * s = 1) : Fits ℝ (turned a b s t u) where
  mid := turned_mid
  mean := turned_mean
  lerp := turned_lerp
  catmull := turned_catmull
  extend := turned_extend
  dst := turned_dst h1 hs
  bend := turned_bend h1 hs
  eq := turned_eq h1 hs
  straight := turned_straight h1 hs

theorem fits_swap : Fits F64 (Spec.swap : Vec F32 → Vec F32) where
  mid _ _ := rfl
  mean _ _ _ := rfl
  lerp _ _ _ := rfl
  catmull _ _ _ _ _ := rfl
  extend _ _ := rfl
  dst _ _ := congrArg Math32.sqrt (SwapIEEE.add_comm _ _)
  bend _ _ _ := SwapIEEE.add_comm _ _
  eq v w := Bool.and_comm _ _
  straight v w z := by
    have key : ∀ x y : F32, (Math32.abs (x -. y) : F32) = Math32.abs (y -. x) := by
      intro x y
      rcases SwapIEEE.sub_swap y x with h | h
      · exact congrArg Math32.abs h
      · refine (congrArg Math32.abs h).trans ?_
        show down (GoFloat.abs (up (Fl.neg (Fl.sub y x)))) = down (GoFloat.abs (up (Fl.sub y x)))
        refine congrArg down ?_
        show Fl.abs (Fl.cvt _ (Fl.neg _)) = Fl.abs (Fl.cvt _ _)
        rw [SwapIEEE.cvt_neg, SwapIEEE.abs_neg']
    show GoFloat.lt (Math32.abs (_ -. _)) _ = GoFloat.lt (Math32.abs (_ -. _)) _
    exact congrArg (fun x : F32 => GoFloat.lt x (lit 0.001)) (key _ _)

end GosuPP
