import Verif.Lemmas.WrittenFile

/-!
# Reading back written objects and timing points
-/

namespace GosuPP
open Go Spec
variable {S D : Type} [GoFloat S] [GoFloat D] [GoConv S D]

theorem type_bits (b : Bool) (k : Fin 8) :
    (∀ kind ∈ [(1 : Int), 2, 8],
      let ty := kind + (if b then 4 else 0) + 16 * (k.val : Int)
      typeCircle ty = decide (kind = 1) ∧ typeSpinner ty = decide (kind = 8) ∧ typeSlider ty = decide (kind = 2) ∧
      typeNewCombo ty = b ∧ (ty / 16) % 8 = k.val ∧ 0 ≤ ty ∧ ty < 256) := by
  revert b k
  decide

theorem type_int64 {kind : Int} (hk : kind ∈ [(1 : Int), 2, 8]) (h : Head) : File.Int64 (typeField kind h) := by
  obtain ⟨-, -, -, -, -, h6, h7⟩ := type_bits h.newCombo h.skip kind hk
  unfold File.Int64 typeField
  exact ⟨by omega, by omega⟩

theorem type_tests (b : Bool) (k : Fin 8) :
    (∀ kind ∈ [(1 : Int), 2, 8],
      let ty := kind + (if b then 4 else 0) + 16 * (k.val : Int)
      ty.testBit 0 = decide (kind = 1) ∧ ty.testBit 3 = decide (kind = 8) ∧ ty.testBit 1 = decide (kind = 2)) := by
  revert b k
  decide

theorem lineKind_written (l : ObjectLine) : lineKind l.fields = l.kind := by
  have key : ∀ (kind : Int) (_ : kind ∈ [(1 : Int), 2, 8]) (h : Head) (r : List Str), lineKind (h.fields kind ++ r) =
      if kind = 1 then .circle else if kind = 8 then .spinner else .slider := by
    intro kind hk h r
    obtain ⟨h1, h2, h3⟩ := type_tests h.newCombo h.skip kind hk
    unfold lineKind
    have e : ((h.fields kind ++ r)[3]?).getD [] = showInt (typeField kind h) := rfl
    simp only [e, parseInt_showInt (type_int64 hk h)]
    rw [show (typeField kind h).testBit 0 = _ from h1, show (typeField kind h).testBit 3 = _ from h2,
      show (typeField kind h).testBit 1 = _ from h3]
    simp only [List.mem_cons, List.not_mem_nil, or_false] at hk
    rcases hk with rfl | rfl | rfl <;> rfl
  cases l with
  | circle h =>
    have := key 1 (by decide) h []
    rw [List.append_nil] at this
    exact this
  | spinner h e => exact key 8 (by decide) h _
  | slider h c ps r len => exact key 2 (by decide) h _

/-- The common part of an object. -/
def writtenBase (h : Head) : HitObject S D :=
  { startPosRaw := ⟨h.x.value, h.y.value⟩, endPosRaw := ⟨h.x.value, h.y.value⟩
    startTime := (Dec.int h.time).value, endTime := (Dec.int h.time).value
    stackOffset := Vec.zero, stackOffsetEZ := Vec.zero, stackOffsetHR := Vec.zero
    stackIndex := 0, stackIndexEZ := 0, stackIndexHR := 0
    hitObjectID := -1, sounds := [h.sound]
    newCombo := h.newCombo, comboNumber := 0, comboSet := 0, comboSetHax := 0
    colorOffset := h.skip.val }

theorem commonParse_written {kind : Int} (hk : kind ∈ [(1 : Int), 2, 8]) (h : Head) (hs : File.Int64 h.sound) (r : List Str) :
    commonParse (S := S) (D := D) (h.fields kind ++ r) = .ok (writtenBase h) := by
  have e : commonParse (S := S) (D := D) (h.fields kind ++ r) = .ok
      { startPosRaw := ⟨parseFloat h.x.show, parseFloat h.y.show⟩, endPosRaw := ⟨parseFloat h.x.show, parseFloat h.y.show⟩
        startTime := parseFloat (showInt h.time), endTime := parseFloat (showInt h.time)
        stackOffset := Vec.zero, stackOffsetEZ := Vec.zero, stackOffsetHR := Vec.zero
        stackIndex := 0, stackIndexEZ := 0, stackIndexHR := 0
        hitObjectID := -1, sounds := [parseInt (showInt h.sound)]
        newCombo := typeNewCombo (parseInt (showInt (typeField kind h))), comboNumber := 0, comboSet := 0, comboSetHax := 0
        colorOffset := (parseInt (showInt (typeField kind h)) / 16) % 8 } := rfl
  obtain ⟨-, -, -, h4, h5, -⟩ := type_bits h.newCombo h.skip kind hk
  rw [e, parseInt_showInt hs, parseInt_showInt (type_int64 hk h)]
  unfold writtenBase
  rw [showInt_dec, parseFloat_show, parseFloat_show, parseFloat_show]
  rw [show typeNewCombo (typeField kind h) = h.newCombo from h4, show typeField kind h / 16 % 8 = (h.skip.val : Int) from h5]

variable [GoLibm D]

theorem create_written {kind : Int} (hk : kind ∈ [(1 : Int), 2, 8]) (fuel : Nat) (h : Head) (r : List Str) :
    createObject (S := S) (D := D) fuel (h.fields kind ++ r) =
      if kind = 1 then (do return some (← newCircle (h.fields kind ++ r)))
      else if kind = 8 then (do return some (← newSpinner (h.fields kind ++ r)))
      else (do return some (← newSlider fuel (h.fields kind ++ r))) := by
  obtain ⟨h1, h2, h3, -⟩ := type_bits h.newCombo h.skip kind hk
  have e : createObject (S := S) (D := D) fuel (h.fields kind ++ r) =
      if typeCircle (parseInt (showInt (typeField kind h))) then (do return some (← newCircle (h.fields kind ++ r)))
      else if typeSpinner (parseInt (showInt (typeField kind h))) then (do return some (← newSpinner (h.fields kind ++ r)))
      else if typeSlider (parseInt (showInt (typeField kind h))) then (do return some (← newSlider fuel (h.fields kind ++ r)))
      else (do return none) := rfl
  rw [e, parseInt_showInt (type_int64 hk h), show typeCircle (typeField kind h) = _ from h1,
    show typeSpinner (typeField kind h) = _ from h2, show typeSlider (typeField kind h) = _ from h3]
  simp only [decide_eq_true_eq]
  simp only [List.mem_cons, List.not_mem_nil, or_false] at hk
  rcases hk with rfl | rfl | rfl
  · rfl
  · rfl
  · rfl

theorem create_circle (fuel : Nat) {h : Head} (hg : File.GoodObject (.circle h)) :
    createObject (S := S) (D := D) fuel (ObjectLine.circle h).fields = .ok (some ⟨writtenBase h, .circle⟩) := by
  have := create_written (S := S) (D := D) (kind := 1) (by decide) fuel h []
  rw [List.append_nil] at this
  show createObject fuel (h.fields 1) = _
  rw [this, if_pos rfl]
  unfold newCircle
  have hc := commonParse_written (S := S) (D := D) (kind := 1) (by decide) h hg.2.1 []
  rw [List.append_nil] at hc
  rw [hc]
  rfl

theorem create_spinner (fuel : Nat) {h : Head} {e : Int} (hg : File.GoodObject (.spinner h e)) :
    createObject (S := S) (D := D) fuel (ObjectLine.spinner h e).fields =
      .ok (some ⟨{ writtenBase h with endTime := (Dec.int e).value }, .spinner⟩) := by
  show createObject fuel (h.fields 8 ++ [showInt e]) = _
  rw [create_written (kind := 8) (by decide), if_neg (by decide), if_pos rfl]
  unfold newSpinner
  rw [commonParse_written (by decide) h hg.2.1]
  have hi : index (h.fields 8 ++ [showInt e]) 5 = .ok (showInt e) := rfl
  rw [hi]
  simp only [showInt_dec, ← parseFloat_show]
  rfl

theorem parsePoints_written (ps : List (Dec × Dec)) :
    parsePoints (S := S) (ps.map (fun p => p.1.show ++ ':' :: p.2.show)) = .ok (ps.map (fun p => ⟨p.1.value, p.2.value⟩)) := by
  induction ps with
  | nil => rfl
  | cons p ps ih =>
    have hs : split ':' (p.1.show ++ ':' :: p.2.show) = [p.1.show, p.2.show] := by
      have hn : ∀ d : Dec, ':' ∉ d.show := fun d hc => (numChar_props (show_chars d _ hc)).2.2.2.2.2.2.1 rfl
      rw [split_append, split_none (hn _), split_none (hn _)]
      rfl
    rw [List.map_cons, parsePoints, ih, hs]
    show Except.ok _ = _
    rw [parseFloat_show, parseFloat_show]
    rfl

theorem create_slider {fuel : Nat} {h : Head} {c : Char} {ps : List (Dec × Dec)} {r : Int} {len : Dec} {o : Option (Obj S D)}
    (hg : File.GoodObject (.slider h c ps r len)) (ho : createObject fuel (ObjectLine.slider h c ps r len).fields = .ok o) :
    ∃ ob, o = some ob ∧ LineDescribes fuel (.slider h c ps r len) ob := by
  have hpath : split '|' (join '|' ([c] :: ps.map (fun p => p.1.show ++ ':' :: p.2.show))) =
      [c] :: ps.map (fun p => p.1.show ++ ':' :: p.2.show) := by
    apply split_join _ (by simp)
    have hn : ∀ d : Dec, '|' ∉ d.show := fun d hc => (numChar_props (show_chars d _ hc)).2.2.2.2.2.2.2.1 rfl
    intro p hp
    rcases List.mem_cons.mp hp with rfl | hp
    · intro hx
      simp only [List.mem_singleton] at hx
      subst hx
      exact absurd hg.2.2.1 (by decide)
    · obtain ⟨q, -, rfl⟩ := List.mem_map.mp hp
      intro hx
      rcases List.mem_append.mp hx with hx | hx
      · exact hn _ hx
      · rcases List.mem_cons.mp hx with hx | hx
        · exact absurd hx (by decide)
        · exact hn _ hx
  generalize hfs : (ObjectLine.slider h c ps r len).fields = fs at ho
  have hfs' : fs = h.fields 2 ++ [join '|' ([c] :: ps.map (fun p => p.1.show ++ ':' :: p.2.show)), showInt r, len.show] :=
    hfs.symm
  rw [hfs', create_written (kind := 2) (by decide), if_neg (by decide), if_neg (by decide)] at ho
  obtain ⟨x, hx, ho⟩ := bind_ok ho
  cases ho
  refine ⟨x, rfl, ?_⟩
  unfold newSlider at hx
  rw [commonParse_written (by decide) h hg.2.1] at hx
  obtain ⟨_, e0, hx⟩ := bind_ok hx
  cases e0
  obtain ⟨_, e1, hx⟩ := bind_ok hx
  cases (show Except.ok len.show = _ from e1)
  obtain ⟨_, e2, hx⟩ := bind_ok hx
  cases (show Except.ok (showInt r) = _ from e2)
  obtain ⟨_, e3, hx⟩ := bind_ok hx
  cases (show Except.ok (join '|' ([c] :: ps.map (fun p => p.1.show ++ ':' :: p.2.show))) = _ from e3)
  rw [hpath] at hx
  obtain ⟨more, e4, hx⟩ := bind_ok hx
  rw [List.tail_cons, parsePoints_written] at e4
  cases e4
  obtain ⟨_, e5, hx⟩ := bind_ok hx
  cases (show Except.ok [c] = _ from e5)
  obtain ⟨mc, e6, hx⟩ := bind_ok hx
  obtain ⟨ep, e7, hx⟩ := bind_ok hx
  obtain ⟨_, e8, hx⟩ := bind_ok hx
  cases (show Except.ok h.sound = _ from e8)
  obtain ⟨_, e9, hx⟩ := bind_ok hx
  obtain ⟨snd, e10, hx⟩ := bind_ok hx
  have hsnd : snd = List.replicate (addI64 (parseInt (showInt r)) 1).toNat h.sound := by
    have : edgeSounds (h.fields 2 ++ [join '|' ([c] :: ps.map (fun p => p.1.show ++ ':' :: p.2.show)), showInt r, len.show])
        (List.replicate (addI64 (parseInt (showInt r)) 1).toNat h.sound) =
        .ok (List.replicate (addI64 (parseInt (showInt r)) 1).toNat h.sound) := rfl
    rw [this] at e10
    cases e10
    rfl
  subst hsnd
  cases hx
  rw [parseInt_showInt hg.2.2.2] at e9
  obtain ⟨hr1, hr2⟩ := hg.2.2.2
  rcases makeCheck_sounds r ⟨by omega, by omega⟩ with ⟨-, hbad⟩ | ⟨-, -, hadd⟩
  · rw [hbad] at e9; cases e9
  refine ⟨rfl, rfl, rfl, rfl, _, rfl, parseInt_showInt hg.2.2.2, parseFloat_show len, ?_, ?_, ?_⟩
  · rw [parseFloat_show] at e6
    exact e6
  · exact e7
  · show List.replicate (addI64 (parseInt (showInt r)) 1).toNat h.sound = _
    rw [parseInt_showInt hg.2.2.2, hadd]

theorem create_describes {fuel : Nat} {l : ObjectLine} {o : Option (Obj S D)} (hg : File.GoodObject l)
    (ho : createObject fuel l.fields = .ok o) : ∃ ob, o = some ob ∧ LineDescribes fuel l ob := by
  cases l with
  | circle h =>
    rw [create_circle fuel hg] at ho
    cases ho
    exact ⟨_, rfl, rfl, rfl, rfl, rfl, rfl, rfl, rfl, rfl⟩
  | spinner h e =>
    rw [create_spinner fuel hg] at ho
    cases ho
    exact ⟨_, rfl, rfl, rfl, rfl, rfl, rfl, rfl, rfl, rfl⟩
  | slider h c ps r len => exact create_slider hg ho

omit [GoFloat S] [GoConv S D] [GoLibm D] in
theorem point_written {p : TimingLine} (hg : File.GoodPoint p) {q : ControlPoint D} (h : IsPoint p.fields q)
    (hb : q.beatLengthBase = q.beatLength) : q = p.point := by
  obtain ⟨g1, g2, g3, g4, g5⟩ := hg
  have hf : ∀ n d v, p.fields[n]? = some (showInt v) → File.Int64 v → intField p.fields n d = v := by
    intro n d v e hv
    unfold intField
    rw [e]
    exact parseInt_showInt hv
  have i0 := hf 0 0 _ rfl g1
  have i2 := hf 2 0 _ rfl g2
  have i3 := hf 3 0 _ rfl g3
  have i4 := hf 4 1 _ rfl g4
  have i5 := hf 5 0 _ rfl g5
  have i7 := hf 7 0 _ rfl (by unfold File.Int64; constructor <;> split <;> split <;> omega)
  have i6 : intField p.fields 6 1 = if p.inherited then 0 else 1 := by
    unfold intField
    show parseInt (if p.inherited then ['0'] else ['1']) = _
    cases p.inherited <;> decide
  have hbeat : q.beatLength = p.beatLength.value := by
    obtain ⟨f, e, hv⟩ := h.beatLength
    cases (show some p.beatLength.show = some f from e)
    rw [hv, parseFloat_show]
  obtain ⟨t, -, sg, ss, si, sv, inh, ki, om⟩ := h
  have hinh : q.inherited = p.inherited := by
    rw [Bool.eq_iff_iff, inh, i6]
    cases p.inherited <;> decide
  rw [i0] at t
  rw [i2] at sg
  rw [i3] at ss
  rw [i4] at si
  rw [i5, if_neg (show ¬ p.fields.length ≤ 5 from (show ¬ (8 ≤ 5) by decide))] at sv
  rw [i7] at ki om
  have hki : q.kiai = p.kiai := by rw [ki]; cases p.kiai <;> cases p.omitBar <;> decide
  have hom : q.omitFirstBarLine = p.omitBar := by rw [om]; cases p.kiai <;> cases p.omitBar <;> decide
  rw [hbeat] at hb
  clear ki om inh
  cases q
  simp only at *
  subst_vars
  rfl

end GosuPP
