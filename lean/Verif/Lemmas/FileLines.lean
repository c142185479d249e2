import Verif.Lemmas.FileMotion
import Verif.Lemmas.Returned
import Verif.Lemmas.ModStrings
import Verif.Props.PathMotion
import Verif.Spec.Flipped

/-! The lines of a written map with exchanged coordinates. -/

namespace GosuPP
open Go Spec

theorem byteLen_append (a b : Str) : byteLen (a ++ b) = byteLen a + byteLen b := by
  unfold byteLen
  rw [List.map_append, List.sum_append]

theorem points_byteLen (ps : List (Dec × Dec)) : ∀ a : Str,
    byteLen (join '|' (a :: (ps.map (fun p => (p.2, p.1))).map (fun p : Dec × Dec => p.1.show ++ ':' :: p.2.show))) =
      byteLen (join '|' (a :: ps.map (fun p => p.1.show ++ ':' :: p.2.show))) := by
  induction ps with
  | nil => intro a; rfl
  | cons p ps ih =>
    intro a
    have e1 := ih (p.2.show ++ ':' :: p.1.show)
    have e2 : ∀ (x y : Str) (r : List Str), byteLen (join '|' ((x ++ ':' :: y) :: r)) = byteLen (join '|' ((y ++ ':' :: x) :: r)) := by
      intro x y r
      cases r with
      | nil => simp only [join, byteLen_append, byteLen_cons]; omega
      | cons z r => simp only [join, byteLen_append, byteLen_cons]; omega
    simp only [List.map_cons, join, byteLen_append, byteLen_cons] at e1 ⊢
    rw [e1, e2]

theorem flipped_byteLen (o : ObjectLine) : byteLen (join ',' o.flipped.fields) = byteLen (join ',' o.fields) := by
  cases o with
  | circle h => simp only [ObjectLine.flipped, ObjectLine.fields, Head.flipped, Head.fields, typeField, join, byteLen_append, byteLen_cons]; omega
  | spinner h e =>
    simp only [ObjectLine.flipped, ObjectLine.fields, Head.flipped, Head.fields, typeField, List.cons_append, List.nil_append, join, byteLen_append,
      byteLen_cons]
    omega
  | slider h c ps r len =>
    have := points_byteLen ps [c]
    simp only [ObjectLine.flipped, ObjectLine.fields, Head.flipped, Head.fields, typeField, List.cons_append, List.nil_append]
    generalize join '|' ([c] :: (ps.map (fun p => (p.2, p.1))).map (fun p : Dec × Dec => p.1.show ++ ':' :: p.2.show)) = u at this ⊢
    generalize join '|' ([c] :: ps.map (fun p => p.1.show ++ ':' :: p.2.show)) = w at this ⊢
    simp only [join, byteLen_append, byteLen_cons, this]
    omega

/-- The lines before those of the objects. -/
def File.opening (f : File) : List Str :=
  ("osu file format v".toList ++ showInt f.version) ::
    (f.sections.take 5).flatMap (fun s => ('[' :: s.1.toList ++ [']']) :: s.2)

theorem lines_opening (f : File) : f.lines = File.opening f ++ "[HitObjects]".toList :: f.objects.map (fun o => join ',' o.fields) := by
  have e : "[HitObjects]".toList = '[' :: "HitObjects".toList ++ [']'] := by decide
  rw [e]
  unfold File.lines File.opening File.sections
  generalize "osu file format v".toList ++ showInt f.version = v
  simp only [List.take_succ_cons, List.take_zero, List.flatMap_cons, List.flatMap_nil, List.append_nil, List.cons_append, List.append_assoc]

theorem flipped_opening (f : File) : File.opening f.flipped = File.opening f := rfl

theorem flipped_good {f : File} (hf : f.Good) : f.flipped.Good := by
  refine { hf with objects := ?_, short := ?_ }
  · intro o ho
    obtain ⟨o', ho', rfl⟩ := List.mem_map.mp ho
    have := hf.objects o' ho'
    cases o' <;> exact this
  · intro l hl
    rw [lines_opening, flipped_opening] at hl
    rcases List.mem_append.mp hl with hl | hl
    · exact hf.short l (by rw [lines_opening]; exact List.mem_append_left _ hl)
    · rcases List.mem_cons.mp hl with rfl | hl
      · exact hf.short _ (by rw [lines_opening]; exact List.mem_append_right _ (List.mem_cons_self ..))
      · obtain ⟨o, ho, rfl⟩ := List.mem_map.mp hl
        obtain ⟨o', ho', rfl⟩ := List.mem_map.mp ho
        rw [flipped_byteLen]
        exact hf.short _ (by rw [lines_opening]; exact List.mem_append_right _ (List.mem_cons_of_mem _ (List.mem_map_of_mem (f := fun o => join ',' o.fields) ho')))

section
variable {S D : Type} [GoFloat S] [GoFloat D] [GoConv S D] [GoLibm D]

theorem section_fuel {n m : ℕ} {sec line : Str} (h : sec ≠ "HitObjects".toList ∨ tokenize line = none) (st : ParseState S D) :
    parseInSection n sec line st = parseInSection m sec line st := by
  unfold parseInSection
  dsimp only
  generalize "HitObjects".toList = k at h ⊢
  generalize "General".toList = k1
  generalize "Metadata".toList = k2
  generalize "Difficulty".toList = k3
  generalize "Events".toList = k4
  generalize "TimingPoints".toList = k5
  rcases h with h | h
  · rw [if_neg h, if_neg h]
  · rw [h]

/-- Lines without objects are read with any fuel. -/
theorem lines_fuel {n m : ℕ} {lines : List Str} : ∀ {st : ParseState S D},
    (sectioned st.currentSection lines).filterMap (recordFor "HitObjects") = [] → parseLines n lines st = parseLines m lines st := by
  induction lines with
  | nil => intro st _; rfl
  | cons l ls ih =>
    intro st h
    rw [parseLines, parseLines]
    rw [sectioned] at h
    have e : parseLine n st l = parseLine m st l := by
      rw [parseLine_eq, parseLine_eq]
      cases hh : header l with
      | some s => dsimp only
      | none =>
        rw [hh] at h
        dsimp only at h ⊢
        by_cases hs : st.currentSection = "HitObjects".toList
        · have hn : fields l = none := by
            cases hc : fields l with
            | none => rfl
            | some a =>
              rw [List.filterMap_cons, show recordFor "HitObjects" (st.currentSection, l) = some a by unfold recordFor; rw [if_pos hs]; exact hc] at h
              cases h
          exact section_fuel (.inr (by rw [tokenize_eq]; exact hn)) _
        · exact section_fuel (.inl hs) _
    rw [e]
    cases hl : parseLine m st l with
    | error e =>
      exact (show (Except.error e >>= parseLines n ls : Result (ParseState S D)) = .error e from rfl).trans
        (show (Except.error e >>= parseLines m ls : Result (ParseState S D)) = .error e from rfl).symm
    | ok st' =>
      rw [ok_bind, ok_bind]
      refine ih ?_
      rw [parseLine_section hl]
      cases hh : header l with
      | some s => rw [hh] at h; exact h
      | none =>
        rw [hh] at h
        rw [List.filterMap_cons] at h
        split at h
        · exact h
        · cases h

/-- A written slider is its path, with the sounds and the times of the line. -/
theorem slider_written (fuel : ℕ) {h : Head} {c : Char} {ps : List (Dec × Dec)} {r : Int} {len : Dec} (hg : File.GoodObject (.slider h c ps r len)) :
    newSlider (S := S) (D := D) fuel (ObjectLine.slider h c ps r len).fields = (do
      let mc ← MultiCurve.newT fuel [c] (⟨h.x.value, h.y.value⟩ :: ps.map (fun p => ⟨p.1.value, p.2.value⟩)) (len.value : D)
      let ep ← mc.pointAt (lit 1)
      makeCheck 8 (addI64 r 1)
      return ⟨{ writtenBase h with endPosRaw := ep, sounds := List.replicate (addI64 r 1).toNat h.sound },
        .slider { multiCurve := mc, tPoint := zeroPoint, pixelLength := len.value, repeatCount := r, scorePoints := [], spanDuration := lit 0 }⟩) := by
  have hpath := path_written (h := h) (ps := ps) (r := r) (len := len) hg.2.2.1
  have hfs : (ObjectLine.slider h c ps r len).fields =
      h.fields 2 ++ [join '|' ([c] :: ps.map (fun p => p.1.show ++ ':' :: p.2.show)), showInt r, len.show] := rfl
  have hpath' : split '|' (join '|' ([c] :: ps.map (fun p => p.1.show ++ ':' :: p.2.show))) =
      [c] :: ps.map (fun p => p.1.show ++ ':' :: p.2.show) := hpath
  rw [hfs]
  unfold newSlider
  rw [commonParse_written (by decide) h hg.2.1, ok_bind]
  have i7 : index (h.fields 2 ++ [join '|' ([c] :: ps.map (fun p => p.1.show ++ ':' :: p.2.show)), showInt r, len.show]) 7 = .ok len.show := rfl
  have i6 : index (h.fields 2 ++ [join '|' ([c] :: ps.map (fun p => p.1.show ++ ':' :: p.2.show)), showInt r, len.show]) 6 = .ok (showInt r) := rfl
  have i5 : index (h.fields 2 ++ [join '|' ([c] :: ps.map (fun p => p.1.show ++ ':' :: p.2.show)), showInt r, len.show]) 5 =
    .ok (join '|' ([c] :: ps.map (fun p => p.1.show ++ ':' :: p.2.show))) := rfl
  have i0 : index ([c] :: ps.map (fun p => p.1.show ++ ':' :: p.2.show)) 0 = .ok [c] := rfl
  have es : ∀ l : List Int, edgeSounds (h.fields 2 ++ [join '|' ([c] :: ps.map (fun p => p.1.show ++ ':' :: p.2.show)), showInt r, len.show]) l =
      .ok l := fun l => rfl
  have hs0 : (writtenBase (S := S) (D := D) h).startPosRaw = ⟨h.x.value, h.y.value⟩ := rfl
  have hs1 : index (writtenBase (S := S) (D := D) h).sounds 0 = .ok h.sound := rfl
  dsimp only
  rw [i7, ok_bind, i6, ok_bind, i5, ok_bind, hpath', List.tail_cons, parsePoints_written, ok_bind, i0, ok_bind, parseFloat_show, hs0, hs1,
    parseInt_showInt hg.2.2.2]
  simp only [ok_bind, es]
  rfl

omit [GoFloat S] [GoFloat D] [GoConv S D] [GoLibm D] in
theorem count_kind {kind : Int} (hk : kind ∈ [(1 : Int), 2, 8]) (h : Head) (r : List Str) (b : BeatMap S D) :
    countObject (h.fields kind ++ r) b =
      if kind = 1 then .ok ({ b with circles := b.circles + 1 }, showInt h.time)
      else if kind = 8 then (do return ({ b with spinners := b.spinners + 1 }, ← index (h.fields kind ++ r) 5))
      else .ok ({ b with sliders := b.sliders + 1 }, showInt h.time) := by
  obtain ⟨h1, h2, h3, -⟩ := type_bits h.newCombo h.skip kind hk
  have i3 : index (h.fields kind ++ r) 3 = .ok (showInt (typeField kind h)) := rfl
  have i2 : index (h.fields kind ++ r) 2 = .ok (showInt h.time) := rfl
  unfold countObject
  rw [i3, ok_bind, i2]
  dsimp only
  rw [parseInt_showInt (type_int64 hk h), show typeCircle (typeField kind h) = _ from h1,
    show typeSpinner (typeField kind h) = _ from h2, show typeSlider (typeField kind h) = _ from h3]
  simp only [decide_eq_true_eq]
  simp only [List.mem_cons, List.not_mem_nil, or_false] at hk
  rcases hk with rfl | rfl | rfl
  · rfl
  · rfl
  · rfl

omit [GoFloat S] [GoFloat D] [GoConv S D] [GoLibm D] in
/-- The counters do not look at the coordinates. -/
theorem count_flipped (o : ObjectLine) : ∃ (g : BeatMap S D → BeatMap S D) (t : Str), ∀ b, countObject o.fields b = .ok (g b, t) ∧
    countObject o.flipped.fields b = .ok (g b, t) ∧ (g b).hitObjects = b.hitObjects ∧ g b.flip = (g b).flip := by
  cases o with
  | circle h =>
    refine ⟨fun b => { b with circles := b.circles + 1 }, showInt h.time, fun b => ⟨?_, ?_, rfl, rfl⟩⟩
    · have := count_kind (kind := 1) (by decide) h [] b
      rwa [List.append_nil, if_pos rfl] at this
    · have := count_kind (kind := 1) (by decide) h.flipped [] b
      rwa [List.append_nil, if_pos rfl] at this
  | spinner h e =>
    refine ⟨fun b => { b with spinners := b.spinners + 1 }, showInt e, fun b => ⟨?_, ?_, rfl, rfl⟩⟩
    · have := count_kind (kind := 8) (by decide) h [showInt e] b
      rw [if_neg (by decide), if_pos rfl] at this
      exact this
    · have := count_kind (kind := 8) (by decide) h.flipped [showInt e] b
      rw [if_neg (by decide), if_pos rfl] at this
      exact this
  | slider h c ps r len =>
    refine ⟨fun b => { b with sliders := b.sliders + 1 }, showInt h.time, fun b => ⟨?_, ?_, rfl, rfl⟩⟩
    · have := count_kind (kind := 2) (by decide) h [join '|' ([c] :: ps.map (fun p => p.1.show ++ ':' :: p.2.show)), showInt r, len.show] b
      rw [if_neg (by decide), if_neg (by decide)] at this
      exact this
    · have := count_kind (kind := 2) (by decide) h.flipped
        [join '|' ([c] :: (ps.map (fun p => (p.2, p.1))).map (fun p : Dec × Dec => p.1.show ++ ':' :: p.2.show)), showInt r, len.show] b
      rw [if_neg (by decide), if_neg (by decide)] at this
      exact this

end

section
variable [GoLibm F64]

/-- The object of a line with exchanged coordinates has exchanged coordinates. -/
theorem create_flipped {o : ObjectLine} (hg : File.GoodObject o) (ha : o.NoArc) {fuel : ℕ} {r : Option (Obj F32 F64)}
    (h : createObject (S := F32) (D := F64) fuel o.fields = .ok r) :
    ∃ x, r = some x ∧ x.base.startTime ≠ .nan ∧ ∃ n, ∀ m, n ≤ m → createObject (S := F32) (D := F64) m o.flipped.fields = .ok (some (flip x)) := by
  cases o with
  | circle hd =>
    rw [create_circle fuel hg] at h
    cases h
    exact ⟨_, rfl, Props.int_value_nn _, 0, fun m _ => create_circle m (h := hd.flipped) hg⟩
  | spinner hd e =>
    rw [create_spinner fuel hg] at h
    cases h
    exact ⟨_, rfl, Props.int_value_nn _, 0, fun m _ => create_spinner m (h := hd.flipped) hg⟩
  | slider hd c ps rp len =>
    have key : ∀ k (hd : Head) (ps : List (Dec × Dec)), createObject (S := F32) (D := F64) k (ObjectLine.slider hd c ps rp len).fields =
        (do return some (← newSlider k (ObjectLine.slider hd c ps rp len).fields)) := by
      intro k hd ps
      have hfs : (ObjectLine.slider hd c ps rp len).fields =
        hd.fields 2 ++ [join '|' ([c] :: ps.map (fun p => p.1.show ++ ':' :: p.2.show)), showInt rp, len.show] := rfl
      rw [hfs, create_written (kind := 2) (by decide), if_neg (by decide), if_neg (by decide)]
    rw [key, slider_written fuel hg] at h
    obtain ⟨x, h1, h⟩ := bind_ok h
    cases h
    obtain ⟨mc, h2, h1⟩ := bind_ok h1
    obtain ⟨ep, h3, h1⟩ := bind_ok h1
    obtain ⟨u, h4, h1⟩ := bind_ok h1
    cases h1
    have hP : ∀ p q r, [c] = ['P'] → ((⟨hd.x.value, hd.y.value⟩ : Vec F32) :: ps.map (fun p => ⟨p.1.value, p.2.value⟩)) = [p, q, r] → False := by
      intro p q r e1 e2
      refine ha (by simpa using e1) ?_
      have := congrArg List.length e2
      simpa using this
    have hn := h2
    unfold MultiCurve.newT at hn
    obtain ⟨ls, e1, -⟩ := bind_ok hn
    obtain ⟨n, hn⟩ := processType_fits fits_swap (fun p q r c1 c2 => (hP p q r c1 c2).elim) e1
    refine ⟨_, rfl, Props.int_value_nn _, n, fun m hm => ?_⟩
    have hmc := newT_fits fits_swap (m := m) h2 (fun ls' e2 => by
      rw [e1] at e2
      cases e2
      exact hn m hm)
    have hg' : File.GoodObject (.slider hd.flipped c (ps.map (fun p => (p.2, p.1))) rp len) := hg
    show createObject m (ObjectLine.slider hd.flipped c (ps.map (fun p => (p.2, p.1))) rp len).fields = _
    rw [key, slider_written m hg']
    have hpts : ((⟨hd.flipped.x.value, hd.flipped.y.value⟩ : Vec F32) :: (ps.map (fun p => (p.2, p.1))).map (fun p : Dec × Dec => ⟨p.1.value, p.2.value⟩)) =
        ((⟨hd.x.value, hd.y.value⟩ : Vec F32) :: ps.map (fun p => ⟨p.1.value, p.2.value⟩)).map swap := by
      rw [List.map_cons, List.map_map, List.map_map]
      rfl
    rw [hpts, hmc, ok_bind, pointAt_fits fits_swap mc _ h3, ok_bind, h4, ok_bind]
    rfl

theorem record_flipped {o : ObjectLine} (hg : File.GoodObject o) (ha : o.NoArc) {fuel : ℕ} {b b' : BeatMap F32 F64}
    (h : parseHitObjectLine fuel o.fields b = .ok b') :
    (∀ x ∈ b'.hitObjects, x ∈ b.hitObjects ∨ x.base.startTime ≠ .nan) ∧
    ∃ n, ∀ m, n ≤ m → parseHitObjectLine m o.flipped.fields b.flip = .ok b'.flip := by
  obtain ⟨g, t, hc⟩ := count_flipped (S := F32) (D := F64) o
  unfold parseHitObjectLine parseHitObjects at h ⊢
  rw [(hc b).1, ok_bind] at h
  dsimp only at h
  obtain ⟨r, h1, h⟩ := bind_ok h
  obtain ⟨x, rfl, hx, n, hn⟩ := create_flipped hg ha h1
  cases h
  refine ⟨?_, n, fun m hm => ?_⟩
  · intro y hy
    dsimp only at hy
    rw [(hc b).2.2.1] at hy
    rcases List.mem_append.mp hy with hy | hy
    · exact .inl hy
    · rw [List.mem_singleton.mp hy]
      exact .inr hx
  · rw [(hc b.flip).2.1, ok_bind]
    dsimp only
    rw [hn m hm, ok_bind, (hc b).2.2.2]
    unfold BeatMap.flip
    dsimp only [pure, Except.pure]
    rw [List.map_append]
    rfl

theorem objectLine_read {o : ObjectLine} (hg : File.GoodObject o) (fuel : ℕ) {st : ParseState F32 F64} (hs : st.currentSection = "HitObjects".toList) :
    parseLine fuel st (join ',' o.fields) = (do return { st with beatMap := ← parseHitObjectLine fuel o.fields st.beatMap }) := by
  obtain ⟨r, hr⟩ := object_record o
  have hsm := object_simple hg
  rw [hr] at hsm
  obtain ⟨h1, h2, -, -, -, h6⟩ := record_simple (show_cons _) hsm
  rw [← hr] at h1 h2 h6
  rw [parseLine_eq, h2]
  have e : parseFormat (join ',' o.fields) st.beatMap = st.beatMap := by
    unfold parseFormat
    rw [if_neg (by rw [show hasPrefix (join ',' o.fields) formatPrefix = false from h6]; simp)]
  have ht : tokenize (join ',' o.fields) = some o.fields := by rw [tokenize_eq]; exact h1
  dsimp only
  rw [e]
  unfold parseInSection
  rw [hs, if_neg (by decide), if_neg (by decide), if_neg (by decide), if_neg (by decide), if_neg (by decide), if_pos rfl, ht]

theorem objects_flipped {fuel : ℕ} : ∀ {os : List ObjectLine}, (∀ o ∈ os, File.GoodObject o) → (∀ o ∈ os, o.NoArc) → ∀ {st st' : ParseState F32 F64},
    st.currentSection = "HitObjects".toList → parseLines fuel (os.map (fun o => join ',' o.fields)) st = .ok st' →
    (∀ x ∈ st'.beatMap.hitObjects, x ∈ st.beatMap.hitObjects ∨ x.base.startTime ≠ .nan) ∧
    ∃ n, ∀ m, n ≤ m → parseLines m ((os.map ObjectLine.flipped).map (fun o => join ',' o.fields)) st.flip = .ok st'.flip
  | [], _, _, st, st', _, h => by
    cases h
    exact ⟨fun x hx => .inl hx, 0, fun m _ => rfl⟩
  | o :: os, hg, ha, st, st', hs, h => by
    have hgo := hg o (List.mem_cons_self ..)
    have hao := ha o (List.mem_cons_self ..)
    have hgf : File.GoodObject o.flipped := by cases o <;> exact hgo
    rw [List.map_cons, parseLines, objectLine_read hgo fuel hs] at h
    obtain ⟨st1, h1, h⟩ := bind_ok h
    obtain ⟨b', h2, h1⟩ := bind_ok h1
    cases h1
    obtain ⟨k1, n1, hn1⟩ := record_flipped hgo hao h2
    obtain ⟨k2, n2, hn2⟩ := objects_flipped (fun o ho => hg o (List.mem_cons_of_mem _ ho)) (fun o ho => ha o (List.mem_cons_of_mem _ ho)) (by exact hs) h
    refine ⟨?_, max n1 n2, fun m hm => ?_⟩
    · intro x hx
      rcases k2 x hx with hx | hx
      · exact k1 x hx
      · exact .inr hx
    · rw [List.map_cons, List.map_cons, parseLines, objectLine_read hgf m (st := st.flip) hs]
      have e := hn1 m (by omega)
      show (do let st1 ← (do return { st.flip with beatMap := ← parseHitObjectLine m o.flipped.fields st.beatMap.flip }); _) = _
      rw [e]
      exact hn2 m (by omega)

/-- The map with exchanged coordinates is read as the map with exchanged coordinates. -/
theorem parse_flipped [GoSort] {f : File} (hf : f.Good) (ha : ∀ o ∈ f.objects, o.NoArc) {fuel : ℕ} {r : Option (BeatMap F32 F64)}
    (h : parseText fuel f.text = .ok r) : ∃ n, ∀ m, n ≤ m → parseText m f.flipped.text = .ok (r.map BeatMap.flip) := by
  unfold parseText parseFromLines at h ⊢
  rw [lines_text hf, lines_opening, parseLines_append] at h
  rw [lines_text (flipped_good hf), lines_opening, flipped_opening]
  obtain ⟨st, h1, h⟩ := bind_ok h
  obtain ⟨st0, h0, h1⟩ := bind_ok h1
  have hh : header "[HitObjects]".toList = some "HitObjects".toList := by decide
  have hr : records "HitObjects" (File.opening f) = [] := by
    have hg0 : ({ f with objects := [] } : File).Good := { hf with
      objects := fun o ho => absurd ho (List.not_mem_nil)
      short := fun l hl => hf.short l (by
        rw [lines_opening] at hl ⊢
        rcases List.mem_append.mp hl with hl | hl
        · exact List.mem_append_left _ hl
        · refine List.mem_append_right _ ?_
          rw [List.mem_singleton.mp hl]
          exact List.mem_cons_self ..) }
    have := records_objects hg0
    rw [lines_opening, List.map_nil, List.map_nil] at this
    unfold records at this ⊢
    have e : ∀ (ls : List Str) (c : Str), sectioned c (ls ++ ["[HitObjects]".toList]) = sectioned c ls := by
      intro ls
      induction ls with
      | nil => intro c; rw [List.nil_append]; unfold sectioned; rw [hh]; rfl
      | cons l ls ih =>
        intro c
        rw [List.cons_append, sectioned, sectioned]
        cases header l with
        | some s => exact ih s
        | none => exact congrArg _ (ih c)
    rw [e] at this
    exact this
  obtain ⟨os, e1, e2, -⟩ := parseLines_objects h0
  rw [hr] at e1
  cases e1
  have hf0 : st0.flip = st0 := by
    obtain ⟨b, c, k⟩ := st0
    have e3 : b.hitObjects = [] := e2
    unfold ParseState.flip BeatMap.flip
    dsimp only
    rw [e3]
    conv_rhs => rw [show b = { b with hitObjects := [] } by rw [← e3]]
    rfl
  have hp : ∀ m, parseLine m st0 "[HitObjects]".toList = .ok { st0 with currentSection := "HitObjects".toList } := by
    intro m
    rw [parseLine_eq, hh]
    have e : parseFormat "[HitObjects]".toList st0.beatMap = st0.beatMap := by
      unfold parseFormat
      rw [if_neg (by decide)]
    dsimp only
    rw [e]
  rw [parseLines, hp, ok_bind] at h1
  obtain ⟨k, n, hn⟩ := objects_flipped hf.objects ha rfl h1
  refine ⟨max n fuel, fun m hm => ?_⟩
  rw [parseLines_append, lines_fuel (n := m) (m := fuel) (st := ParseState.init) hr, h0, ok_bind, parseLines, hp, ok_bind]
  have e3 := hn m (by omega)
  have e4 : ({ st0 with currentSection := "HitObjects".toList } : ParseState F32 F64).flip = { st0 with currentSection := "HitObjects".toList } := by
    rw [show ({ st0 with currentSection := "HitObjects".toList } : ParseState F32 F64).flip =
      { st0.flip with currentSection := "HitObjects".toList } from rfl, hf0]
  rw [e4] at e3
  show (parseLines m ((f.objects.map ObjectLine.flipped).map (fun o => join ',' o.fields)) _ >>= _) = _
  rw [e3, ok_bind]
  refine finishParse_flip (by omega) (fun x hx => ?_) h
  rcases k x hx with hx | hx
  · rw [show ({ st0 with currentSection := "HitObjects".toList } : ParseState F32 F64).beatMap.hitObjects = [] from e2] at hx
    exact absurd hx List.not_mem_nil
  · exact hx

end

end GosuPP
