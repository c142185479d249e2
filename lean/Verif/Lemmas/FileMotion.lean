import Verif.Lemmas.StackMotion
import Verif.Lemmas.ParserFinish
import Verif.Lemmas.ParserLines
import Verif.Lemmas.Sorting
import Verif.Props.Written

/-! Exchanging the coordinates in a written map exchanges the coordinates of the parsed objects. -/

namespace GosuPP
open Go Spec

section
variable {S D : Type} [GoFloat S] [GoFloat D] [GoConv S D]

open Slider in
theorem tickLoop_mono {td c md sst sd : D} {rev nan : Bool} {n : ℕ} : ∀ {d : D} {l : List (TickPoint D)} {m : ℕ},
    tickLoop td c md sst sd rev nan n d = .ok l → n ≤ m → tickLoop td c md sst sd rev nan m d = .ok l := by
  induction n with
  | zero => intro d l m h; cases h
  | succ n ih =>
    intro d l m h hm
    obtain ⟨m, rfl⟩ : ∃ k, m = k + 1 := ⟨m - 1, by omega⟩
    rw [tickLoop] at h ⊢
    dsimp only at h ⊢
    split_ifs at h ⊢
    all_goals first
      | exact h
      | (obtain ⟨r, h1, h⟩ := bind_ok h
         rw [ih h1 (by omega)]
         exact h)

open Slider in
theorem spanLoop_mono {a : SpanArgs D} {n m : ℕ} (hm : n ≤ m) {k : ℕ} : ∀ {i : ℤ} {l : List (TickPoint D)},
    spanLoop a n k i = .ok l → spanLoop a m k i = .ok l := by
  induction k with
  | zero => intro i l h; exact h
  | succ k ih =>
    intro i l h
    rw [spanLoop] at h ⊢
    obtain ⟨t, h1, h⟩ := bind_ok h
    obtain ⟨r, h2, h⟩ := bind_ok h
    have h3 : spanTicks a m i = .ok t := by
      unfold spanTicks at h1 ⊢
      obtain ⟨u, h4, h1⟩ := bind_ok h1
      dsimp only
      rw [tickLoop_mono h4 hm]
      exact h1
    rw [h3, ok_bind, ih h2, ok_bind]
    exact h

variable (hg : Fits D (swap : Vec S → Vec S))
include hg

theorem sliderPosition_flip {h : HitObject S D} {s : SliderData S D} {t : D} {p : Vec S} {h' : HitObject S D}
    (e1 : h'.startTime = h.startTime) (e2 : h'.endTime = h.endTime) (e3 : h'.startPosRaw = swap h.startPosRaw)
    (e : sliderPositionAt h s t = .ok p) :
    sliderPositionAt h' { s with multiCurve := s.multiCurve.moved swap } t = .ok (swap p) := by
  unfold sliderPositionAt isRetarded at e ⊢
  rw [e1, e2, e3]
  split_ifs at e ⊢
  · cases e; rfl
  · exact pointAt_fits hg s.multiCurve _ e

theorem setTiming_flip [GoSort] {n m : ℕ} (hm : n ≤ m) {ts : Timings D} {o o' : Obj S D} (h : o.setTiming n ts = .ok o') :
    (flip o).setTiming m ts = .ok (flip o') := by
  obtain ⟨b, _ | _ | s⟩ := o
  · cases h; rfl
  · cases h; rfl
  · have h : Slider.setTiming n ts b s = .ok o' := h
    show Slider.setTiming m ts (flip ⟨b, .slider s⟩).base { s with multiCurve := s.multiCurve.moved swap } = _
    unfold Slider.setTiming at h ⊢
    obtain ⟨tp, h1, h⟩ := bind_ok h
    obtain ⟨pts, h2, h⟩ := bind_ok h
    obtain ⟨ep, h3, h⟩ := bind_ok h
    cases h
    rw [show (flip (⟨b, .slider s⟩ : Obj S D)).base.startTime = b.startTime from rfl, h1, ok_bind]
    dsimp only
    have h2' := spanLoop_mono hm h2
    rw [show (s.multiCurve.moved swap).length = s.multiCurve.length from rfl]
    rw [h2', ok_bind]
    have h4 := fun h' e1 e2 e3 => sliderPosition_flip hg (h' := h') e1 e2 e3 h3
    have h5 := h4 { (flip (⟨b, .slider s⟩ : Obj S D)).base with
      startTime := b.startTime
      endTime := b.startTime +. up s.multiCurve.length *. lit 1000 *. ofInt s.repeatCount /. ts.getVelocity S tp } rfl rfl rfl
    dsimp only at h5
    rw [h5, ok_bind]
    rfl

theorem setTimings_flip [GoSort] {n m : ℕ} (hm : n ≤ m) {ts : Timings D} : ∀ {l l' : List (Obj S D)}, setTimings n ts l = .ok l' →
    setTimings m ts (l.map flip) = .ok (l'.map flip)
  | [], _, h => by cases h; rfl
  | o :: rest, l', h => by
    rw [setTimings] at h
    obtain ⟨o', h1, h⟩ := bind_ok h
    obtain ⟨r, h2, h⟩ := bind_ok h
    cases h
    rw [List.map_cons, setTimings, setTiming_flip hg hm h1, ok_bind, setTimings_flip hm h2, ok_bind]
    rfl

omit [GoFloat S] [GoFloat D] [GoConv S D] hg in
theorem comboLoop_flip : ∀ (l : List (Obj S D)) (c : ComboState), comboLoop c (l.map flip) = (comboLoop c l).map flip
  | [], _ => rfl
  | o :: rest, c => by
    rw [List.map_cons, comboLoop, comboLoop, flip_spinner, show (flip o).base.newCombo = o.base.newCombo from rfl]
    split_ifs
    all_goals
      dsimp only
      rw [List.map_cons, comboLoop_flip rest]
      rfl

end

theorem insertBy_map {α β : Type} {f : α → β} {lt : α → α → Bool} {lt' : β → β → Bool} (h : ∀ a b, lt' (f a) (f b) = lt a b) (x : α) :
    ∀ l : List α, insertBy lt' (f x) (l.map f) = (insertBy lt x l).map f
  | [] => rfl
  | y :: ys => by
    rw [List.map_cons, insertBy, insertBy, h, insertBy_map h x ys]
    split_ifs <;> rfl

theorem insertionSort_map {α β : Type} {f : α → β} {lt : α → α → Bool} {lt' : β → β → Bool} (h : ∀ a b, lt' (f a) (f b) = lt a b) :
    ∀ l : List α, insertionSort lt' (l.map f) = (insertionSort lt l).map f
  | [] => rfl
  | x :: xs => by
    rw [List.map_cons, insertionSort, insertionSort, insertionSort_map h xs, insertBy_map h]

/-- Objects whose times are numbers are sorted in the same way with exchanged coordinates. -/
theorem stable_flip [GoSort] {l : List (Obj F32 F64)} (hn : ∀ o ∈ l, o.base.startTime ≠ .nan) :
    GoSort.stable (fun x y : Obj F32 F64 => x.base.startTime <. y.base.startTime) (l.map flip) =
      (GoSort.stable (fun x y : Obj F32 F64 => x.base.startTime <. y.base.startTime) l).map flip := by
  have key : ∀ l : List (Obj F32 F64), (∀ o ∈ l, o.base.startTime ≠ .nan) →
      StrictWeak (fun x y : Obj F32 F64 => x.base.startTime <. y.base.startTime) l := fun l hn =>
    ⟨fun a _ => Fl.lt_irrefl _, fun a _ b _ c _ h1 h2 => Fl.lt_trans h1 h2,
      fun a ha b hb c hc h1 h2 => by
        have g1 := Fl.le_of_not_lt (hn b hb) (hn a ha) h1
        have g2 := Fl.le_of_not_lt (hn c hc) (hn b hb) h2
        exact Fl.not_lt_of_le (Fl.le_trans g2 g1)⟩
  rw [stable_eq_insertionSort (key _ hn), stable_eq_insertionSort (key _ ?_)]
  · exact insertionSort_map (fun a b => rfl) l
  · intro o ho
    obtain ⟨o', ho', rfl⟩ := List.mem_map.mp ho
    exact hn o' ho'

section
variable {S D : Type}

/-- The map with the coordinates of its objects exchanged. -/
def BeatMap.flip (b : BeatMap S D) : BeatMap S D := { b with hitObjects := b.hitObjects.map GosuPP.flip }

/-- The state of the parser with the coordinates of the objects exchanged. -/
def ParseState.flip (st : ParseState S D) : ParseState S D := { st with beatMap := st.beatMap.flip }

end

theorem finishParse_flip [GoSort] {n m : ℕ} (hm : n ≤ m) {st : ParseState F32 F64} {r : Option (BeatMap F32 F64)}
    (hn : ∀ o ∈ st.beatMap.hitObjects, o.base.startTime ≠ .nan) (h : finishParse n st = .ok r) :
    finishParse m st.flip = .ok (r.map BeatMap.flip) := by
  unfold finishParse at h ⊢
  dsimp only at h ⊢
  show (if st.beatMap.title ++ st.beatMap.artist ++ st.beatMap.creator = [] ∨ st.counter = 0 then _ else _) = _
  split_ifs at h ⊢
  · cases h; rfl
  · obtain ⟨objs, h1, h⟩ := bind_ok h
    cases h
    show (setTimings m st.beatMap.timings.finalizePoints (comboLoop {} (GoSort.stable _ (st.beatMap.hitObjects.map flip))) >>= _) = _
    rw [stable_flip hn, comboLoop_flip, setTimings_flip fits_swap hm h1, ok_bind, Stacking.calculate_flip fits_swap]
    rfl

end GosuPP
