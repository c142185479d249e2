import Verif.Spec.RatingInputs
import Verif.Lemmas.ParserSections
import Verif.Lemmas.ParserFinish
import Verif.Lemmas.Calc
import Verif.Props.FileValues

/-!
# Lemmas for C121: what the parts of a file give
-/

namespace GosuPP
open Go

section
variable {S D : Type} [GoFloat S] [GoFloat D] [GoConv S D] [GoLibm D]

/-- What a part of the file gives depends on the lines of that part only. -/
theorem part_eq {fuel : ℕ} {a b : List Str} {st st' : ParseState S D} (ha : parseLines fuel a ParseState.init = .ok st)
    (hb : parseLines fuel b ParseState.init = .ok st') (i : Sec) (h : Spec.sectionLines i.name a = Spec.sectionLines i.name b) :
    Sec.only i st = Sec.only i st' := by
  have ra := (Sec.parts fuel a (ParseState.init : ParseState S D)).1 st ha i
  have rb := (Sec.parts fuel b (ParseState.init : ParseState S D)).1 st' hb i
  have e : i.lines (ParseState.init : ParseState S D).currentSection a = i.lines (ParseState.init : ParseState S D).currentSection b := h
  rw [e, rb] at ra
  exact (Except.ok.inj ra).symm

theorem run_texts {fuel : ℕ} {i : Sec} (hi : i = .general ∨ i = .metadata ∨ i = .difficulty) : ∀ (ls : List Str) (st : ParseState S D),
    ∃ r, Sec.run fuel i ls st = .ok r
  | [], st => ⟨st, rfl⟩
  | l :: ls, st => by
    have h : ∃ r, parseInSection fuel i.name l st = .ok r := by
      rcases hi with rfl | rfl | rfl
      · show ∃ r, parseInSection fuel "General".toList l st = .ok r
        unfold parseInSection
        rw [if_pos rfl]
        split <;> exact ⟨_, rfl⟩
      · show ∃ r, parseInSection fuel "Metadata".toList l st = .ok r
        unfold parseInSection
        rw [if_neg (by decide), if_pos rfl]
        split <;> exact ⟨_, rfl⟩
      · show ∃ r, parseInSection fuel "Difficulty".toList l st = .ok r
        unfold parseInSection
        rw [if_neg (by decide), if_neg (by decide), if_pos rfl]
        split <;> exact ⟨_, rfl⟩
    obtain ⟨r, hr⟩ := h
    rw [Sec.run, hr]
    exact run_texts hi ls r

/-- The parts of the state that matter for the objects. -/
theorem same_play {fuel : ℕ} {a b : List Str} (h : Spec.SamePlay a b) {st st' : ParseState S D} (ha : parseLines fuel a ParseState.init = .ok st)
    (hb : parseLines fuel b ParseState.init = .ok st') :
    st.beatMap.difficulty = st'.beatMap.difficulty ∧ st.beatMap.sliderMultiplier = st'.beatMap.sliderMultiplier ∧
    st.beatMap.timings = st'.beatMap.timings ∧ st.beatMap.minBPM = st'.beatMap.minBPM ∧ st.beatMap.maxBPM = st'.beatMap.maxBPM ∧
    st.beatMap.hitObjects = st'.beatMap.hitObjects ∧ st.beatMap.circles = st'.beatMap.circles ∧ st.beatMap.sliders = st'.beatMap.sliders ∧
    st.beatMap.spinners = st'.beatMap.spinners ∧ st.beatMap.length = st'.beatMap.length ∧ st.beatMap.stackLeniency = st'.beatMap.stackLeniency ∧
    st.beatMap.fileVersion = st'.beatMap.fileVersion ∧ st.counter = st'.counter := by
  have h1 := part_eq ha hb .difficulty h.difficulty
  have h2 := part_eq ha hb .timing h.timing
  have h3 := part_eq ha hb .hit h.objects
  have e1 : ∀ {β : Type} (f : BeatMap S D → β), f (Sec.only .difficulty st).beatMap = f (Sec.only .difficulty st').beatMap := fun f => by rw [h1]
  have e2 : ∀ {β : Type} (f : BeatMap S D → β), f (Sec.only .timing st).beatMap = f (Sec.only .timing st').beatMap := fun f => by rw [h2]
  have e3 : ∀ {β : Type} (f : BeatMap S D → β), f (Sec.only .hit st).beatMap = f (Sec.only .hit st').beatMap := fun f => by rw [h3]
  have t1 : st.beatMap.timings.sliderMult = st'.beatMap.timings.sliderMult := e1 (fun b => b.timings.sliderMult)
  have t2 : st.beatMap.timings.tickRate = st'.beatMap.timings.tickRate := e1 (fun b => b.timings.tickRate)
  have t3 : st.beatMap.timings.points = st'.beatMap.timings.points := e2 (fun b => b.timings.points)
  have t4 : st.beatMap.timings.originalPoints = st'.beatMap.timings.originalPoints := e2 (fun b => b.timings.originalPoints)
  refine ⟨e1 (fun b => b.difficulty), e1 (fun b => b.sliderMultiplier), ?_, e2 (fun b => b.minBPM), e2 (fun b => b.maxBPM),
    e3 (fun b => b.hitObjects), e3 (fun b => b.circles), e3 (fun b => b.sliders), e3 (fun b => b.spinners), e3 (fun b => b.length), ?_, ?_, ?_⟩
  · generalize st.beatMap.timings = t at t1 t2 t3 t4
    generalize st'.beatMap.timings = u at t1 t2 t3 t4
    obtain ⟨_, _, _, _⟩ := t
    obtain ⟨_, _, _, _⟩ := u
    simp only at t1 t2 t3 t4
    rw [t1, t2, t3, t4]
  · rw [general_value (fun b => b.stackLeniency) (fun _ => rfl) "StackLeniency" _ (fun k v b => (general_fields k v b).2.1) ha,
      general_value (fun b => b.stackLeniency) (fun _ => rfl) "StackLeniency" _ (fun k v b => (general_fields k v b).2.1) hb]
    unfold Spec.lastOr
    rw [h.leniency]
  · rw [Sec.version ha, Sec.version hb, h.format]
  · have := congrArg ParseState.counter h2
    exact this

end

end GosuPP
