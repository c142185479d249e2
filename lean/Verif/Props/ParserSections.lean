import Verif.Lemmas.ParserSections
import Verif.Props.Sample

/-!
# C60: the order of the sections of a file does not matter
-/

namespace GosuPP
open Go
variable {S D : Type} [GoFloat S] [GoFloat D] [GoConv S D] [GoSort] [GoLibm D]

omit [GoSort] in
private theorem same_lines (fuel : Nat) {a b : List Str} (h : Spec.SameSections a b) {st : ParseState S D}
    (ha : parseLines fuel a ParseState.init = .ok st) :
    ∃ st', parseLines fuel b ParseState.init = .ok st' ∧ st'.beatMap = st.beatMap ∧ st'.counter = st.counter := by
  have e : ∀ i : Sec, i.lines (ParseState.init : ParseState S D).currentSection a = i.lines (ParseState.init : ParseState S D).currentSection b :=
    fun i => h.1 i.name i.name_known
  have ra := (Sec.parts fuel a (ParseState.init : ParseState S D)).1 st ha
  obtain ⟨st', hb⟩ := (Sec.parts fuel b (ParseState.init : ParseState S D)).2 fun i => ⟨_, by rw [← e]; exact ra i⟩
  have rb := (Sec.parts fuel b (ParseState.init : ParseState S D)).1 st' hb
  refine ⟨st', hb, Sec.joined (fun i => ?_) ?_⟩
  · have := rb i
    rw [← e, ra i] at this
    exact (Except.ok.inj this).symm
  · rw [Sec.version ha, Sec.version hb, h.2]

omit [GoSort] in
private theorem finish_congr [GoSort] (fuel : Nat) {a b : ParseState S D} (h1 : a.beatMap = b.beatMap) (h2 : a.counter = b.counter) :
    finishParse fuel a = finishParse fuel b := by
  unfold finishParse
  rw [h1, h2]

/-- C60. Two files with the same lines in each section and the same format line give the same result: a map, or the
error `corrupted file`. If one of them makes the parser panic or hang so does the other. -/
theorem C60_lines (fuel : Nat) {a b : List Str} (h : Spec.SameSections a b) (r : Option (BeatMap S D)) :
    parseFromLines fuel a = .ok r ↔ parseFromLines fuel b = .ok r := by
  have key : ∀ {a b : List Str}, Spec.SameSections a b → parseFromLines fuel a = .ok r → parseFromLines fuel b = .ok r := by
    intro a b h ha
    unfold parseFromLines at ha ⊢
    obtain ⟨st, h1, ha⟩ := bind_ok ha
    obtain ⟨st', h2, e1, e2⟩ := same_lines fuel h h1
    rw [h2]
    show finishParse fuel st' = _
    rw [finish_congr fuel e1 e2]
    exact ha
  exact ⟨key h, key ⟨fun s hs => (h.1 s hs).symm, h.2.symm⟩⟩

/-- C60. The same for the texts of files. -/
theorem C60_text (fuel : Nat) {a b : Str} (h : Spec.SameSections (scanLines bufferSize a) (scanLines bufferSize b))
    (r : Option (BeatMap S D)) : parseText fuel a = .ok r ↔ parseText fuel b = .ok r :=
  C60_lines fuel h r

/-- The lines from one header to the next. -/
structure Spec.Block where
  header : Str
  body : List Str

/-- The header line names a section and no other line does. -/
def Spec.Block.Valid (b : Spec.Block) : Prop := (∃ s, Spec.header b.header = some s) ∧ ∀ l ∈ b.body, Spec.header l = none

def Spec.Block.lines (b : Spec.Block) : List Str := b.header :: b.body

/-- The section of a block. -/
def Spec.Block.name (b : Spec.Block) : Str := (Spec.header b.header).getD []

private theorem sectioned_body (cur : Str) (body rest : List Str) (h : ∀ l ∈ body, Spec.header l = none) :
    Spec.sectioned cur (body ++ rest) = body.map (cur, ·) ++ Spec.sectioned cur rest := by
  induction body with
  | nil => rfl
  | cons l ls ih =>
    rw [List.cons_append, Spec.sectioned, h l (by simp)]
    simp only [List.map_cons, List.cons_append]
    rw [ih fun x hx => h x (by simp [hx])]

private theorem sectioned_blocks (cur : Str) (bs : List Spec.Block) (h : ∀ b ∈ bs, b.Valid) :
    Spec.sectioned cur (bs.flatMap Spec.Block.lines) = bs.flatMap fun b => b.body.map (b.name, ·) := by
  induction bs generalizing cur with
  | nil => rfl
  | cons b bs ih =>
    obtain ⟨⟨s, hs⟩, hb⟩ := h b (by simp)
    rw [List.flatMap_cons, Spec.Block.lines, List.cons_append, Spec.sectioned, hs]
    simp only
    rw [sectioned_body _ _ _ hb, ih _ fun x hx => h x (by simp [hx]), List.flatMap_cons]
    have : b.name = s := by rw [Spec.Block.name, hs]; rfl
    rw [this]

/-- C60. Exchanging two neighbouring sections of different names, when no line in them is a format line. -/
theorem C60_exchange (fuel : Nat) (pre : List Str) (x y : Spec.Block) (post : List Spec.Block) (hx : x.Valid) (hy : y.Valid)
    (hp : ∀ b ∈ post, b.Valid) (hne : x.name ≠ y.name) (hfx : ∀ l ∈ x.lines, Spec.isFormatLine l = false)
    (r : Option (BeatMap S D)) :
    parseFromLines fuel (pre ++ x.lines ++ y.lines ++ post.flatMap Spec.Block.lines) = .ok r ↔
      parseFromLines fuel (pre ++ y.lines ++ x.lines ++ post.flatMap Spec.Block.lines) = .ok r := by
  refine C60_lines fuel ⟨?_, ?_⟩ r
  · intro sec _
    have hpre : ∀ (cur : Str) (bs : List Spec.Block), (∀ b ∈ bs, b.Valid) → bs ≠ [] →
        Spec.sectioned cur (pre ++ bs.flatMap Spec.Block.lines) = Spec.sectioned cur pre ++ bs.flatMap fun b => b.body.map (b.name, ·) := by
      intro cur bs hbs hb0
      induction pre generalizing cur with
      | nil => exact sectioned_blocks cur bs hbs
      | cons l ls ih =>
        rw [List.cons_append, Spec.sectioned, Spec.sectioned]
        cases Spec.header l with
        | some s => exact ih s
        | none => simp only [List.cons_append, ih cur]
    have e1 := hpre [] (x :: y :: post) (by simp [hx, hy]; exact hp) (by simp)
    have e2 := hpre [] (y :: x :: post) (by simp [hx, hy]; exact hp) (by simp)
    simp only [List.flatMap_cons] at e1 e2
    unfold Spec.sectionLines
    simp only [List.append_assoc]
    rw [e1, e2]
    simp only [List.filter_append]
    have hf : ∀ b : Spec.Block, b.name ≠ sec → (b.body.map (b.name, ·)).filter (·.1 == sec) = [] := by
      intro b hb
      rw [List.filter_eq_nil_iff]
      intro p hp
      obtain ⟨l, -, rfl⟩ := List.mem_map.mp hp
      simpa using hb
    by_cases hs : x.name = sec
    · rw [hf y (by rw [← hs]; exact hne.symm)]; simp
    · rw [hf x hs]; simp
  · have : x.lines.filter Spec.isFormatLine = [] := by
      rw [List.filter_eq_nil_iff]
      intro l hl
      simp [hfx l hl]
    simp only [List.filter_append, this, List.append_nil]

/-! ### Concrete cases -/

/-- C60: the difficulty settings after the objects, and the timing points in two pieces. -/
example : Spec.SameSections
    (["osu file format v9", "[Metadata]", "Title:a", "[Difficulty]", "SliderMultiplier:2", "CircleSize:4", "[TimingPoints]", "0,500", "100,-50",
      "[HitObjects]", "64,64,1000,2,0,L|164:64,1,100"].map String.toList)
    (["[HitObjects]", "64,64,1000,2,0,L|164:64,1,100", "[TimingPoints]", "0,500", "[Metadata]", "Title:a", "[Other]", "osu file format v9",
      "[TimingPoints]", "100,-50", "[Difficulty]", "SliderMultiplier:2", "CircleSize:4"].map String.toList) := by
  unfold Spec.SameSections; decide +kernel

/-- C60: this matters, both are maps. -/
example : Sample.observe ("[HitObjects]
64,64,1000,2,0,L|164:64,1,100
[TimingPoints]
0,500
[Metadata]
Title:a
[Difficulty]
SliderMultiplier:2
SliderTickRate:1".toList) (fun m => (m.hitObjects.map fun o => o.base.endTime)) = some [lit 1250] := by decide +kernel

end GosuPP
