import Verif.Spec.Turning
import Verif.Model.Preprocessing
import Mathlib.Analysis.SpecialFunctions.Complex.Arg

/-!
# The aim strain of arbitrary maps

A map as the player sees it: a sequence of notes, numbered from 0. Positions are points of the complex plane. Lengths of
jumps are on the scale on which circles have radius 50, times are in milliseconds on the clock of the player, who plays
at speed `r` with circles of radius `c`.
-/

namespace GosuPP.Spec
open Go

/-- Following a slider lazily. -/
structure Slide where
  /-- where the cursor is at the end -/
  cursor : ℂ
  /-- how far it moves -/
  length : ℝ
  /-- how long that takes, on the clock of the map -/
  duration : ℝ

/-- A circle, slider or spinner. -/
structure Note where
  /-- when it starts, on the clock of the map -/
  time : ℝ
  spinner : Bool
  head : ℂ
  tail : ℂ
  slide : Option Slide

/-- Where the cursor leaves a note. -/
def Note.leave (x : Note) : ℂ := match x.slide with
  | some s => s.cursor
  | none => x.head

/-- Notes in the order of their times. Spinners are not followed, and nothing is followed backwards. -/
structure Playable (x : ℕ → Note) : Prop where
  sorted : ∀ i j, i ≤ j → (x i).time ≤ (x j).time
  spinner : ∀ i, (x i).spinner = true → (x i).slide = none
  length : ∀ i s, (x i).slide = some s → 0 ≤ s.length

/-- The objects are shown as these notes. -/
structure Shows (d : Difficulty (Option ℝ)) [GoLibm (Option ℝ)] (x : ℕ → Note) (objs : List (Obj (Option ℝ) (Option ℝ))) : Prop
    extends Playable x where
  time : ∀ (i : ℕ) o, objs[i]? = some o → o.base.startTime = some (x i).time
  spins : ∀ (i : ℕ) o, objs[i]? = some o → o.isSpinner = (x i).spinner
  head : ∀ (i : ℕ) o, objs[i]? = some o → o.base.getStackedStartPositionMod d.mods = ⟨some (x i).head.re, some (x i).head.im⟩
  tail : ∀ (i : ℕ) o, objs[i]? = some o → o.base.getStackedEndPositionMod d.mods = ⟨some (x i).tail.re, some (x i).tail.im⟩
  slider : ∀ (i : ℕ) o s, objs[i]? = some o → o.kind = .slider s → ∃ q : Slide, (x i).slide = some q ∧
    newLazySlider o s d = .ok ⟨⟨some q.cursor.re, some q.cursor.im⟩, some q.length, some q.duration⟩
  other : ∀ (i : ℕ) o, objs[i]? = some o → (∀ s, o.kind ≠ .slider s) → (x i).slide = none

section
variable (c r : ℝ) (x : ℕ → Note)

/-- When note `n` starts. -/
noncomputable def clock (n : ℕ) : ℝ := (x n).time / r

/-- The time from the note before to note `n`, at least 25. -/
noncomputable def gap (n : ℕ) : ℝ := max ((x n).time / r - (x (n - 1)).time / r) 25

/-- The cursor has to get from the note before to note `n`, as neither is a spinner. -/
def Moves (n : ℕ) : Prop := (x n).spinner = false ∧ (x (n - 1)).spinner = false

instance (n : ℕ) : Decidable (Moves x n) := instDecidableAnd

/-- The jump to note `n`. -/
noncomputable def jump (n : ℕ) : ℝ := if Moves x n then jumpLength c ‖(x n).head - (x (n - 1)).leave‖ else 0

/-- The slider that has to be followed before note `n`. -/
def slideTo (n : ℕ) : Option Slide := if Moves x n then (x (n - 1)).slide else none

/-- How far it is followed. -/
def slid (n : ℕ) : ℝ := match slideTo x n with
  | some s => s.length
  | none => 0

/-- How long a slider is followed, at least 25. -/
noncomputable def slideTime (s : Slide) : ℝ := max (s.duration / r) 25

/-- The angle between the way to note `n` and the way back from the note before to the one before that. -/
noncomputable def angleAt (n : ℕ) : Option ℝ :=
  if 2 ≤ n ∧ Moves x n ∧ (x (n - 2)).spinner = false then
    some |Complex.arg (((x n).head - (x (n - 1)).leave) / ((x (n - 2)).leave - (x (n - 1)).head))|
  else none

/-- The velocity with which the cursor gets to note `n`: over the whole way, or if sliders count and that is faster on
the slider and after it. -/
noncomputable def velocity (sliders : Bool) (n : ℕ) : ℝ :=
  match slideTo x n with
  | some s =>
    if sliders then
      max (jump c x n / gap r x n)
        (max 0 (min (jump c x n - 30) (jumpLength c ‖(x n).head - (x (n - 1)).tail‖ - 120)) / max (gap r x n - slideTime r s) 25 +
          s.length / slideTime r s)
    else jump c x n / gap r x n
  | none => jump c x n / gap r x n

/-- The gaps before the last two notes are about the same. -/
def Level (n : ℕ) : Prop := max (gap r x n) (gap r x (n - 1)) < 1.25 * min (gap r x n) (gap r x (n - 1))

/-- The bonus for a wide angle `θ` after the angle `θ'`, at velocity `v`. -/
noncomputable def wideAfter (θ θ' v : ℝ) : ℝ := wideness θ * (v * (1 - min (wideness θ) (wideness θ' ^ 3)))

/-- The bonus for a sharp angle `θ` after the angle `θ'`, for a jump `J` within `T` at velocity `v`. -/
noncomputable def sharpAfter (θ θ' T J v : ℝ) : ℝ :=
  if 100 < T then 0 else
    (1 - wideness θ) * ((1 - wideness θ') * min v (125 / T) * Real.sin (goPi / 2 * min 1 ((100 - T) / 25)) ^ 2 *
      Real.sin (goPi / 2 * (min 100 (max 50 J) - 50) / 50) ^ 2)

/-- It is less if the angle before `θ'` was sharp, too. -/
noncomputable def sharpRepeated (θ'' s : ℝ) : ℝ := s * (0.5 + 0.5 * (1 - min s ((1 - wideness θ'') ^ 3)))

/-- The bonuses for the last three angles: `(wide, sharp)`. -/
noncomputable def turnsAt (sliders : Bool) (n : ℕ) : ℝ × ℝ :=
  open Classical in
  match angleAt x n, angleAt x (n - 1), angleAt x (n - 2) with
  | some θ, some θ', some θ'' =>
    if Level r x n then
      let v := min (velocity c r x sliders n) (velocity c r x sliders (n - 1))
      (wideAfter θ θ' v, sharpRepeated θ'' (sharpAfter θ θ' (gap r x n) (jump c x n) v))
    else (0, 0)
  | _, _, _ => (0, 0)

/-- The velocity over the whole way to note `n` with the slider before it. -/
noncomputable def pace (n : ℕ) : ℝ := (jump c x n + slid x n) / gap r x n

/-- The bonus for a change of velocity. -/
noncomputable def changeAt (sliders : Bool) (n : ℕ) : ℝ :=
  open Classical in
  if velocity c r x sliders (n - 1) = 0 ∧ velocity c r x sliders n = 0 then 0 else
  let Δ := |pace c r x (n - 1) - pace c r x n|
  let T := min (gap r x n) (gap r x (n - 1))
  max (min (125 / T) Δ) (Δ * Real.sin (goPi / 2 * min 1 (min (jump c x n) (jump c x (n - 1)) / 100)) ^ 2) *
    Real.sin (goPi / 2 * Δ / max (pace c r x (n - 1)) (pace c r x n)) ^ 2 *
    (T / max (gap r x n) (gap r x (n - 1))) ^ 2

/-- The bonus for following the slider before note `n`. -/
noncomputable def slideBonus (n : ℕ) : ℝ := match slideTo x n with
  | some s => s.length / slideTime r s
  | none => 0

/-- What note `n` adds to the aim strain. -/
noncomputable def aimHit (sliders : Bool) (n : ℕ) : ℝ :=
  if 3 ≤ n ∧ Moves x n then
    velocity c r x sliders n +
      max (2 * (turnsAt c r x sliders n).2) (1.5 * (turnsAt c r x sliders n).1 + 0.75 * changeAt c r x sliders n) +
      (if sliders then 1.5 * slideBonus r x n else 0)
  else 0

end
end GosuPP.Spec
