import Verif.Model.DifficultyCalc
import Verif.Lemmas.IEEE

/-!
# Specification of strain peaks
-/

namespace GosuPP.Spec
open Go Fl

/-- A finite, non-negative double. -/
structure IsPeak (x : F64) : Prop where
  finite : Fl.Fin x
  wf : WF x
  nonneg : NonNeg x

/-- The range of `math.Log10` on `[1, 10]`: the only fact about the library functions that the
theorems on difficulty values use. -/
def LogBounds [GoLibm F64] : Prop :=
  ∀ x : F64, Fl.le (fin 1 false) x = true → Fl.le x (fin 10 false) = true →
    NonNeg (GoLibm.log10 x) ∧ Fl.le (GoLibm.log10 x) (fin 1 false) = true

/-- `q` arises from `p` by raising values, adding values and reordering. -/
def Dominated (p q : List F64) : Prop :=
  ∃ q' : List F64, List.Forall₂ (fun x y => Fl.le x y = true) p q' ∧ q'.Subperm q

/-- One skill at different moments: everything but the history, the strain, the section and the
peaks. -/
structure SameSettings {S D : Type} (a b : Skill S D) : Prop where
  kind : a.kind = b.kind
  skillMultiplier : a.skillMultiplier = b.skillMultiplier
  strainDecayBase : a.strainDecayBase = b.strainDecayBase
  decayWeight : a.decayWeight = b.decayWeight
  sectionLength : a.sectionLength = b.sectionLength
  historyLength : a.historyLength = b.historyLength
  reducedSectionCount : a.reducedSectionCount = b.reducedSectionCount
  reducedStrainBaseline : a.reducedStrainBaseline = b.reducedStrainBaseline
  difficultyMultiplier : a.difficultyMultiplier = b.difficultyMultiplier
  diff : a.diff = b.diff

/-- The skills that the library creates. -/
def freshSkills {S D : Type} [GoFloat D] (d : Difficulty D) : List (Skill S D) :=
  [Skill.newAim d true, Skill.newAim d false, Skill.newSpeed d, Skill.newFlashlight d]

/-- No rating of `b` is below that of `a`. -/
def RatingsLE (a b : Attributes F64) : Prop :=
  Fl.le a.aim b.aim = true ∧ Fl.le a.speed b.speed = true ∧ Fl.le a.flashlight b.flashlight = true

end GosuPP.Spec
