import Verif.Spec.Written

/-! Written maps with the coordinates exchanged, used by property C119. -/

namespace GosuPP.Spec
open Go

/-- The object written with its coordinates exchanged. -/
def Head.flipped (h : Head) : Head := { h with x := h.y, y := h.x }

def ObjectLine.flipped : ObjectLine → ObjectLine
  | circle h => circle h.flipped
  | spinner h e => spinner h.flipped e
  | slider h c ps r len => slider h.flipped c (ps.map (fun p => (p.2, p.1))) r len

/-- A slider that is not an arc through three points. -/
def ObjectLine.NoArc : ObjectLine → Prop
  | slider _ c ps _ _ => c = 'P' → ps.length ≠ 2
  | _ => True

/-- The map written with the coordinates of every object exchanged. -/
def File.flipped (f : File) : File := { f with objects := f.objects.map ObjectLine.flipped }

end GosuPP.Spec
