import Verif.Spec.Legible

/-!
# Specification: maps as an editor writes them
-/

namespace GosuPP.Spec
open Go

/-- A map as an editor writes it: a playable one, with a timing point and a title, an artist or a creator. Sliders have a positive length
and fewer spans than the address space has room for. The three points of a circular arc are near the playfield. -/
structure EditedFile (f : File) : Prop extends FairFile f where
  points : f.points ≠ []
  named : ¬ (f.title = [] ∧ f.artist = [] ∧ f.creator = [])
  lengths : ∀ h c ps r len, ObjectLine.slider h c ps r len ∈ f.objects → 0 < len.amount ∧ r < 2 ^ 45
  arcs : ∀ h a b r len, ObjectLine.slider h 'P' [a, b] r len ∈ f.objects →
    ∀ p ∈ [(h.x, h.y), a, b], |p.1.amount| ≤ 1024 ∧ |p.2.amount| ≤ 1024

end GosuPP.Spec
