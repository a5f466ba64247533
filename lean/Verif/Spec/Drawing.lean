/-
Drawings of a section and their coordinates.
-/
import Verif.Spec.Shown
import Verif.Spec.Float
import Verif.Model.Float

namespace OneNote.Spec.Drawing

open Shown Float

/-- The drawing appears on a page of the section. -/
def DrawingOf (i : Ink) (s : Section) : Prop :=
  ∃ p, PageOf p s ∧ (.ink i ∈ p.contents ∨ ContentOn (.ink i) p)

/-- All coordinates of the strokes are finite numbers. -/
def FiniteStrokes (strokes : List InkStroke) : Prop :=
  ∀ stroke ∈ strokes, ∀ p ∈ stroke.path, Finite p.x.eval ∧ Finite p.y.eval

/-- So are those of the box. -/
def FiniteBox (box : Option InkBoundingBox) : Prop :=
  ∀ b, box = some b → Finite b.x.eval ∧ Finite b.y.eval ∧ Finite b.width.eval ∧ Finite b.height.eval

end OneNote.Spec.Drawing
