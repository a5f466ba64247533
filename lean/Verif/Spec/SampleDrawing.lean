/-
A section file with a drawing on its page, and what is shown of it.
-/
import Verif.Model.Float
import Verif.Spec.Drawing
import Verif.Spec.Ink
import Verif.Spec.SampleFile

namespace OneNote.Spec

open Ink Drawing

/-- A section file with a drawing on its page: one stroke with the given path, drawn with a pen of width
3.0 and height 4.0, and further properties of the drawing. -/
def drawingFile (path : Bytes) (props : List (PropertyType × PropertyValue)) : Bytes :=
  sectionFile none [3001]
    [objectW 3001 .inkContainer ((.inkData, .objectId) :: props) [3002],
     objectW 3002 .inkDataNode [(.inkStrokes, .objectIds 1)] [3003],
     objectW 3003 .inkStrokeNode
      [(.inkPath, .vec path), (.inkBias, .u8 0), (.inkStrokeProperties, .objectId)] [3004],
     objectW 3004 .strokePropertiesNode
      [(.inkHeight, .u32 0x40800000), (.inkWidth, .u32 0x40400000),
       (.inkDimensions, .vec (dimension ⟨xId, 0, 9⟩ (List.replicate 8 0)
          ++ dimension ⟨yId, 0, 9⟩ (List.replicate 8 0)))]]

/-- The drawings that are page contents. -/
def drawings (s : Section) : List OneNote.Ink :=
  s.pageSeries.flatMap fun series => series.pages.flatMap fun p => p.contents.flatMap fun
    | .ink i => [i]
    | _ => []

/-- The coordinates that are shown. -/
def shownPoints (i : OneNote.Ink) : List (F32 × F32) :=
  i.inkStrokes.flatMap fun s => s.path.map fun p => (p.x.eval, p.y.eval)

/-- The pens that are shown: width and height. -/
def shownPens (i : OneNote.Ink) : List (F32 × F32) := i.inkStrokes.map fun s => (s.width, s.height)

end OneNote.Spec
