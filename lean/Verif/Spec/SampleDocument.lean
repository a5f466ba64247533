/-
A section to store: two series of pages, with a title, texts, a note tag, a formula, a table, a list,
an image, a file, a drawing, and a drawing among the text.
-/
import Verif.Spec.WriteDocument

namespace OneNote.Spec.SampleDocument

def tag : NoteTag := ⟨some 7, ⟨true, false, true⟩, some { (default : NoteTagDefinition) with label := ['t', 'o', 'd', 'o'] }⟩

def otherTag : NoteTag := ⟨none, ⟨false, false, true⟩, some { (default : NoteTagDefinition) with label := ['i', 'd', 'e', 'a'] }⟩

def hello : RichText :=
  { (default : RichText) with
    text := ['H', 'é', '😀']
    textRunFormatting := [{ (default : ParagraphStyling) with bold := true, font := some ['A'] },
      { (default : ParagraphStyling) with mathFormatting := true }, default]
    textRunIndices := [1, 2]
    noteTags := [tag, ⟨none, ⟨false, false, true⟩, none⟩, otherTag]
    mathInlineObjects := [{ (default : MathInlineObject) with char := some '∫' }] }

/-- Half of what is stored, in both directions. -/
def stroke : InkStroke :=
  { (default : InkStroke) with
    path := [⟨.mul (.bits 0x3F000000) (.ofInt 4), .mul (.bits 0x3F000000) (.ofInt (-6))⟩]
    penTip := some 1, height := 0x3F800000, width := 0x40000000 }

def drawing : Ink := ⟨[stroke, stroke], some (Document.box (some 0x3F000000) (some 0x3F000000) (1, 2, 30, 40)), none, some 5⟩

def inText : RichText :=
  { (default : RichText) with
    textRunFormatting := [default, default, default]
    embeddedObjects := [.ink ⟨⟨[], none, some 3, none⟩, some ⟨.bits 1, .bits 2, .bits 3, .bits 4⟩⟩,
      .inkSpace ⟨8, 9⟩, .inkLineBreak] }

def picture : Image :=
  { (default : Image) with
    data := some [0x89, 0x50], extension := some ['p', 'n', 'g'], altText := some ['x']
    embeds := [⟨some 1, ['u']⟩] }

def attachment : EmbeddedFile :=
  { (default : EmbeddedFile) with filename := ['a', '.', 'm', 'p', '3'], fileType := .audio, data := [1, 2, 3] }

def element (contents : List Content) (children : List OutlineItem) : OutlineElement :=
  ⟨contents, [{ (default : ListFormat) with listFormat := ['#', '.'], listRestart := some (-1) }], some 2, 1, children⟩

def table : Content :=
  .table ⟨1, 2, [⟨[⟨[element [.richText hello] []], some ⟨255, 1, 2, 3⟩, some 4, [5, 6]⟩,
    ⟨[], none, none, []⟩]⟩], [0x01], [7, 8], true, none, none, [tag]⟩

def outline : Outline :=
  { childLevel := 1, listSpacing := none, indents := [1, 2], alignmentInParent := none
    alignmentSelf := none, layoutMaxHeight := none, layoutMaxWidth := some 9, layoutReservedWidth := none
    layoutMinimumOutlineWidth := none, isLayoutSizeSetByUser := true, offsetHorizontal := none
    offsetVertical := some 3
    items := [.element (element [.richText hello, table, .image picture, .ink drawing]
      [.group ⟨2, [.element (element [.richText inText, .unknown] [])]⟩])] }

def page : Page :=
  { title := some ⟨[outline], 1, 2, none, none⟩, level := 2, author := some ['M', 'e'], height := some 7
    contents := [.outline outline, .embeddedFile attachment, .image picture, .ink drawing, .unknown] }

def sect : Section :=
  { displayName := ['N', 'o', 't', 'e', 's']
    pageSeries := [⟨[page, { page with title := none, level := -1 }]⟩, ⟨[page]⟩]
    color := some ⟨255, 10, 20, 30⟩ }

end OneNote.Spec.SampleDocument
