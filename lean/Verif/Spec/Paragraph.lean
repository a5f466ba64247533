/-
The stored text of a paragraph ([MS-ONE] 2.2.23): it is stored in UTF-16 or as single bytes.
-/
import Verif.Spec.Document

namespace OneNote.Spec.Paragraph

open Fields Document

/-- The text that is stored in the object: in UTF-16, otherwise in single bytes, otherwise nothing. -/
def StoredText (o : Object) (t : Text) : Prop :=
  Required o.props.properties Word.richEditTextUnicode Value.text t ∨
  (o.props.properties.get Word.richEditTextUnicode = none ∧
    Required o.props.properties Word.textExtendedAscii Value.latin1 t) ∨
  (o.props.properties.get Word.richEditTextUnicode = none ∧
    o.props.properties.get Word.textExtendedAscii = none ∧ t = [])

/-- Some run of the paragraph has a format that says that the run is an embedded object. -/
def HasEmbedded (space : ObjectSpace) (o : Object) : Prop :=
  ∃ refs id style, Refs o Word.textRunFormatting refs ∧ id ∈ refs ∧ At space id style ∧
    style.props.properties.get Word.textRunIsEmbeddedObject = some (.bool true)

/-- The paragraph is stored with data for its runs. -/
def HasRunData (o : Object) : Prop := ∃ v, o.props.properties.get Word.textRunData = some v

end OneNote.Spec.Paragraph
