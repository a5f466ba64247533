/-
Properties that the library does not read, and the order of those it reads. Nothing here mentions
the model's parsers.
-/
import Verif.Spec.Accepted
import Verif.Spec.StoreContents
import Verif.Spec.Words
import Verif.Spec.References

namespace OneNote.Spec

open Fields StoreContents

/-- The value takes identifiers from one of the streams beside the property set. -/
def Takes (v : PropertyValue) : Prop := idsCounted .objects v ≠ 0 ∨ idsCounted .spaces v ≠ 0

instance (v : PropertyValue) : Decidable (Takes v) := inferInstanceAs (Decidable (_ ∨ _))

namespace Word

/-- The properties that are read: those of the parts of a document and those of the header of the
store. -/
def all : List Nat :=
  [0x1C001D94, 0x1C001D95, 0x14001D99, 0x14001D93,
    actionItemStatus, actionItemType, author, authorMostRecent, authorOriginal, bold,
    cachedTitleString, cachedTitleStringFromPage, cannotBeSelected, cellBackgroundColor, charset,
    childGraphSpaceElementNodes, columnCount, contentChildNodes, creationTimeStamp, deletable,
    descendantsCannotBeMoved, displayedPageNumber, editRootRtl, elementChildNodes,
    embeddedFileContainer, embeddedFileName, embeddedInkHeight, embeddedInkOffsetHoriz,
    embeddedInkOffsetVert, embeddedInkSpaceHeight, embeddedInkSpaceWidth, embeddedInkStartX,
    embeddedInkStartY, embeddedInkWidth, embeddedObjectType, folderChildFilename, font, fontColor,
    fontSize, hidden, highlight, hyperlink, hyperlinkProtected, iRecordMedia, imageAltText,
    imageEmbedType, imageEmbeddedUrl, imageFilename, inkAntialised, inkBias, inkBoundingBox,
    inkColor, inkData, inkDimensions, inkFitToCurve, inkHeight, inkIgnorePressure, inkPath,
    inkPenTip, inkRasterOperation, inkScalingX, inkStrokeProperties, inkStrokes, inkTransparency,
    inkWidth, isBackground, isBoilerText, isDeletedGraphSpaceContent, isLayoutSizeSetByUser,
    isReadOnly, isTitleDate, isTitleText, isTitleTime, italic, languageId, lastModifiedTime,
    layoutAlignmentInParent, layoutAlignmentSelf, layoutMaxHeight, layoutMaxWidth,
    layoutMinimumOutlineWidth, layoutOutlineReservedWidth, layoutTightAlignment,
    layoutTightLayout, listFont, listNodes, listRestart, listSpacingMu, mathFormatting,
    mathInlineObjectAlign, mathInlineObjectChar, mathInlineObjectChar1, mathInlineObjectChar2,
    mathInlineObjectCol, mathInlineObjectCount, mathInlineObjectType,
    metaDataObjectsAboveGraphSpace, nextStyle, noteTagCompleted, noteTagCreated,
    noteTagDefinitionOid, noteTagHighlightColor, noteTagLabel, noteTagPropertyStatus,
    noteTagShape, noteTagTextColor, noteTags, notebookElementOrderingId,
    notebookManagementEntityGuid, numberListFormat, offsetFromParentHoriz, offsetFromParentVert,
    outlineElementChildLevel, outlineElementRtl, pageHeight, pageLevel, pageMarginBottom,
    pageMarginLeft, pageMarginOriginX, pageMarginOriginY, pageMarginRight, pageMarginTop,
    pageSize, pageWidth, paragraphAlignment, paragraphLineSpacingExact, paragraphSpaceAfter,
    paragraphSpaceBefore, paragraphStyle, paragraphStyleId, pictureContainer,
    pictureFileExtension, pictureHeight, pictureWidth, portraitPage, readingOrderRtl,
    rgOutlineIndentDistance, richEditTextLangId, richEditTextUnicode, rowCount,
    schemaRevisionInOrderToRead, schemaRevisionInOrderToWrite, sectionColor, sectionDisplayName,
    sourceFilepath, strikethrough, structureElementChildNodes, subscript, superscript,
    tableBordersVisible, tableColumnWidths, tableColumnsLocked, textExtendedAscii, textRunData,
    textRunDataObject, textRunFormatting, textRunIndex, textRunIsEmbeddedObject, tocChildren,
    topologyCreationTimeStamp, underline, wzHyperlinkUrl]

/-- Those whose values are nested property sets. -/
def nested : List Nat := [noteTags, textRunData]

end Word

/-- The identifiers of these properties, without the type. -/
def readKeys : List Nat := Word.all.map (· % 2 ^ 26)
def nestedKeys : List Nat := Word.nested.map (· % 2 ^ 26)

/-- Two lists of properties (identifier and value), as they are stored, say the same to the library.
`R` says which values are the same. -/
structure SayTheSame (R : Nat → PropertyValue → PropertyValue → Prop)
    (es es' : List (Nat × PropertyValue)) : Prop where
  once : DistinctIds es
  once' : DistinctIds es'
  /-- The properties that take identifiers are the same, in the same order. -/
  taking : Each (fun e e' => e.1 = e'.1 ∧ R e.1 e.2 e'.2)
    (es.filter fun e => decide (Takes e.2)) (es'.filter fun e => decide (Takes e.2))
  /-- Of the others, those that are read are stored in both lists, with the same values. -/
  there : ∀ k ∈ readKeys, ∀ v, (k, v) ∈ es → ¬ Takes v → ∃ v', (k, v') ∈ es' ∧ R k v v'
  back : ∀ k ∈ readKeys, ∀ v', (k, v') ∈ es' → ¬ Takes v' → ∃ v, (k, v) ∈ es ∧ R k v v'

/-- The values are the same, or they are nested property sets that say the same. -/
def SameValue (k : Nat) (v v' : PropertyValue) : Prop :=
  v = v' ∨ k ∈ nestedKeys ∧ ∃ kind sets sets', v = .propertyValues kind sets ∧
    v' = .propertyValues kind sets' ∧
    Each (fun s s' => ∃ es es', s = setOf es ∧ s' = setOf es' ∧ SayTheSame (fun _ => Eq) es es')
      sets sets'

/-- The bytes hold property streams with the same identifiers and with properties that say the
same. -/
def SameProperties (data data' : Bytes) : Prop :=
  ∃ oids osids ctx es es' bs bs' rest rest',
    ObjectPropSetEnc oids osids ctx es bs ∧ ObjectPropSetEnc oids osids ctx es' bs' ∧
    StreamFits oids ∧ StreamFits osids ∧ StreamFits ctx ∧ SayTheSame SameValue es es' ∧
    data = bs ++ rest ∧ data' = bs' ++ rest'

/-! ### References that move along -/

/-- A stored property with the references to objects that it takes, each with its identifier. -/
structure Carried where
  key : Nat
  value : PropertyValue
  refs : List (CompactId × ExGuid)

/-- The properties, the identifiers and the references of an object whose properties are stored in this
order. -/
def entriesIn (cs : List Carried) : List (Nat × PropertyValue) := cs.map fun c => (c.key, c.value)
def idsIn (cs : List Carried) : List CompactId := cs.flatMap fun c => c.refs.map Prod.fst
def refsIn (cs : List Carried) : List ExGuid := cs.flatMap fun c => c.refs.map Prod.snd

/-- Every property is stored once and has the references that it takes. -/
structure CarriesAll (cs : List Carried) : Prop where
  once : DistinctIds (entriesIn cs)
  taken : ∀ c ∈ cs, c.refs.length = idsUsed .objects c.value

/-- The library counts these references as they are meant. Single nested property sets (type 0x11) take
none: those of such a set are not counted (the finding of `C17`). Identifiers in the arrays of nested
property sets that are read are used once in the object (the finding of `C19`). `ctx` are the
identifiers of contexts. -/
structure Countable (ctx : List CompactId) (cs : List Carried) : Prop where
  counted : ∀ c ∈ cs, SingleSetsFree .objects c.value
  nested : ∀ c ∈ cs, c.key ∈ nestedKeys → ∀ r ∈ c.refs, (idsIn cs ++ ctx).count r.1 = 1

/-- Every property of `cs` that is read is in `cs'` too, with the same value and references. -/
def KeepsRead (cs cs' : List Carried) : Prop :=
  ∀ c ∈ cs, c.key ∈ readKeys → ∃ c' ∈ cs', c'.key = c.key ∧ SameValue c.key c.value c'.value ∧
    c'.refs = c.refs

/-- The same properties are read, with the same references to objects. Those that take references to
object spaces keep their order. -/
structure CarriesTheSame (cs cs' : List Carried) : Prop where
  there : KeepsRead cs cs'
  back : KeepsRead cs' cs
  spaces : (entriesIn cs).filter (fun e => decide (idsCounted .spaces e.2 ≠ 0)) =
    (entriesIn cs').filter fun e => decide (idsCounted .spaces e.2 ≠ 0)

/-- The bytes hold property streams for properties that are read the same, and `refs` and `refs'` are
their references. `K` is asked of both lists of properties. -/
def MovedProperties (K : List CompactId → List Carried → Prop) (refs : List ExGuid) (data : Bytes)
    (refs' : List ExGuid) (data' : Bytes) : Prop :=
  ∃ osids ctx cs cs' bs bs' rest rest',
    ObjectPropSetEnc (idsIn cs) osids ctx (entriesIn cs) bs ∧
    ObjectPropSetEnc (idsIn cs') osids ctx (entriesIn cs') bs' ∧
    (StreamFits (idsIn cs) ∧ StreamFits (idsIn cs') ∧ StreamFits osids ∧ StreamFits ctx) ∧
    (CarriesAll cs ∧ CarriesAll cs') ∧ (K ctx cs ∧ K ctx cs') ∧ CarriesTheSame cs cs' ∧
    (refs = refsIn cs ∧ refs' = refsIn cs') ∧ data = bs ++ rest ∧ data' = bs' ++ rest'

/-- Two objects as an object group stores them: the object and the partition are the same, and so is
the data, or it is a list of properties (partition 1) that says the same, with the same references, or
with references that move along with their properties. -/
def SameObject (e e' : Declaration × GroupData) : Prop :=
  declared e.1 = declared e'.1 ∧
  (e.2 = e'.2 ∨ (declared e.1).2 = 1 ∧
    ((∃ refs cells data data', e.2 = .object refs cells data ∧
      e'.2 = .object refs cells data' ∧ SameProperties data data') ∨
    ∃ refs refs' cells data data', e.2 = .object refs cells data ∧
      e'.2 = .object refs' cells data' ∧ MovedProperties Countable refs data refs' data'))

/-- Two object groups store the same objects. -/
structure SameGroup (ds : List Declaration) (os : List GroupData) (ds' : List Declaration)
    (os' : List GroupData) : Prop where
  paired : ds.length = os.length
  paired' : ds'.length = os'.length
  objects : Each SameObject (ds.zip os) (ds'.zip os')

/-- Data elements: the same, or object groups that store the same objects. -/
def SameElement (e e' : LaxElement) : Prop :=
  e = e' ∨ ∃ ds os ds' os', e.piece = .body (.objectGroup ds os) ∧
    e' = ⟨e.id, .body (.objectGroup ds' os')⟩ ∧ SameGroup ds os ds' os'

/-- Data elements: the same, or object groups in which the properties of objects moved, each with its
references. -/
def MovedElement (K : List CompactId → List Carried → Prop) (e e' : LaxElement) : Prop :=
  e = e' ∨ ∃ ds os ds' os', e.piece = .body (.objectGroup ds os) ∧
    e' = ⟨e.id, .body (.objectGroup ds' os')⟩ ∧ ds.length = os.length ∧ ds'.length = os'.length ∧
    Each (fun (x x' : Declaration × GroupData) => declared x.1 = declared x'.1 ∧
      (x.2 = x'.2 ∨ (declared x.1).2 = 1 ∧ ∃ refs refs' cells data data',
        x.2 = .object refs cells data ∧ x'.2 = .object refs' cells data' ∧
        MovedProperties K refs data refs' data')) (ds.zip os) (ds'.zip os')

end OneNote.Spec
