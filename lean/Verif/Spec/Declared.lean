/-
The type that an identifier of a property declares for its value, and the properties of single values
with how they are read.
-/
import Verif.Spec.Objects

namespace OneNote.Spec.Declared

/-- The value has the type that is declared by bits 26 to 30 of the identifier ([MS-ONESTORE] 2.6.6). -/
def HasType (word : Nat) : PropertyValue → Prop
  | .empty => word / 2 ^ 26 % 32 = 0x1
  | .bool _ => word / 2 ^ 26 % 32 = 0x2
  | .u8 n => word / 2 ^ 26 % 32 = 0x3 ∧ n < 2 ^ 8
  | .u16 n => word / 2 ^ 26 % 32 = 0x4 ∧ n < 2 ^ 16
  | .u32 n => word / 2 ^ 26 % 32 = 0x5 ∧ n < 2 ^ 32
  | .u64 n => word / 2 ^ 26 % 32 = 0x6 ∧ n < 2 ^ 64
  | .vec _ => word / 2 ^ 26 % 32 = 0x7
  | .objectId => word / 2 ^ 26 % 32 = 0x8
  | .objectIds _ => word / 2 ^ 26 % 32 = 0x9
  | .objectSpaceId => word / 2 ^ 26 % 32 = 0xA
  | .objectSpaceIds _ => word / 2 ^ 26 % 32 = 0xB
  | .contextId => word / 2 ^ 26 % 32 = 0xC
  | .contextIds _ => word / 2 ^ 26 % 32 = 0xD
  | .propertyValues _ _ => word / 2 ^ 26 % 32 = 0x10
  | .propertySet _ => word / 2 ^ 26 % 32 = 0x11

/-- Some value of the declared type reads as something. -/
def Usable {α : Type} (word : Nat) (R : Reading α) : Prop := ∃ v a, HasType word v ∧ R v a

/-- All properties with a single value, as they are listed in `Spec.Objects`, except the page size and
four whose identifiers do not have the type bits of a value that makes sense for them
(`PictureFileExtension`, `IsDeletedGraphSpaceContent`, `InkAntialised`, `InkFitToCurve`). -/
def AllOthers : Prop :=
  Usable Word.inkBias Value.bias ∧
  Usable Word.bold Value.bool ∧
  Usable Word.deletable Value.bool ∧
  Usable Word.descendantsCannotBeMoved Value.bool ∧
  Usable Word.editRootRtl Value.bool ∧
  Usable Word.hidden Value.bool ∧
  Usable Word.hyperlink Value.bool ∧
  Usable Word.hyperlinkProtected Value.bool ∧
  Usable Word.inkIgnorePressure Value.bool ∧
  Usable Word.isBackground Value.bool ∧
  Usable Word.isBoilerText Value.bool ∧
  Usable Word.isLayoutSizeSetByUser Value.bool ∧
  Usable Word.isReadOnly Value.bool ∧
  Usable Word.isTitleDate Value.bool ∧
  Usable Word.isTitleText Value.bool ∧
  Usable Word.isTitleTime Value.bool ∧
  Usable Word.italic Value.bool ∧
  Usable Word.layoutTightAlignment Value.bool ∧
  Usable Word.layoutTightLayout Value.bool ∧
  Usable Word.mathFormatting Value.bool ∧
  Usable Word.outlineElementRtl Value.bool ∧
  Usable Word.portraitPage Value.bool ∧
  Usable Word.readingOrderRtl Value.bool ∧
  Usable Word.strikethrough Value.bool ∧
  Usable Word.subscript Value.bool ∧
  Usable Word.superscript Value.bool ∧
  Usable Word.tableBordersVisible Value.bool ∧
  Usable Word.textRunIsEmbeddedObject Value.bool ∧
  Usable Word.underline Value.bool ∧
  Usable Word.inkBoundingBox Value.box ∧
  Usable Word.charset Value.charset ∧
  Usable Word.cellBackgroundColor Value.color ∧
  Usable Word.sectionColor Value.color ∧
  Usable Word.fontColor Value.colorRef ∧
  Usable Word.highlight Value.colorRef ∧
  Usable Word.noteTagHighlightColor Value.colorRef ∧
  Usable Word.noteTagTextColor Value.colorRef ∧
  Usable Word.tableColumnsLocked Value.columnLocks ∧
  Usable Word.tableColumnWidths Value.columnWidths ∧
  Usable Word.noteTagPropertyStatus Value.definitionStatus ∧
  Usable Word.inkDimensions Value.dimensions ∧
  Usable Word.embeddedInkHeight Value.f32 ∧
  Usable Word.embeddedInkOffsetHoriz Value.f32 ∧
  Usable Word.embeddedInkOffsetVert Value.f32 ∧
  Usable Word.embeddedInkSpaceHeight Value.f32 ∧
  Usable Word.embeddedInkSpaceWidth Value.f32 ∧
  Usable Word.embeddedInkStartX Value.f32 ∧
  Usable Word.embeddedInkStartY Value.f32 ∧
  Usable Word.embeddedInkWidth Value.f32 ∧
  Usable Word.inkHeight Value.f32 ∧
  Usable Word.inkScalingX Value.f32 ∧
  Usable Word.inkWidth Value.f32 ∧
  Usable Word.layoutMaxHeight Value.f32 ∧
  Usable Word.layoutMaxWidth Value.f32 ∧
  Usable Word.layoutMinimumOutlineWidth Value.f32 ∧
  Usable Word.layoutOutlineReservedWidth Value.f32 ∧
  Usable Word.listSpacingMu Value.f32 ∧
  Usable Word.offsetFromParentHoriz Value.f32 ∧
  Usable Word.offsetFromParentVert Value.f32 ∧
  Usable Word.pageHeight Value.f32 ∧
  Usable Word.pageMarginBottom Value.f32 ∧
  Usable Word.pageMarginLeft Value.f32 ∧
  Usable Word.pageMarginOriginX Value.f32 ∧
  Usable Word.pageMarginOriginY Value.f32 ∧
  Usable Word.pageMarginRight Value.f32 ∧
  Usable Word.pageMarginTop Value.f32 ∧
  Usable Word.pageWidth Value.f32 ∧
  Usable Word.paragraphLineSpacingExact Value.f32 ∧
  Usable Word.paragraphSpaceAfter Value.f32 ∧
  Usable Word.paragraphSpaceBefore Value.f32 ∧
  Usable Word.pictureHeight Value.f32 ∧
  Usable Word.pictureWidth Value.f32 ∧
  Usable Word.iRecordMedia Value.fileType ∧
  Usable Word.folderChildFilename Value.filename ∧
  Usable Word.notebookManagementEntityGuid Value.guid ∧
  Usable Word.listRestart Value.i32 ∧
  Usable Word.pageLevel Value.i32 ∧
  Usable Word.rgOutlineIndentDistance Value.indents ∧
  Usable Word.actionItemStatus Value.itemStatus ∧
  Usable Word.actionItemType Value.itemType ∧
  Usable Word.textExtendedAscii Value.latin1 ∧
  Usable Word.layoutAlignmentInParent Value.layout ∧
  Usable Word.layoutAlignmentSelf Value.layout ∧
  Usable Word.numberListFormat Value.listFormat ∧
  Usable Word.cannotBeSelected Value.notBool ∧
  Usable Word.paragraphAlignment Value.paragraphAlignment ∧
  Usable Word.inkPath Value.path ∧
  Usable Word.noteTagShape Value.shape ∧
  Usable Word.author Value.text ∧
  Usable Word.cachedTitleString Value.text ∧
  Usable Word.cachedTitleStringFromPage Value.text ∧
  Usable Word.embeddedFileName Value.text ∧
  Usable Word.font Value.text ∧
  Usable Word.imageAltText Value.text ∧
  Usable Word.imageEmbeddedUrl Value.text ∧
  Usable Word.imageFilename Value.text ∧
  Usable Word.listFont Value.text ∧
  Usable Word.nextStyle Value.text ∧
  Usable Word.noteTagLabel Value.text ∧
  Usable Word.paragraphStyleId Value.text ∧
  Usable Word.richEditTextUnicode Value.text ∧
  Usable Word.sectionDisplayName Value.text ∧
  Usable Word.sourceFilepath Value.text ∧
  Usable Word.wzHyperlinkUrl Value.text ∧
  Usable Word.fontSize Value.u16 ∧
  Usable Word.richEditTextLangId Value.u16 ∧
  Usable Word.columnCount Value.u32 ∧
  Usable Word.creationTimeStamp Value.u32 ∧
  Usable Word.displayedPageNumber Value.u32 ∧
  Usable Word.embeddedObjectType Value.u32 ∧
  Usable Word.imageEmbedType Value.u32 ∧
  Usable Word.inkColor Value.u32 ∧
  Usable Word.languageId Value.u32 ∧
  Usable Word.lastModifiedTime Value.u32 ∧
  Usable Word.mathInlineObjectCount Value.u32 ∧
  Usable Word.mathInlineObjectType Value.u32 ∧
  Usable Word.noteTagCompleted Value.u32 ∧
  Usable Word.noteTagCreated Value.u32 ∧
  Usable Word.notebookElementOrderingId Value.u32 ∧
  Usable Word.rowCount Value.u32 ∧
  Usable Word.schemaRevisionInOrderToRead Value.u32 ∧
  Usable Word.schemaRevisionInOrderToWrite Value.u32 ∧
  Usable Word.textRunIndex Value.u32s ∧
  Usable Word.topologyCreationTimeStamp Value.u64 ∧
  Usable Word.inkPenTip Value.u8 ∧
  Usable Word.inkRasterOperation Value.u8 ∧
  Usable Word.inkTransparency Value.u8 ∧
  Usable Word.mathInlineObjectAlign Value.u8 ∧
  Usable Word.mathInlineObjectCol Value.u8 ∧
  Usable Word.outlineElementChildLevel Value.u8 ∧
  Usable Word.mathInlineObjectChar Value.unit ∧
  Usable Word.mathInlineObjectChar1 Value.unit ∧
  Usable Word.mathInlineObjectChar2 Value.unit

end OneNote.Spec.Declared
