/-
What the objects of a document say ([MS-ONE] 2.2): for every kind of object, which property each of
its fields comes from and how the property is read. A field that is not optional must be stored.
-/
import Verif.Spec.Fields
import Verif.Spec.Words

namespace OneNote.Spec.Objects

open Fields

/-- A note tag, stored as a nested property set ([MS-ONE] 2.2.88). -/
structure IsNoteTagData (o : Object) (n : NoteTagData) : Prop where
  definition : Ref o Word.noteTagDefinitionOid n.definition
  createdAt : Required o.props.properties Word.noteTagCreated Value.u32 n.createdAt
  completedAt : Optional o.props.properties Word.noteTagCompleted Value.u32 n.completedAt
  itemStatus : Required o.props.properties Word.actionItemStatus Value.itemStatus n.itemStatus

/-- An attached file ([MS-ONE] 2.2.32). -/
structure IsEmbeddedFileNode (o : Object) (n : EmbeddedFileNode) : Prop where
  kind : o.jcId = 0x00060035
  lastModified : Required o.props.properties Word.lastModifiedTime Value.u32 n.lastModified
  pictureContainer : Ref o Word.pictureContainer n.pictureContainer
  layoutMaxWidth : Optional o.props.properties Word.layoutMaxWidth Value.f32 n.layoutMaxWidth
  layoutMaxHeight : Optional o.props.properties Word.layoutMaxHeight Value.f32 n.layoutMaxHeight
  isLayoutSizeSetByUser : Default o.props.properties Word.isLayoutSizeSetByUser Value.bool false
    n.isLayoutSizeSetByUser
  text : Optional o.props.properties Word.richEditTextUnicode Value.text n.text
  textLanguageCode : Optional o.props.properties Word.richEditTextLangId Value.u16
    n.textLanguageCode
  layoutAlignmentInParent : Default o.props.properties Word.layoutAlignmentInParent Value.layout
    none n.layoutAlignmentInParent
  layoutAlignmentSelf : Default o.props.properties Word.layoutAlignmentSelf Value.layout none
    n.layoutAlignmentSelf
  embeddedFileContainer : Ref o Word.embeddedFileContainer (some n.embeddedFileContainer)
  embeddedFileName : Required o.props.properties Word.embeddedFileName Value.text n.embeddedFileName
  sourcePath : Optional o.props.properties Word.sourceFilepath Value.text n.sourcePath
  fileType : Default o.props.properties Word.iRecordMedia Value.fileType .unknown n.fileType
  pictureWidth : Optional o.props.properties Word.pictureWidth Value.f32 n.pictureWidth
  pictureHeight : Optional o.props.properties Word.pictureHeight Value.f32 n.pictureHeight
  noteTags : ∃ inners, Nested o Word.noteTags inners ∧ Each IsNoteTagData inners n.noteTags
  offsetFromParentHoriz : Optional o.props.properties Word.offsetFromParentHoriz Value.f32
    n.offsetFromParentHoriz
  offsetFromParentVert : Optional o.props.properties Word.offsetFromParentVert Value.f32
    n.offsetFromParentVert

/-- Where embedded ink is placed in a text. -/
structure IsEmbeddedInkData (o : Object) (n : EmbeddedInkData) : Prop where
  spaceWidth : Optional o.props.properties Word.embeddedInkSpaceWidth Value.f32 n.spaceWidth
  spaceHeight : Optional o.props.properties Word.embeddedInkSpaceHeight Value.f32 n.spaceHeight
  startX : Optional o.props.properties Word.embeddedInkStartX Value.f32 n.startX
  startY : Optional o.props.properties Word.embeddedInkStartY Value.f32 n.startY
  height : Optional o.props.properties Word.embeddedInkHeight Value.f32 n.height
  width : Optional o.props.properties Word.embeddedInkWidth Value.f32 n.width
  offsetHoriz : Optional o.props.properties Word.embeddedInkOffsetHoriz Value.f32 n.offsetHoriz
  offsetVert : Optional o.props.properties Word.embeddedInkOffsetVert Value.f32 n.offsetVert

/-- An image ([MS-ONE] 2.2.24). -/
structure IsImageNode (o : Object) (n : ImageNode) : Prop where
  kind : o.jcId = 0x00060011
  lastModified : Optional o.props.properties Word.lastModifiedTime Value.u32 n.lastModified
  pictureContainer : Ref o Word.pictureContainer n.pictureContainer
  layoutMaxWidth : Optional o.props.properties Word.layoutMaxWidth Value.f32 n.layoutMaxWidth
  layoutMaxHeight : Optional o.props.properties Word.layoutMaxHeight Value.f32 n.layoutMaxHeight
  isLayoutSizeSetByUser : Default o.props.properties Word.isLayoutSizeSetByUser Value.bool false
    n.isLayoutSizeSetByUser
  languageCode : Optional o.props.properties Word.languageId Value.u32 n.languageCode
  altText : Optional o.props.properties Word.imageAltText Value.text n.altText
  layoutAlignmentInParent : Default o.props.properties Word.layoutAlignmentInParent Value.layout
    none n.layoutAlignmentInParent
  layoutAlignmentSelf : Default o.props.properties Word.layoutAlignmentSelf Value.layout none
    n.layoutAlignmentSelf
  imageFilename : Optional o.props.properties Word.imageFilename Value.text n.imageFilename
  displayedPageNumber : Optional o.props.properties Word.displayedPageNumber Value.u32
    n.displayedPageNumber
  text : Optional o.props.properties Word.richEditTextUnicode Value.text n.text
  textLanguageCode : Optional o.props.properties Word.richEditTextLangId Value.u16
    n.textLanguageCode
  pictureWidth : Optional o.props.properties Word.pictureWidth Value.f32 n.pictureWidth
  pictureHeight : Optional o.props.properties Word.pictureHeight Value.f32 n.pictureHeight
  hyperlinkUrl : Optional o.props.properties Word.wzHyperlinkUrl Value.text n.hyperlinkUrl
  noteTags : ∃ inners, Nested o Word.noteTags inners ∧ Each IsNoteTagData inners n.noteTags
  offsetFromParentHoriz : Optional o.props.properties Word.offsetFromParentHoriz Value.f32
    n.offsetFromParentHoriz
  offsetFromParentVert : Optional o.props.properties Word.offsetFromParentVert Value.f32
    n.offsetFromParentVert
  isBackground : Default o.props.properties Word.isBackground Value.bool false n.isBackground
  iframe : Refs o Word.contentChildNodes n.iframe

/-- An ink drawing. Both scalings are the horizontal one. -/
structure IsInkContainerNode (o : Object) (n : InkContainerNode) : Prop where
  kind : o.jcId = 0x00060014
  offsetFromParentHoriz : Optional o.props.properties Word.offsetFromParentHoriz Value.f32
    n.offsetFromParentHoriz
  offsetFromParentVert : Optional o.props.properties Word.offsetFromParentVert Value.f32
    n.offsetFromParentVert
  lastModified : Optional o.props.properties Word.lastModifiedTime Value.u32 n.lastModified
  inkData : Ref o Word.inkData n.inkData
  inkScalingX : Optional o.props.properties Word.inkScalingX Value.f32 n.inkScalingX
  -- the code reads the horizontal scale here, see C30
  inkScalingY : Optional o.props.properties Word.inkScalingX Value.f32 n.inkScalingY

/-- The strokes of an ink drawing. -/
structure IsInkDataNode (o : Object) (n : InkDataNode) : Prop where
  kind : o.jcId = 0x0002003B
  strokes : RefList o Word.inkStrokes n.strokes
  boundingBox : Default o.props.properties Word.inkBoundingBox Value.box none n.boundingBox

/-- A stroke. -/
structure IsInkStrokeNode (o : Object) (n : InkStrokeNode) : Prop where
  kind : o.jcId = 0x00020047
  path : Required o.props.properties Word.inkPath Value.path n.path
  bias : Required o.props.properties Word.inkBias Value.bias n.bias
  languageCode : Optional o.props.properties Word.languageId Value.u32 n.languageCode
  properties : Ref o Word.inkStrokeProperties (some n.properties)

/-- A part of a formula. -/
structure IsMathInlineData (o : Object) (n : MathInlineData) : Prop where
  objectType : Optional o.props.properties Word.mathInlineObjectType Value.u32 n.objectType
  argCount : Optional o.props.properties Word.mathInlineObjectCount Value.u32 n.argCount
  column : Optional o.props.properties Word.mathInlineObjectCol Value.u8 n.column
  align : Optional o.props.properties Word.mathInlineObjectAlign Value.u8 n.align
  char : Optional o.props.properties Word.mathInlineObjectChar Value.unit n.char
  char1 : Optional o.props.properties Word.mathInlineObjectChar1 Value.unit n.char1
  char2 : Optional o.props.properties Word.mathInlineObjectChar2 Value.unit n.char2

/-- The definition of a note tag ([MS-ONE] 2.2.41). -/
structure IsNoteTagDefinition (o : Object) (n : NoteTagDefinition) : Prop where
  kind : o.jcId = 0x00120043
  label : Required o.props.properties Word.noteTagLabel Value.text n.label
  status : Required o.props.properties Word.noteTagPropertyStatus Value.definitionStatus n.status
  shape : Required o.props.properties Word.noteTagShape Value.shape n.shape
  highlightColor : Optional o.props.properties Word.noteTagHighlightColor Value.colorRef
    n.highlightColor
  textColor : Optional o.props.properties Word.noteTagTextColor Value.colorRef n.textColor
  actionItemType : Required o.props.properties Word.actionItemType Value.itemType n.actionItemType

/-- A list format ([MS-ONE] 2.2.25). -/
structure IsNumberListNode (o : Object) (n : NumberListNode) : Prop where
  kind : o.jcId = 0x00060012
  lastModified : Required o.props.properties Word.lastModifiedTime Value.u32 n.lastModified
  listFont : Optional o.props.properties Word.listFont Value.text n.listFont
  listRestart : Optional o.props.properties Word.listRestart Value.i32 n.listRestart
  listFormat : Required o.props.properties Word.numberListFormat Value.listFormat n.listFormat
  bold : Default o.props.properties Word.bold Value.bool false n.bold
  italic : Default o.props.properties Word.italic Value.bool false n.italic
  languageCode : Optional o.props.properties Word.languageId Value.u32 n.languageCode
  font : Optional o.props.properties Word.font Value.text n.font
  fontSize : Optional o.props.properties Word.fontSize Value.u16 n.fontSize
  fontColor : Optional o.props.properties Word.fontColor Value.colorRef n.fontColor

/-- An outline element ([MS-ONE] 2.2.21). -/
structure IsOutlineElementNode (o : Object) (n : OutlineElementNode) : Prop where
  kind : o.jcId = 0x0006000D
  createdAt : Required o.props.properties Word.creationTimeStamp Value.u32 n.createdAt
  lastModified : Required o.props.properties Word.lastModifiedTime Value.u32 n.lastModified
  children : Refs o Word.elementChildNodes n.children
  childLevel : Required o.props.properties Word.outlineElementChildLevel Value.u8 n.childLevel
  contents : Refs o Word.contentChildNodes n.contents
  listContents : Refs o Word.listNodes n.listContents
  listSpacing : Optional o.props.properties Word.listSpacingMu Value.f32 n.listSpacing
  authorOriginal : Ref o Word.authorOriginal (some n.authorOriginal)
  authorMostRecent : Ref o Word.authorMostRecent (some n.authorMostRecent)
  rtl : Default o.props.properties Word.outlineElementRtl Value.bool false n.rtl
  isDeletable : Default o.props.properties Word.deletable Value.bool false n.isDeletable
  isSelectable : Default o.props.properties Word.cannotBeSelected Value.notBool false n.isSelectable
  isTitleText : Default o.props.properties Word.isTitleText Value.bool false n.isTitleText

/-- An outline group ([MS-ONE] 2.2.22). -/
structure IsOutlineGroupNode (o : Object) (n : OutlineGroupNode) : Prop where
  kind : o.jcId = 0x00060019
  lastModified : Required o.props.properties Word.lastModifiedTime Value.u32 n.lastModified
  children : Refs o Word.elementChildNodes n.children
  childLevel : Required o.props.properties Word.outlineElementChildLevel Value.u8 n.childLevel

/-- An outline ([MS-ONE] 2.2.20). -/
structure IsOutlineNode (o : Object) (n : OutlineNode) : Prop where
  kind : o.jcId = 0x0006000C
  lastModified : Required o.props.properties Word.lastModifiedTime Value.u32 n.lastModified
  children : Refs o Word.elementChildNodes n.children
  childLevel : Required o.props.properties Word.outlineElementChildLevel Value.u8 n.childLevel
  layoutMaxHeight : Optional o.props.properties Word.layoutMaxHeight Value.f32 n.layoutMaxHeight
  layoutMaxWidth : Optional o.props.properties Word.layoutMaxWidth Value.f32 n.layoutMaxWidth
  layoutReservedWidth : Optional o.props.properties Word.layoutOutlineReservedWidth Value.f32
    n.layoutReservedWidth
  layoutMinimumOutlineWidth : Optional o.props.properties Word.layoutMinimumOutlineWidth Value.f32
    n.layoutMinimumOutlineWidth
  layoutTightAlignment : Default o.props.properties Word.layoutTightAlignment Value.bool false
    n.layoutTightAlignment
  isLayoutSizeSetByUser : Default o.props.properties Word.isLayoutSizeSetByUser Value.bool false
    n.isLayoutSizeSetByUser
  offsetFromParentHoriz : Optional o.props.properties Word.offsetFromParentHoriz Value.f32
    n.offsetFromParentHoriz
  offsetFromParentVert : Optional o.props.properties Word.offsetFromParentVert Value.f32
    n.offsetFromParentVert
  listSpacing : Optional o.props.properties Word.listSpacingMu Value.f32 n.listSpacing
  outlineIndentDistance : Required o.props.properties Word.rgOutlineIndentDistance Value.indents
    n.outlineIndentDistance
  layoutAlignmentInParent : Default o.props.properties Word.layoutAlignmentInParent Value.layout
    none n.layoutAlignmentInParent
  layoutAlignmentSelf : Default o.props.properties Word.layoutAlignmentSelf Value.layout none
    n.layoutAlignmentSelf
  isDeletable : Default o.props.properties Word.deletable Value.bool false n.isDeletable
  isTitleDate : Default o.props.properties Word.isTitleDate Value.bool false n.isTitleDate
  isSelectable : Default o.props.properties Word.cannotBeSelected Value.notBool true n.isSelectable
  isTitleText : Default o.props.properties Word.isTitleText Value.bool false n.isTitleText
  isReadOnly : Default o.props.properties Word.isReadOnly Value.bool false n.isReadOnly
  descendantsCannotBeMoved : Default o.props.properties Word.descendantsCannotBeMoved Value.bool
    false n.descendantsCannotBeMoved
  tightLayout : Default o.props.properties Word.layoutTightLayout Value.bool false n.tightLayout

/-- The metadata of a page ([MS-ONE] 2.2.30). -/
structure IsPageMetadata (o : Object) (n : PageMetadata) : Prop where
  kind : o.jcId = 0x00020030
  entityGuid : Required o.props.properties Word.notebookManagementEntityGuid Value.guid n.entityGuid
  cachedTitle : Required o.props.properties Word.cachedTitleString Value.text n.cachedTitle
  schemaRevisionInOrderToRead : Optional o.props.properties Word.schemaRevisionInOrderToRead
    Value.u32 n.schemaRevisionInOrderToRead
  schemaRevisionInOrderToWrite : Optional o.props.properties Word.schemaRevisionInOrderToWrite
    Value.u32 n.schemaRevisionInOrderToWrite
  pageLevel : Default o.props.properties Word.pageLevel Value.i32 0 n.pageLevel
  createdAt : Required o.props.properties Word.topologyCreationTimeStamp Value.u64 n.createdAt
  isDeleted : Default o.props.properties Word.isDeletedGraphSpaceContent Value.bool false
    n.isDeleted

/-- A page ([MS-ONE] 2.2.19). -/
structure IsPageNode (o : Object) (n : PageNode) : Prop where
  kind : o.jcId = 0x0006000B
  lastModified : Optional o.props.properties Word.lastModifiedTime Value.u32 n.lastModified
  cachedTitle : Optional o.props.properties Word.cachedTitleStringFromPage Value.text n.cachedTitle
  author : Optional o.props.properties Word.author Value.text n.author
  content : Refs o Word.elementChildNodes n.content
  title : ∃ ids, Refs o Word.structureElementChildNodes ids ∧ n.title = ids.head?
  orientationPortrait : Default o.props.properties Word.portraitPage Value.bool false
    n.orientationPortrait
  pageWidth : Optional o.props.properties Word.pageWidth Value.f32 n.pageWidth
  pageHeight : Optional o.props.properties Word.pageHeight Value.f32 n.pageHeight
  pageMarginOriginX : Optional o.props.properties Word.pageMarginOriginX Value.f32
    n.pageMarginOriginX
  pageMarginOriginY : Optional o.props.properties Word.pageMarginOriginY Value.f32
    n.pageMarginOriginY
  pageMarginLeft : Optional o.props.properties Word.pageMarginLeft Value.f32 n.pageMarginLeft
  pageMarginRight : Optional o.props.properties Word.pageMarginRight Value.f32 n.pageMarginRight
  pageMarginTop : Optional o.props.properties Word.pageMarginTop Value.f32 n.pageMarginTop
  pageMarginBottom : Optional o.props.properties Word.pageMarginBottom Value.f32 n.pageMarginBottom
  -- the code wants one byte, although the identifier says four, see C44
  pageSize : Default o.props.properties Word.pageSize Value.pageSize .auto n.pageSize
  rtl : Default o.props.properties Word.editRootRtl Value.bool false n.rtl

/-- A page series ([MS-ONE] 2.2.18). -/
structure IsPageSeriesNode (o : Object) (n : PageSeriesNode) : Prop where
  kind : o.jcId = 0x00060008
  entityGuid : Required o.props.properties Word.notebookManagementEntityGuid Value.guid n.entityGuid
  pageSpaces : CellRefs o Word.childGraphSpaceElementNodes n.pageSpaces
  pageMetadata : Refs o Word.metaDataObjectsAboveGraphSpace n.pageMetadata
  createdAt : Optional o.props.properties Word.topologyCreationTimeStamp Value.u64 n.createdAt

/-- The style of a paragraph or of a run of text ([MS-ONE] 2.2.44). -/
structure IsParagraphStyleObject (o : Object) (n : ParagraphStyleObject) : Prop where
  kind : o.jcId = 0x0012004D
  charset : Optional o.props.properties Word.charset Value.charset n.charset
  bold : Default o.props.properties Word.bold Value.bool false n.bold
  italic : Default o.props.properties Word.italic Value.bool false n.italic
  underline : Default o.props.properties Word.underline Value.bool false n.underline
  strikethrough : Default o.props.properties Word.strikethrough Value.bool false n.strikethrough
  superscript : Default o.props.properties Word.superscript Value.bool false n.superscript
  subscript : Default o.props.properties Word.subscript Value.bool false n.subscript
  font : Optional o.props.properties Word.font Value.text n.font
  fontSize : Optional o.props.properties Word.fontSize Value.u16 n.fontSize
  fontColor : Optional o.props.properties Word.fontColor Value.colorRef n.fontColor
  highlight : Optional o.props.properties Word.highlight Value.colorRef n.highlight
  nextStyle : Optional o.props.properties Word.nextStyle Value.text n.nextStyle
  styleId : Optional o.props.properties Word.paragraphStyleId Value.text n.styleId
  paragraphAlignment : Optional o.props.properties Word.paragraphAlignment Value.paragraphAlignment
    n.paragraphAlignment
  paragraphSpaceBefore : Optional o.props.properties Word.paragraphSpaceBefore Value.f32
    n.paragraphSpaceBefore
  paragraphSpaceAfter : Optional o.props.properties Word.paragraphSpaceAfter Value.f32
    n.paragraphSpaceAfter
  paragraphLineSpacingExact : Optional o.props.properties Word.paragraphLineSpacingExact Value.f32
    n.paragraphLineSpacingExact
  languageCode : Optional o.props.properties Word.languageId Value.u32 n.languageCode
  mathFormatting : Default o.props.properties Word.mathFormatting Value.bool false n.mathFormatting
  hyperlink : Default o.props.properties Word.hyperlink Value.bool false n.hyperlink
  hyperlinkProtected : Default o.props.properties Word.hyperlinkProtected Value.bool false
    n.hyperlinkProtected
  hidden : Default o.props.properties Word.hidden Value.bool false n.hidden
  textRunIsEmbeddedObject : Default o.props.properties Word.textRunIsEmbeddedObject Value.bool
    false n.textRunIsEmbeddedObject
  textRunObjectType : Optional o.props.properties Word.embeddedObjectType Value.u32
    n.textRunObjectType

/-- The text: in UTF-16 if it is stored so, otherwise in Latin-1. -/
def IsText (o : Object) (r : Option Text) : Prop :=
  ((∃ t, r = some t) ∧ Optional o.props.properties Word.richEditTextUnicode Value.text r) ∨
  (o.props.properties.get Word.richEditTextUnicode = none ∧
    Optional o.props.properties Word.textExtendedAscii Value.latin1 r)

/-- A rich text ([MS-ONE] 2.2.23). -/
structure IsRichTextNode (o : Object) (n : RichTextNode) : Prop where
  kind : o.jcId = 0x0006000E
  lastModifiedTime : Required o.props.properties Word.lastModifiedTime Value.u32 n.lastModifiedTime
  tightLayout : Default o.props.properties Word.layoutTightLayout Value.bool false n.tightLayout
  textRunFormatting : Refs o Word.textRunFormatting n.textRunFormatting
  textRunIndices : Default o.props.properties Word.textRunIndex Value.u32s [] n.textRunIndices
  textRunDataObject : Refs o Word.textRunDataObject n.textRunDataObject
  paragraphStyle : Ref o Word.paragraphStyle (some n.paragraphStyle)
  paragraphSpaceBefore : Default o.props.properties Word.paragraphSpaceBefore Value.f32 0
    n.paragraphSpaceBefore
  paragraphSpaceAfter : Default o.props.properties Word.paragraphSpaceAfter Value.f32 0
    n.paragraphSpaceAfter
  paragraphLineSpacingExact : Optional o.props.properties Word.paragraphLineSpacingExact Value.f32
    n.paragraphLineSpacingExact
  paragraphAlignment : Default o.props.properties Word.paragraphAlignment Value.paragraphAlignment
    .left n.paragraphAlignment
  text : IsText o n.text
  isTitleTime : Default o.props.properties Word.isTitleTime Value.bool false n.isTitleTime
  isBoilerText : Default o.props.properties Word.isBoilerText Value.bool false n.isBoilerText
  isTitleDate : Default o.props.properties Word.isTitleDate Value.bool false n.isTitleDate
  isTitleText : Default o.props.properties Word.isTitleText Value.bool false n.isTitleText
  layoutAlignmentInParent : Default o.props.properties Word.layoutAlignmentInParent Value.layout
    none n.layoutAlignmentInParent
  layoutAlignmentSelf : Default o.props.properties Word.layoutAlignmentSelf Value.layout none
    n.layoutAlignmentSelf
  languageCode : Optional o.props.properties Word.richEditTextLangId Value.u16 n.languageCode
  rtl : Default o.props.properties Word.readingOrderRtl Value.bool false n.rtl
  noteTags : ∃ inners, Nested o Word.noteTags inners ∧ Each IsNoteTagData inners n.noteTags

/-- The metadata of a section ([MS-ONE] 2.2.31). -/
structure IsSectionMetadata (o : Object) (n : SectionMetadata) : Prop where
  kind : o.jcId = 0x00020031
  schemaRevisionInOrderToRead : Required o.props.properties Word.schemaRevisionInOrderToRead
    Value.u32 n.schemaRevisionInOrderToRead
  schemaRevisionInOrderToWrite : Required o.props.properties Word.schemaRevisionInOrderToWrite
    Value.u32 n.schemaRevisionInOrderToWrite
  displayName : Optional o.props.properties Word.sectionDisplayName Value.text n.displayName
  color : Optional o.props.properties Word.sectionColor Value.color n.color

/-- A section ([MS-ONE] 2.2.17). -/
structure IsSectionNode (o : Object) (n : SectionNode) : Prop where
  kind : o.jcId = 0x00060007
  contextId : n.contextId = o.contextId
  entityGuid : Required o.props.properties Word.notebookManagementEntityGuid Value.guid n.entityGuid
  pageSeries : Refs o Word.elementChildNodes n.pageSeries
  createdAt : Required o.props.properties Word.topologyCreationTimeStamp Value.u64 n.createdAt

/-- How a stroke is drawn. The height is stored under the width and the width under the height. -/
structure IsStrokeProperties (o : Object) (n : StrokeProperties) : Prop where
  kind : o.jcId = 0x00120048
  aliased : Default o.props.properties Word.inkAntialised Value.bool false n.aliased
  fitToCurve : Default o.props.properties Word.inkFitToCurve Value.bool false n.fitToCurve
  ignorePressure : Default o.props.properties Word.inkIgnorePressure Value.bool false
    n.ignorePressure
  penTip : Optional o.props.properties Word.inkPenTip Value.u8 n.penTip
  rasterOperation : Optional o.props.properties Word.inkRasterOperation Value.u8 n.rasterOperation
  transparency : Optional o.props.properties Word.inkTransparency Value.u8 n.transparency
  -- the code swaps height and width, see C30
  inkHeight : Required o.props.properties Word.inkWidth Value.f32 n.inkHeight
  inkWidth : Required o.props.properties Word.inkHeight Value.f32 n.inkWidth
  color : Optional o.props.properties Word.inkColor Value.u32 n.color
  dimensions : Default o.props.properties Word.inkDimensions Value.dimensions [] n.dimensions

/-- A cell of a table ([MS-ONE] 2.2.28). -/
structure IsTableCellNode (o : Object) (n : TableCellNode) : Prop where
  kind : o.jcId = 0x00060024
  lastModified : Optional o.props.properties Word.lastModifiedTime Value.u32 n.lastModified
  contents : RefList o Word.elementChildNodes n.contents
  layoutMaxWidth : Optional o.props.properties Word.layoutMaxWidth Value.f32 n.layoutMaxWidth
  outlineIndentDistance : Required o.props.properties Word.rgOutlineIndentDistance Value.indents
    n.outlineIndentDistance
  backgroundColor : Optional o.props.properties Word.cellBackgroundColor Value.color
    n.backgroundColor

/-- A table ([MS-ONE] 2.2.26). -/
structure IsTableNode (o : Object) (n : TableNode) : Prop where
  kind : o.jcId = 0x00060022
  lastModified : Required o.props.properties Word.lastModifiedTime Value.u32 n.lastModified
  rows : RefList o Word.elementChildNodes n.rows
  rowCount : Required o.props.properties Word.rowCount Value.u32 n.rowCount
  colCount : Required o.props.properties Word.columnCount Value.u32 n.colCount
  colsLocked : Default o.props.properties Word.tableColumnsLocked Value.columnLocks [] n.colsLocked
  colWidths : Default o.props.properties Word.tableColumnWidths Value.columnWidths [] n.colWidths
  bordersVisible : Default o.props.properties Word.tableBordersVisible Value.bool true
    n.bordersVisible
  layoutAlignmentInParent : Default o.props.properties Word.layoutAlignmentInParent Value.layout
    none n.layoutAlignmentInParent
  layoutAlignmentSelf : Default o.props.properties Word.layoutAlignmentSelf Value.layout none
    n.layoutAlignmentSelf
  noteTags : ∃ inners, Nested o Word.noteTags inners ∧ Each IsNoteTagData inners n.noteTags

/-- A row of a table ([MS-ONE] 2.2.27). -/
structure IsTableRowNode (o : Object) (n : TableRowNode) : Prop where
  kind : o.jcId = 0x00060023
  lastModified : Optional o.props.properties Word.lastModifiedTime Value.u32 n.lastModified
  cells : RefList o Word.elementChildNodes n.cells

/-- The title of a page ([MS-ONE] 2.2.29). -/
structure IsTitleNode (o : Object) (n : TitleNode) : Prop where
  kind : o.jcId = 0x0006002C
  lastModifiedTime : Required o.props.properties Word.lastModifiedTime Value.u32 n.lastModifiedTime
  children : RefList o Word.elementChildNodes n.children
  offsetHorizontal : Required o.props.properties Word.offsetFromParentHoriz Value.f32
    n.offsetHorizontal
  offsetVertical : Required o.props.properties Word.offsetFromParentVert Value.f32 n.offsetVertical
  layoutAlignmentInParent : Default o.props.properties Word.layoutAlignmentInParent Value.layout
    none n.layoutAlignmentInParent
  layoutAlignmentSelf : Default o.props.properties Word.layoutAlignmentSelf Value.layout none
    n.layoutAlignmentSelf

/-- An entry of a table of contents ([MS-ONE] 2.2.15). -/
structure IsTocContainer (o : Object) (n : TocContainer) : Prop where
  kind : o.jcId = 0x00020001
  children : Refs o Word.tocChildren n.children
  filename : Optional o.props.properties Word.folderChildFilename Value.filename n.filename
  orderingId : Optional o.props.properties Word.notebookElementOrderingId Value.u32 n.orderingId
  color : Optional o.props.properties Word.sectionColor Value.color n.color

/-- The kinds of objects ([MS-ONE] 2.1.13). -/
def kinds : List Nat :=
  [0x00120001, 0x00080036, 0x00060035, 0x00060011, 0x00120043, 0x00060012, 0x0006000D,
   0x00060019, 0x0006000C, 0x00060037, 0x00020030, 0x0006000B, 0x00060008, 0x0012004D,
   0x00080039, 0x00020044, 0x0006000E, 0x00020031, 0x00060007, 0x00060024, 0x00060022,
   0x00060023, 0x0006002C, 0x00020001, 0x0008003A, 0x00060014, 0x0002003B, 0x00020047,
   0x00120048, 0x00060058]

/-- The contents of an attached file. -/
structure IsFileContainer (o : Object) (data : Bytes) : Prop where
  kind : o.jcId = 0x00080036
  data : o.fileData = some data

/-- Embedded web content. -/
structure IsIFrame (o : Object) (n : IFrame) : Prop where
  kind : o.jcId = 0x00060058
  embedType : Optional o.props.properties Word.imageEmbedType Value.u32 n.embedType
  sourceUrl : Required o.props.properties Word.imageEmbeddedUrl Value.text n.sourceUrl

/-- The contents of an image: no bytes if the object has no file data. -/
structure IsPictureContainer (o : Object) (n : PictureContainer) : Prop where
  kind : o.jcId = 0x00080039 ∨ o.jcId = 0x0008003A
  data : o.fileData = some n.data ∨ (o.fileData = none ∧ n.data = [])
  extension : Optional o.props.properties Word.pictureFileExtension Value.text n.extension

/-- The manifest of a page: the page is its first reference. -/
structure IsPageManifest (o : Object) (page : ExGuid) : Prop where
  kind : o.jcId = 0x00060037
  page : ∃ ids, RefList o Word.contentChildNodes ids ∧ ids.head? = some page

end OneNote.Spec.Objects
