/-
Renaming the references of an object renames those that its fields show.
-/
import Verif.Lemmas.Rename
import Verif.Lemmas.MapM
import Verif.Spec.Objects

namespace OneNote.Rename

open Spec Spec.Fields Spec.Objects

section
variable {α α' β β' : Type}

theorem each_map {R : α → β → Prop} {R' : α' → β → Prop} {f : α → α'}
    (h : ∀ a b, R a b → R' (f a) b) {as : List α} {bs : List β} (he : Each R as bs) :
    Each R' (as.map f) bs := by
  induction he with
  | nil => exact .nil
  | cons hr _ ih => exact .cons (h _ _ hr) ih

theorem each_maps {R : α → β → Prop} {R' : α' → β' → Prop} {f : α → α'} {g : β → β'}
    (h : ∀ a b, R a b → R' (f a) (g b)) {as : List α} {bs : List β} (he : Each R as bs) :
    Each R' (as.map f) (bs.map g) := by
  induction he with
  | nil => exact .nil
  | cons hr _ ih => exact .cons (h _ _ hr) ih

end

variable (r : Renaming)

section
variable {o : Object} {w : Nat}

theorem getObject (i : Nat) (c : CompactId) :
    (object r o).mapping.getObject i c = (o.mapping.getObject i c).map r.new :=
  lookup_table ..

theorem getObjectSpace (i : Nat) (c : CompactId) :
    (object r o).mapping.getObjectSpace i c = (o.mapping.getObjectSpace i c).map r.cell :=
  lookup_table ..

theorem ref {x : Option ExGuid} (h : Ref o w x) : Ref (object r o) w (x.map r.new) := by
  rcases h with ⟨h1, rfl⟩ | ⟨pos, id, h1, h2, h3, rfl⟩
  · exact .inl ⟨h1, rfl⟩
  · exact .inr ⟨pos, id, h1, h2, h3, (getObject r pos id).symm⟩

theorem refList {x : List ExGuid} (h : RefList o w x) : RefList (object r o) w (x.map r.new) := by
  obtain ⟨n, pos, h1, h2, rfl⟩ := h
  refine ⟨n, pos, h1, h2, ?_⟩
  have := filterMap_map_comm (g := fun j : Nat => j) (h := r.new)
    (f := fun j => o.props.objectIds[pos + j]?.bind (o.mapping.getObject (pos + j)))
    (f' := fun j => o.props.objectIds[pos + j]?.bind ((object r o).mapping.getObject (pos + j)))
    (fun j => by cases o.props.objectIds[pos + j]? with
      | none => rfl
      | some c => exact getObject r _ c) (List.range n)
  rw [← this, List.map_id']

theorem refs {x : List ExGuid} (h : Refs o w x) : Refs (object r o) w (x.map r.new) := by
  rcases h with ⟨h1, rfl⟩ | h
  · exact .inl ⟨h1, rfl⟩
  · exact .inr (refList r h)

theorem cellRefs {x : List CellId} (h : CellRefs o w x) : CellRefs (object r o) w (x.map r.cell) := by
  rcases h with ⟨h1, rfl⟩ | ⟨n, pos, h1, h2, rfl⟩
  · exact .inl ⟨h1, rfl⟩
  · refine .inr ⟨n, pos, h1, h2, ?_⟩
    have := filterMap_map_comm (g := fun j : Nat => j) (h := r.cell)
      (f := fun j => o.props.objectSpaceIds[pos + j]?.bind (o.mapping.getObjectSpace j))
      (f' := fun j => o.props.objectSpaceIds[pos + j]?.bind ((object r o).mapping.getObjectSpace j))
      (fun j => by cases o.props.objectSpaceIds[pos + j]? with
        | none => rfl
        | some c => exact getObjectSpace r _ c) (List.range n)
    rw [← this, List.map_id']

theorem inside {kind : Nat} {set : PropertySet} {inner : Object} (h : Fields.Inside o w kind set inner) :
    Fields.Inside (object r o) w kind set (object r inner) := by
  obtain ⟨pos, pos', h1, h2, rfl⟩ := h
  exact ⟨pos, pos', h1, h2, rfl⟩

theorem nested {inners : List Object} (h : Nested o w inners) :
    Nested (object r o) w (inners.map (object r)) := by
  rcases h with ⟨h1, rfl⟩ | ⟨kind, sets, h1, he⟩
  · exact .inl ⟨h1, rfl⟩
  · refine .inr ⟨kind, sets, h1, ?_⟩
    have := each_maps (f := fun s : PropertySet => s) (g := object r)
      (R' := Fields.Inside (object r o) w kind) (fun a b => inside r) he
    rwa [List.map_id'] at this

end

@[reducible] def noteTagData (n : NoteTagData) : NoteTagData :=
  { n with
    definition := n.definition.map r.new }

theorem is_NoteTagData {o : Object} {n : NoteTagData} (h : IsNoteTagData o n) : IsNoteTagData (object r o) (noteTagData r n) where
  definition := ref r h.definition
  createdAt := h.createdAt
  completedAt := h.completedAt
  itemStatus := h.itemStatus

theorem noteTags {o : Object} {w : Nat} {tags : List NoteTagData}
    (h : ∃ inners, Nested o w inners ∧ Each IsNoteTagData inners tags) :
    ∃ inners, Nested (object r o) w inners ∧ Each IsNoteTagData inners (tags.map (noteTagData r)) := by
  obtain ⟨inners, hn, he⟩ := h
  exact ⟨_, nested r hn, each_maps (f := object r) (g := noteTagData r)
    (R' := IsNoteTagData) (fun _ _ h => is_NoteTagData r h) he⟩

@[reducible] def embeddedFileNode (n : EmbeddedFileNode) : EmbeddedFileNode :=
  { n with
    pictureContainer := n.pictureContainer.map r.new
    embeddedFileContainer := r.new n.embeddedFileContainer
    noteTags := n.noteTags.map (noteTagData r) }

theorem is_EmbeddedFileNode {o : Object} {n : EmbeddedFileNode} (h : IsEmbeddedFileNode o n) : IsEmbeddedFileNode (object r o) (embeddedFileNode r n) where
  kind := h.kind
  lastModified := h.lastModified
  pictureContainer := ref r h.pictureContainer
  layoutMaxWidth := h.layoutMaxWidth
  layoutMaxHeight := h.layoutMaxHeight
  isLayoutSizeSetByUser := h.isLayoutSizeSetByUser
  text := h.text
  textLanguageCode := h.textLanguageCode
  layoutAlignmentInParent := h.layoutAlignmentInParent
  layoutAlignmentSelf := h.layoutAlignmentSelf
  embeddedFileContainer := ref r h.embeddedFileContainer
  embeddedFileName := h.embeddedFileName
  sourcePath := h.sourcePath
  fileType := h.fileType
  pictureWidth := h.pictureWidth
  pictureHeight := h.pictureHeight
  noteTags := noteTags r h.noteTags
  offsetFromParentHoriz := h.offsetFromParentHoriz
  offsetFromParentVert := h.offsetFromParentVert

theorem is_EmbeddedInkData {o : Object} {n : EmbeddedInkData} (h : IsEmbeddedInkData o n) : IsEmbeddedInkData (object r o) n where
  spaceWidth := h.spaceWidth
  spaceHeight := h.spaceHeight
  startX := h.startX
  startY := h.startY
  height := h.height
  width := h.width
  offsetHoriz := h.offsetHoriz
  offsetVert := h.offsetVert

@[reducible] def imageNode (n : ImageNode) : ImageNode :=
  { n with
    pictureContainer := n.pictureContainer.map r.new
    noteTags := n.noteTags.map (noteTagData r)
    iframe := n.iframe.map r.new }

theorem is_ImageNode {o : Object} {n : ImageNode} (h : IsImageNode o n) : IsImageNode (object r o) (imageNode r n) where
  kind := h.kind
  lastModified := h.lastModified
  pictureContainer := ref r h.pictureContainer
  layoutMaxWidth := h.layoutMaxWidth
  layoutMaxHeight := h.layoutMaxHeight
  isLayoutSizeSetByUser := h.isLayoutSizeSetByUser
  languageCode := h.languageCode
  altText := h.altText
  layoutAlignmentInParent := h.layoutAlignmentInParent
  layoutAlignmentSelf := h.layoutAlignmentSelf
  imageFilename := h.imageFilename
  displayedPageNumber := h.displayedPageNumber
  text := h.text
  textLanguageCode := h.textLanguageCode
  pictureWidth := h.pictureWidth
  pictureHeight := h.pictureHeight
  hyperlinkUrl := h.hyperlinkUrl
  noteTags := noteTags r h.noteTags
  offsetFromParentHoriz := h.offsetFromParentHoriz
  offsetFromParentVert := h.offsetFromParentVert
  isBackground := h.isBackground
  iframe := refs r h.iframe

@[reducible] def inkContainerNode (n : InkContainerNode) : InkContainerNode :=
  { n with
    inkData := n.inkData.map r.new }

theorem is_InkContainerNode {o : Object} {n : InkContainerNode} (h : IsInkContainerNode o n) : IsInkContainerNode (object r o) (inkContainerNode r n) where
  kind := h.kind
  offsetFromParentHoriz := h.offsetFromParentHoriz
  offsetFromParentVert := h.offsetFromParentVert
  lastModified := h.lastModified
  inkData := ref r h.inkData
  inkScalingX := h.inkScalingX
  inkScalingY := h.inkScalingY

@[reducible] def inkDataNode (n : InkDataNode) : InkDataNode :=
  { n with
    strokes := n.strokes.map r.new }

theorem is_InkDataNode {o : Object} {n : InkDataNode} (h : IsInkDataNode o n) : IsInkDataNode (object r o) (inkDataNode r n) where
  kind := h.kind
  strokes := refList r h.strokes
  boundingBox := h.boundingBox

@[reducible] def inkStrokeNode (n : InkStrokeNode) : InkStrokeNode :=
  { n with
    properties := r.new n.properties }

theorem is_InkStrokeNode {o : Object} {n : InkStrokeNode} (h : IsInkStrokeNode o n) : IsInkStrokeNode (object r o) (inkStrokeNode r n) where
  kind := h.kind
  path := h.path
  bias := h.bias
  languageCode := h.languageCode
  properties := ref r h.properties

theorem is_MathInlineData {o : Object} {n : MathInlineData} (h : IsMathInlineData o n) : IsMathInlineData (object r o) n where
  objectType := h.objectType
  argCount := h.argCount
  column := h.column
  align := h.align
  char := h.char
  char1 := h.char1
  char2 := h.char2

theorem is_NoteTagDefinition {o : Object} {n : NoteTagDefinition} (h : IsNoteTagDefinition o n) : IsNoteTagDefinition (object r o) n where
  kind := h.kind
  label := h.label
  status := h.status
  shape := h.shape
  highlightColor := h.highlightColor
  textColor := h.textColor
  actionItemType := h.actionItemType

theorem is_NumberListNode {o : Object} {n : NumberListNode} (h : IsNumberListNode o n) : IsNumberListNode (object r o) n where
  kind := h.kind
  lastModified := h.lastModified
  listFont := h.listFont
  listRestart := h.listRestart
  listFormat := h.listFormat
  bold := h.bold
  italic := h.italic
  languageCode := h.languageCode
  font := h.font
  fontSize := h.fontSize
  fontColor := h.fontColor

@[reducible] def outlineElementNode (n : OutlineElementNode) : OutlineElementNode :=
  { n with
    children := n.children.map r.new
    contents := n.contents.map r.new
    listContents := n.listContents.map r.new
    authorOriginal := r.new n.authorOriginal
    authorMostRecent := r.new n.authorMostRecent }

theorem is_OutlineElementNode {o : Object} {n : OutlineElementNode} (h : IsOutlineElementNode o n) : IsOutlineElementNode (object r o) (outlineElementNode r n) where
  kind := h.kind
  createdAt := h.createdAt
  lastModified := h.lastModified
  children := refs r h.children
  childLevel := h.childLevel
  contents := refs r h.contents
  listContents := refs r h.listContents
  listSpacing := h.listSpacing
  authorOriginal := ref r h.authorOriginal
  authorMostRecent := ref r h.authorMostRecent
  rtl := h.rtl
  isDeletable := h.isDeletable
  isSelectable := h.isSelectable
  isTitleText := h.isTitleText

@[reducible] def outlineGroupNode (n : OutlineGroupNode) : OutlineGroupNode :=
  { n with
    children := n.children.map r.new }

theorem is_OutlineGroupNode {o : Object} {n : OutlineGroupNode} (h : IsOutlineGroupNode o n) : IsOutlineGroupNode (object r o) (outlineGroupNode r n) where
  kind := h.kind
  lastModified := h.lastModified
  children := refs r h.children
  childLevel := h.childLevel

@[reducible] def outlineNode (n : OutlineNode) : OutlineNode :=
  { n with
    children := n.children.map r.new }

theorem is_OutlineNode {o : Object} {n : OutlineNode} (h : IsOutlineNode o n) : IsOutlineNode (object r o) (outlineNode r n) where
  kind := h.kind
  lastModified := h.lastModified
  children := refs r h.children
  childLevel := h.childLevel
  layoutMaxHeight := h.layoutMaxHeight
  layoutMaxWidth := h.layoutMaxWidth
  layoutReservedWidth := h.layoutReservedWidth
  layoutMinimumOutlineWidth := h.layoutMinimumOutlineWidth
  layoutTightAlignment := h.layoutTightAlignment
  isLayoutSizeSetByUser := h.isLayoutSizeSetByUser
  offsetFromParentHoriz := h.offsetFromParentHoriz
  offsetFromParentVert := h.offsetFromParentVert
  listSpacing := h.listSpacing
  outlineIndentDistance := h.outlineIndentDistance
  layoutAlignmentInParent := h.layoutAlignmentInParent
  layoutAlignmentSelf := h.layoutAlignmentSelf
  isDeletable := h.isDeletable
  isTitleDate := h.isTitleDate
  isSelectable := h.isSelectable
  isTitleText := h.isTitleText
  isReadOnly := h.isReadOnly
  descendantsCannotBeMoved := h.descendantsCannotBeMoved
  tightLayout := h.tightLayout

theorem is_PageMetadata {o : Object} {n : PageMetadata} (h : IsPageMetadata o n) : IsPageMetadata (object r o) n where
  kind := h.kind
  entityGuid := h.entityGuid
  cachedTitle := h.cachedTitle
  schemaRevisionInOrderToRead := h.schemaRevisionInOrderToRead
  schemaRevisionInOrderToWrite := h.schemaRevisionInOrderToWrite
  pageLevel := h.pageLevel
  createdAt := h.createdAt
  isDeleted := h.isDeleted

@[reducible] def pageNode (n : PageNode) : PageNode :=
  { n with
    content := n.content.map r.new
    title := n.title.map r.new }

theorem is_PageNode {o : Object} {n : PageNode} (h : IsPageNode o n) : IsPageNode (object r o) (pageNode r n) where
  kind := h.kind
  lastModified := h.lastModified
  cachedTitle := h.cachedTitle
  author := h.author
  content := refs r h.content
  title := by
    obtain ⟨ids, hr, hh⟩ := h.title
    exact ⟨_, refs r hr, by rw [List.head?_map, ← hh]⟩
  orientationPortrait := h.orientationPortrait
  pageWidth := h.pageWidth
  pageHeight := h.pageHeight
  pageMarginOriginX := h.pageMarginOriginX
  pageMarginOriginY := h.pageMarginOriginY
  pageMarginLeft := h.pageMarginLeft
  pageMarginRight := h.pageMarginRight
  pageMarginTop := h.pageMarginTop
  pageMarginBottom := h.pageMarginBottom
  pageSize := h.pageSize
  rtl := h.rtl

@[reducible] def pageSeriesNode (n : PageSeriesNode) : PageSeriesNode :=
  { n with
    pageSpaces := n.pageSpaces.map r.cell
    pageMetadata := n.pageMetadata.map r.new }

theorem is_PageSeriesNode {o : Object} {n : PageSeriesNode} (h : IsPageSeriesNode o n) : IsPageSeriesNode (object r o) (pageSeriesNode r n) where
  kind := h.kind
  entityGuid := h.entityGuid
  pageSpaces := cellRefs r h.pageSpaces
  pageMetadata := refs r h.pageMetadata
  createdAt := h.createdAt

theorem is_ParagraphStyleObject {o : Object} {n : ParagraphStyleObject} (h : IsParagraphStyleObject o n) : IsParagraphStyleObject (object r o) n where
  kind := h.kind
  charset := h.charset
  bold := h.bold
  italic := h.italic
  underline := h.underline
  strikethrough := h.strikethrough
  superscript := h.superscript
  subscript := h.subscript
  font := h.font
  fontSize := h.fontSize
  fontColor := h.fontColor
  highlight := h.highlight
  nextStyle := h.nextStyle
  styleId := h.styleId
  paragraphAlignment := h.paragraphAlignment
  paragraphSpaceBefore := h.paragraphSpaceBefore
  paragraphSpaceAfter := h.paragraphSpaceAfter
  paragraphLineSpacingExact := h.paragraphLineSpacingExact
  languageCode := h.languageCode
  mathFormatting := h.mathFormatting
  hyperlink := h.hyperlink
  hyperlinkProtected := h.hyperlinkProtected
  hidden := h.hidden
  textRunIsEmbeddedObject := h.textRunIsEmbeddedObject
  textRunObjectType := h.textRunObjectType

@[reducible] def richTextNode (n : RichTextNode) : RichTextNode :=
  { n with
    textRunFormatting := n.textRunFormatting.map r.new
    textRunDataObject := n.textRunDataObject.map r.new
    paragraphStyle := r.new n.paragraphStyle
    noteTags := n.noteTags.map (noteTagData r) }

theorem is_RichTextNode {o : Object} {n : RichTextNode} (h : IsRichTextNode o n) : IsRichTextNode (object r o) (richTextNode r n) where
  kind := h.kind
  lastModifiedTime := h.lastModifiedTime
  tightLayout := h.tightLayout
  textRunFormatting := refs r h.textRunFormatting
  textRunIndices := h.textRunIndices
  textRunDataObject := refs r h.textRunDataObject
  paragraphStyle := ref r h.paragraphStyle
  paragraphSpaceBefore := h.paragraphSpaceBefore
  paragraphSpaceAfter := h.paragraphSpaceAfter
  paragraphLineSpacingExact := h.paragraphLineSpacingExact
  paragraphAlignment := h.paragraphAlignment
  text := h.text
  isTitleTime := h.isTitleTime
  isBoilerText := h.isBoilerText
  isTitleDate := h.isTitleDate
  isTitleText := h.isTitleText
  layoutAlignmentInParent := h.layoutAlignmentInParent
  layoutAlignmentSelf := h.layoutAlignmentSelf
  languageCode := h.languageCode
  rtl := h.rtl
  noteTags := noteTags r h.noteTags

theorem is_SectionMetadata {o : Object} {n : SectionMetadata} (h : IsSectionMetadata o n) : IsSectionMetadata (object r o) n where
  kind := h.kind
  schemaRevisionInOrderToRead := h.schemaRevisionInOrderToRead
  schemaRevisionInOrderToWrite := h.schemaRevisionInOrderToWrite
  displayName := h.displayName
  color := h.color

@[reducible] def sectionNode (n : SectionNode) : SectionNode :=
  { n with
    contextId := r.new n.contextId
    pageSeries := n.pageSeries.map r.new }

theorem is_SectionNode {o : Object} {n : SectionNode} (h : IsSectionNode o n) : IsSectionNode (object r o) (sectionNode r n) where
  kind := h.kind
  contextId := congrArg r.new h.contextId
  entityGuid := h.entityGuid
  pageSeries := refs r h.pageSeries
  createdAt := h.createdAt

theorem is_StrokeProperties {o : Object} {n : StrokeProperties} (h : IsStrokeProperties o n) : IsStrokeProperties (object r o) n where
  kind := h.kind
  aliased := h.aliased
  fitToCurve := h.fitToCurve
  ignorePressure := h.ignorePressure
  penTip := h.penTip
  rasterOperation := h.rasterOperation
  transparency := h.transparency
  inkHeight := h.inkHeight
  inkWidth := h.inkWidth
  color := h.color
  dimensions := h.dimensions

@[reducible] def tableCellNode (n : TableCellNode) : TableCellNode :=
  { n with
    contents := n.contents.map r.new }

theorem is_TableCellNode {o : Object} {n : TableCellNode} (h : IsTableCellNode o n) : IsTableCellNode (object r o) (tableCellNode r n) where
  kind := h.kind
  lastModified := h.lastModified
  contents := refList r h.contents
  layoutMaxWidth := h.layoutMaxWidth
  outlineIndentDistance := h.outlineIndentDistance
  backgroundColor := h.backgroundColor

@[reducible] def tableNode (n : TableNode) : TableNode :=
  { n with
    rows := n.rows.map r.new
    noteTags := n.noteTags.map (noteTagData r) }

theorem is_TableNode {o : Object} {n : TableNode} (h : IsTableNode o n) : IsTableNode (object r o) (tableNode r n) where
  kind := h.kind
  lastModified := h.lastModified
  rows := refList r h.rows
  rowCount := h.rowCount
  colCount := h.colCount
  colsLocked := h.colsLocked
  colWidths := h.colWidths
  bordersVisible := h.bordersVisible
  layoutAlignmentInParent := h.layoutAlignmentInParent
  layoutAlignmentSelf := h.layoutAlignmentSelf
  noteTags := noteTags r h.noteTags

@[reducible] def tableRowNode (n : TableRowNode) : TableRowNode :=
  { n with
    cells := n.cells.map r.new }

theorem is_TableRowNode {o : Object} {n : TableRowNode} (h : IsTableRowNode o n) : IsTableRowNode (object r o) (tableRowNode r n) where
  kind := h.kind
  lastModified := h.lastModified
  cells := refList r h.cells

@[reducible] def titleNode (n : TitleNode) : TitleNode :=
  { n with
    children := n.children.map r.new }

theorem is_TitleNode {o : Object} {n : TitleNode} (h : IsTitleNode o n) : IsTitleNode (object r o) (titleNode r n) where
  kind := h.kind
  lastModifiedTime := h.lastModifiedTime
  children := refList r h.children
  offsetHorizontal := h.offsetHorizontal
  offsetVertical := h.offsetVertical
  layoutAlignmentInParent := h.layoutAlignmentInParent
  layoutAlignmentSelf := h.layoutAlignmentSelf

@[reducible] def tocContainer (n : TocContainer) : TocContainer :=
  { n with
    children := n.children.map r.new }

theorem is_TocContainer {o : Object} {n : TocContainer} (h : IsTocContainer o n) : IsTocContainer (object r o) (tocContainer r n) where
  kind := h.kind
  children := refs r h.children
  filename := h.filename
  orderingId := h.orderingId
  color := h.color

theorem is_FileContainer {o : Object} {data : Bytes} (h : IsFileContainer o data) : IsFileContainer (object r o) data where
  kind := h.kind
  data := h.data

theorem is_IFrame {o : Object} {n : IFrame} (h : IsIFrame o n) : IsIFrame (object r o) n where
  kind := h.kind
  embedType := h.embedType
  sourceUrl := h.sourceUrl

theorem is_PictureContainer {o : Object} {n : PictureContainer} (h : IsPictureContainer o n) : IsPictureContainer (object r o) n where
  kind := h.kind
  data := h.data
  extension := h.extension

theorem is_PageManifest {o : Object} {page : ExGuid} (h : IsPageManifest o page) :
    IsPageManifest (object r o) (r.new page) := by
  obtain ⟨ids, hr, hh⟩ := h.page
  exact ⟨h.kind, _, refList r hr, by rw [List.head?_map, hh]; rfl⟩

end OneNote.Rename
