/-
Outlines, outline elements, their contents and tables.

Models /repo/src/onenote/{outline,content,table}.rs. These parsers call each other recursively along
the object references of the file. The recursion of the code has no bound; the model gives it a
number of nested calls (`Err.fuel` when that runs out), see `C41`.
-/
import Verif.Model.Document

namespace OneNote

mutual

/-- `OutlineItem`, /repo/src/onenote/outline.rs L154-157. -/
inductive OutlineItem where
  | group (g : OutlineGroup)
  | element (e : OutlineElement)

/-- `OutlineGroup`, /repo/src/onenote/outline.rs L179-182. -/
structure OutlineGroup where
  childLevel : Nat
  outlines : List OutlineItem

/-- `OutlineElement`, /repo/src/onenote/outline.rs L207-215. -/
structure OutlineElement where
  contents : List Content
  listContents : List ListFormat
  listSpacing : Option F32
  childLevel : Nat
  children : List OutlineItem

/-- `Content`, /repo/src/onenote/content.rs L13-31. -/
inductive Content where
  | richText (t : RichText)
  | table (t : Table)
  | image (i : Image)
  | embeddedFile (f : EmbeddedFile)
  | ink (i : Ink)
  | unknown

/-- `Table`, /repo/src/onenote/table.rs L17-31. -/
structure Table where
  rows : Nat
  cols : Nat
  contents : List TableRow
  colsLocked : Bytes
  colWidths : List F32
  bordersVisible : Bool
  layoutAlignmentInParent : Option LayoutAlignment
  layoutAlignmentSelf : Option LayoutAlignment
  noteTags : List NoteTag

/-- `TableRow`, /repo/src/onenote/table.rs L112-114. -/
structure TableRow where
  contents : List TableCell

/-- `TableCell`, /repo/src/onenote/table.rs L129-135. -/
structure TableCell where
  contents : List OutlineElement
  backgroundColor : Option Color
  layoutMaxWidth : Option F32
  outlineIndentDistance : OutlineIndentDistance

end

/-- `Outline`, /repo/src/onenote/outline.rs L16-33. -/
structure Outline where
  childLevel : Nat
  listSpacing : Option F32
  indents : List F32
  alignmentInParent : Option LayoutAlignment
  alignmentSelf : Option LayoutAlignment
  layoutMaxHeight : Option F32
  layoutMaxWidth : Option F32
  layoutReservedWidth : Option F32
  layoutMinimumOutlineWidth : Option F32
  isLayoutSizeSetByUser : Bool
  offsetHorizontal : Option F32
  offsetVertical : Option F32
  items : List OutlineItem

/-- The recursive calls: `parse_outline_item` and `parse_outline_element`. -/
structure Rec where
  item : ExGuid → Res OutlineItem
  element : ExGuid → Res OutlineElement

/-- `parse_cell`, /repo/src/onenote/table.rs L211-231. -/
def parseCell (r : Rec) (space : ObjectSpace) (id : ExGuid) : Res TableCell := do
  let object ← space.object id
  let data ← TableCellNode.parse object
  let contents ← data.contents.mapM r.element
  pure { contents, backgroundColor := data.backgroundColor, layoutMaxWidth := data.layoutMaxWidth
         outlineIndentDistance := data.outlineIndentDistance }

/-- `parse_row`, /repo/src/onenote/table.rs L194-209. -/
def parseRow (r : Rec) (space : ObjectSpace) (id : ExGuid) : Res TableRow := do
  let object ← space.object id
  let data ← TableRowNode.parse object
  let contents ← data.cells.mapM (parseCell r space)
  pure { contents }

/-- `parse_table`, /repo/src/onenote/table.rs L167-192. -/
def parseTable (r : Rec) (space : ObjectSpace) (id : ExGuid) : Res Table := do
  let object ← space.object id
  let data ← TableNode.parse object
  let contents ← data.rows.mapM (parseRow r space)
  let noteTags ← parseNoteTags space data.noteTags
  pure { rows := data.rowCount, cols := data.colCount, contents, colsLocked := data.colsLocked
         colWidths := data.colWidths, bordersVisible := data.bordersVisible
         layoutAlignmentInParent := data.layoutAlignmentInParent
         layoutAlignmentSelf := data.layoutAlignmentSelf, noteTags }

/-- `space.get_object(id).ok_or_else(..)?.id()` and `PropertySetId::from_jcid(..).ok_or_else(..)?`,
/repo/src/onenote/content.rs L81-89, /repo/src/onenote/outline.rs L291-299,
/repo/src/onenote/page_content.rs L64-72. -/
def ObjectSpace.propertySetId (space : ObjectSpace) (id : ExGuid) : Res PropertySetId := do
  let object ← space.object id
  orErr .malformedOneNote (PropertySetId.fromJcid object.jcId)

/-- `parse_content`, /repo/src/onenote/content.rs L80-103. -/
def parseContent (r : Rec) (space : ObjectSpace) (id : ExGuid) : Res Content := do
  match ← space.propertySetId id with
  | .imageNode => Content.image <$> parseImage space id
  | .embeddedFileNode => Content.embeddedFile <$> parseEmbeddedFile space id
  | .richTextNode => Content.richText <$> parseRichText space id
  | .tableNode => Content.table <$> parseTable r space id
  | .inkContainer => Content.ink <$> parseInk space id
  | _ => pure .unknown

/-- `parse_outline_group`, /repo/src/onenote/outline.rs L317-335. -/
def parseOutlineGroup (r : Rec) (space : ObjectSpace) (id : ExGuid) : Res OutlineGroup := do
  let object ← space.object id
  let data ← OutlineGroupNode.parse object
  let outlines ← data.children.mapM r.item
  pure { childLevel := data.childLevel, outlines }

/-- `parse_outline_element`, /repo/src/onenote/outline.rs L337-373. -/
def parseElementWith (r : Rec) (space : ObjectSpace) (id : ExGuid) : Res OutlineElement := do
  let object ← space.object id
  let data ← OutlineElementNode.parse object
  let children ← data.children.mapM r.item
  let contents ← data.contents.mapM (parseContent r space)
  let listContents ← data.listContents.mapM (parseList space)
  pure { contents, listContents, listSpacing := data.listSpacing, childLevel := data.childLevel
         children }

/-- `parse_outline_item`, /repo/src/onenote/outline.rs L290-315. -/
def parseItemWith (r : Rec) (space : ObjectSpace) (id : ExGuid) : Res OutlineItem := do
  match ← space.propertySetId id with
  | .outlineGroup => OutlineItem.group <$> parseOutlineGroup r space id
  | .outlineElementNode => OutlineItem.element <$> parseElementWith r space id
  | _ => .error .malformedOneNote

/-- The recursive parsers with `n` nested calls. -/
def recAt (space : ObjectSpace) : Nat → Rec
  | 0 => ⟨fun _ => .error .fuel, fun _ => .error .fuel⟩
  | n + 1 => ⟨parseItemWith (recAt space n) space, parseElementWith (recAt space n) space⟩

/-- `parse_outline`, /repo/src/onenote/outline.rs L259-288. -/
def parseOutline (fuel : Nat) (space : ObjectSpace) (id : ExGuid) : Res Outline := do
  let object ← space.object id
  let data ← OutlineNode.parse object
  let items ← data.children.mapM (recAt space fuel).item
  pure { items, childLevel := data.childLevel, listSpacing := data.listSpacing
         indents := data.outlineIndentDistance
         alignmentInParent := data.layoutAlignmentInParent
         alignmentSelf := data.layoutAlignmentSelf
         layoutMaxHeight := data.layoutMaxHeight, layoutMaxWidth := data.layoutMaxWidth
         layoutReservedWidth := data.layoutReservedWidth
         layoutMinimumOutlineWidth := data.layoutMinimumOutlineWidth
         isLayoutSizeSetByUser := data.isLayoutSizeSetByUser
         offsetHorizontal := data.offsetFromParentHoriz
         offsetVertical := data.offsetFromParentVert }

end OneNote
