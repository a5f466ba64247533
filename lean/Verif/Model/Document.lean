/-
The parts of a OneNote document that contain no other outline: note tags, images, files, ink, lists
and rich text.

Models /repo/src/onenote/{note_tag,iframe,image,embedded_file,ink,list,math_inline_object,rich_text}.rs.
-/
import Verif.Model.Nodes

namespace OneNote

/-- `space.get_object(id).ok_or_else(|| ErrorKind::MalformedOneNoteData(..))?`: used for every object
of the document layer, e.g. /repo/src/onenote/ink.rs L168-170. -/
def ObjectSpace.object (space : ObjectSpace) (id : ExGuid) : Res Object :=
  orErr .malformedOneNote (space.getObject id)

/-! ### Note tags (/repo/src/onenote/note_tag.rs) -/

/-- `NoteTag`, note_tag.rs L18-22. -/
structure NoteTag where
  completedAt : Option Nat
  itemStatus : ActionItemStatus
  definition : Option NoteTagDefinition
  deriving DecidableEq, Repr, Inhabited

/-- `parse_note_tag_definition`, note_tag.rs L110-130. -/
def parseNoteTagDefinition (space : ObjectSpace) (id : ExGuid) : Res NoteTagDefinition := do
  let object ← space.object id
  NoteTagDefinition.parse object

/-- The closure of `parse_note_tags`, note_tag.rs L97-106. -/
def parseNoteTag (space : ObjectSpace) (data : NoteTagData) : Res NoteTag := do
  let definition ← optM (parseNoteTagDefinition space) data.definition
  pure { completedAt := data.completedAt, itemStatus := data.itemStatus, definition }

/-- `parse_note_tags`, note_tag.rs L94-108. -/
def parseNoteTags (space : ObjectSpace) (tags : List NoteTagData) : Res (List NoteTag) :=
  tags.mapM (parseNoteTag space)

/-! ### Embedded web content (/repo/src/onenote/iframe.rs) -/

/-- `parse_iframe`, iframe.rs L25-35. -/
def parseIFrame (space : ObjectSpace) (id : ExGuid) : Res IFrame := do
  let object ← space.object id
  IFrameNode.parse object

/-! ### Images (/repo/src/onenote/image.rs) -/

/-- `Image`, image.rs L15-48. -/
structure Image where
  data : Option Bytes
  extension : Option Text
  layoutMaxWidth : Option F32
  layoutMaxHeight : Option F32
  altText : Option Text
  layoutAlignmentInParent : Option LayoutAlignment
  layoutAlignmentSelf : Option LayoutAlignment
  imageFilename : Option Text
  displayedPageNumber : Option Nat
  text : Option Text
  textLanguageCode : Option Nat
  pictureWidth : Option F32
  pictureHeight : Option F32
  hyperlinkUrl : Option Text
  offsetHorizontal : Option F32
  offsetVertical : Option F32
  isBackground : Bool
  noteTags : List NoteTag
  embeds : List IFrame
  deriving DecidableEq, Repr, Inhabited

/-- The image's container, image.rs L205-215. -/
def parseImageContainer (space : ObjectSpace) (id : ExGuid) : Res PictureContainer := do
  let object ← space.object id
  PictureContainer.parse object

/-- `parse_image`, image.rs L199-251. -/
def parseImage (space : ObjectSpace) (id : ExGuid) : Res Image := do
  let object ← space.object id
  let node ← ImageNode.parse object
  let container ← optM (parseImageContainer space) node.pictureContainer
  let embeds ← node.iframe.mapM (parseIFrame space)
  let noteTags ← parseNoteTags space node.noteTags
  pure {
    data := container.map (·.data), extension := container.bind (·.extension)
    layoutMaxWidth := node.layoutMaxWidth, layoutMaxHeight := node.layoutMaxHeight
    altText := node.altText
    layoutAlignmentInParent := node.layoutAlignmentInParent
    layoutAlignmentSelf := node.layoutAlignmentSelf
    imageFilename := node.imageFilename, displayedPageNumber := node.displayedPageNumber
    text := node.text, textLanguageCode := node.textLanguageCode
    pictureWidth := node.pictureWidth, pictureHeight := node.pictureHeight
    hyperlinkUrl := node.hyperlinkUrl
    offsetHorizontal := node.offsetFromParentHoriz, offsetVertical := node.offsetFromParentVert
    isBackground := node.isBackground, noteTags, embeds }

/-! ### Embedded files (/repo/src/onenote/embedded_file.rs) -/

/-- `EmbeddedFile`, embedded_file.rs L14-26. -/
structure EmbeddedFile where
  filename : Text
  fileType : FileType
  data : Bytes
  layoutMaxWidth : Option F32
  layoutMaxHeight : Option F32
  offsetHorizontal : Option F32
  offsetVertical : Option F32
  noteTags : List NoteTag
  deriving DecidableEq, Repr, Inhabited

/-- `parse_embedded_file`, embedded_file.rs L94-118. -/
def parseEmbeddedFile (space : ObjectSpace) (id : ExGuid) : Res EmbeddedFile := do
  let object ← space.object id
  let node ← EmbeddedFileNode.parse object
  let containerObject ← space.object node.embeddedFileContainer
  let data ← EmbeddedFileContainer.parse containerObject
  let noteTags ← parseNoteTags space node.noteTags
  pure {
    filename := node.embeddedFileName, fileType := node.fileType, data
    layoutMaxWidth := node.layoutMaxWidth, layoutMaxHeight := node.layoutMaxHeight
    offsetHorizontal := node.offsetFromParentHoriz, offsetVertical := node.offsetFromParentVert
    noteTags }

/-! ### Ink (/repo/src/onenote/ink.rs) -/

/-- An `f32` computed by the code. The computation is kept symbolic: `ofInt i` is
`i as f32`, `mul` is `*` and `sub` is `-`; `F32e.eval` (Model/Float) carries it out. -/
inductive F32e where
  | bits (value : F32)
  | ofInt (i : Int)
  | mul (a b : F32e)
  | sub (a b : F32e)
  deriving DecidableEq, Repr, Inhabited

/-- `1.0_f32` -/
def F32e.one : F32e := .bits 0x3F800000

/-- `scale.unwrap_or(1.0)`, ink.rs L218-219, L292-293. -/
def scaleOf (scale : Option F32) : F32e := (scale.map F32e.bits).getD F32e.one

/-- `InkPoint`, ink.rs L101-104. -/
structure InkPoint where
  x : F32e
  y : F32e
  deriving DecidableEq, Repr, Inhabited

/-- `InkBoundingBox`, ink.rs L120-125. -/
structure InkBoundingBox where
  x : F32e
  y : F32e
  height : F32e
  width : F32e
  deriving DecidableEq, Repr, Inhabited

/-- `InkBoundingBox::scale`, ink.rs L157-164. -/
def InkBoundingBox.scale (b : InkBoundingBox) (factor : F32e) : InkBoundingBox :=
  ⟨.mul b.x factor, .mul b.y factor, .mul b.height factor, .mul b.width factor⟩

/-- `InkStroke`, ink.rs L50-57. -/
structure InkStroke where
  path : List InkPoint
  penTip : Option Nat
  transparency : Option Nat
  height : F32
  width : F32
  color : Option Nat
  deriving DecidableEq, Repr, Inhabited

/-- `Ink`, ink.rs L10-16. -/
structure Ink where
  inkStrokes : List InkStroke
  boundingBox : Option InkBoundingBox
  offsetHorizontal : Option F32
  offsetVertical : Option F32
  deriving DecidableEq, Repr, Inhabited

/-- `{598a6a8f-52c0-4ba0-93af-af357411a561}`, ink.rs L271. -/
def dimensionX : Guid :=
  ⟨0x59, 0x8a, 0x6a, 0x8f, 0x52, 0xc0, 0x4b, 0xa0, 0x93, 0xaf, 0xaf, 0x35, 0x74, 0x11, 0xa5, 0x61⟩

/-- `{b53f9f75-04e0-4498-a7ee-c30dbb5a9011}`, ink.rs L278. -/
def dimensionY : Guid :=
  ⟨0xb5, 0x3f, 0x9f, 0x75, 0x04, 0xe0, 0x44, 0x98, 0xa7, 0xee, 0xc3, 0x0d, 0xbb, 0x5a, 0x90, 0x11⟩

/-- `dimensions.iter().position(|d| d.id == id).ok_or_else(..)?`, ink.rs L268-281. -/
def findDimension (dims : List InkDimension) (id : Guid) : Res Nat :=
  orErr .malformedOneNote (dims.findIdx? fun d => decide (d.id = id))

/-- `&data[start..start + len]`: panics when the range is not inside the vector. -/
def slice {α : Type} (data : List α) (start len : Nat) : Res (List α) :=
  if start + len ≤ data.length then .ok ((data.drop start).take len) else .error .panic

/-- `parse_ink_path`, ink.rs L261-306 (the division by `props.dimensions.len()` panics for 0). -/
def parseInkPath (data : List Int) (dims : List InkDimension) (scaleX scaleY : Option F32) :
    Res (List InkPoint) := do
  let idxX ← findDimension dims dimensionX
  let idxY ← findDimension dims dimensionY
  if dims.length = 0 then .error .panic else
  let offset := data.length / dims.length
  let x ← slice data (offset * idxX) offset
  let y ← slice data (offset * idxY) offset
  pure ((x.zip y).map fun p => ⟨.mul (scaleOf scaleX) (.ofInt p.1), .mul (scaleOf scaleY) (.ofInt p.2)⟩)

/-- `parse_ink_stroke`, ink.rs L233-259. -/
def parseInkStroke (space : ObjectSpace) (scaleX scaleY : Option F32) (id : ExGuid) :
    Res InkStroke := do
  let object ← space.object id
  let data ← InkStrokeNode.parse object
  let propsObject ← space.object data.properties
  let props ← StrokeProperties.parse propsObject
  let path ← parseInkPath data.path props.dimensions scaleX scaleY
  pure { path, penTip := props.penTip, transparency := props.transparency
         height := props.inkHeight, width := props.inkWidth, color := props.color }

/-- The bounding box of an ink data node, ink.rs L222-228. -/
def inkBoundingBox (scaleX scaleY : Option F32) : Nat × Nat × Nat × Nat → InkBoundingBox
  | (xMin, yMin, xMax, yMax) =>
    { x := .mul (.ofInt xMin) (scaleOf scaleX)
      y := .mul (.ofInt yMin) (scaleOf scaleY)
      width := .mul (.sub (.ofInt xMax) (.ofInt xMin)) (scaleOf scaleX)
      height := .mul (.sub (.ofInt yMax) (.ofInt yMin)) (scaleOf scaleY) }

/-- `parse_ink_data`, ink.rs L200-231. -/
def parseInkData (space : ObjectSpace) (id : ExGuid) (scaleX scaleY : Option F32) :
    Res (List InkStroke × Option InkBoundingBox) := do
  let object ← space.object id
  let data ← InkDataNode.parse object
  let strokes ← data.strokes.mapM (parseInkStroke space scaleX scaleY)
  pure (strokes, data.boundingBox.map (inkBoundingBox scaleX scaleY))

/-- `parse_ink`, ink.rs L167-198. -/
def parseInk (space : ObjectSpace) (id : ExGuid) : Res Ink := do
  let object ← space.object id
  let container ← InkContainerNode.parse object
  match container.inkData with
  | none =>
    pure { inkStrokes := [], boundingBox := none
           offsetHorizontal := container.offsetFromParentHoriz
           offsetVertical := container.offsetFromParentVert }
  | some inkDataId => do
    let (inkStrokes, boundingBox) ←
      parseInkData space inkDataId container.inkScalingX container.inkScalingY
    pure { inkStrokes, boundingBox
           offsetHorizontal := container.offsetFromParentHoriz
           offsetVertical := container.offsetFromParentVert }

/-! ### Lists (/repo/src/onenote/list.rs) -/

/-- `List`, list.rs L13-23. -/
structure ListFormat where
  listFont : Option Text
  listRestart : Option Int
  listFormat : Text
  bold : Bool
  italic : Bool
  font : Option Text
  fontSize : Option Nat
  fontColor : Option ColorRef
  deriving DecidableEq, Repr, Inhabited

/-- `parse_list`, list.rs L87-105. -/
def parseList (space : ObjectSpace) (id : ExGuid) : Res ListFormat := do
  let object ← space.object id
  let data ← NumberListNode.parse object
  pure { listFont := data.listFont, listRestart := data.listRestart, listFormat := data.listFormat
         bold := data.bold, italic := data.italic, font := data.font, fontSize := data.fontSize
         fontColor := data.fontColor }

/-! ### Math (/repo/src/onenote/math_inline_object.rs) -/

/-- `MathObjectType`, math_inline_object.rs L12-67. -/
inductive MathObjectType where
  | simpleText | accent | box | boxedFormula | brackets | bracketsWithSeps | equationArray
  | fraction | functionApply | leftSubSup | lowerLimit | matrix | nary | opChar | overbar | phantom
  | radical | slashedFraction | stack | stretchStack | subscript | subSup | superscript | underbar
  | upperLimit | plainText
  deriving DecidableEq, Repr, Inhabited

/-- `MathObjectType::from_u32` (derived `Primitive`), math_inline_object.rs L12-67. -/
def MathObjectType.fromU32 : Nat → Option MathObjectType
  | 0 => some simpleText
  | 10 => some accent
  | 11 => some box
  | 12 => some boxedFormula
  | 13 => some brackets
  | 14 => some bracketsWithSeps
  | 15 => some equationArray
  | 16 => some fraction
  | 17 => some functionApply
  | 18 => some leftSubSup
  | 19 => some lowerLimit
  | 20 => some matrix
  | 21 => some nary
  | 22 => some opChar
  | 23 => some overbar
  | 24 => some phantom
  | 25 => some radical
  | 26 => some slashedFraction
  | 27 => some stack
  | 28 => some stretchStack
  | 29 => some subscript
  | 30 => some subSup
  | 31 => some superscript
  | 32 => some underbar
  | 33 => some upperLimit
  | 0x90000000 => some plainText
  | _ => none

/-- `MathInlineObject`, math_inline_object.rs L76-84. -/
structure MathInlineObject where
  objectType : MathObjectType
  argCount : Nat
  column : Option Nat
  align : Option Nat
  char : Option Char
  char1 : Option Char
  char2 : Option Char
  deriving DecidableEq, Repr, Inhabited

/-- `parse_math_inline_object`, math_inline_object.rs L123-139. -/
def parseMathInlineObject (data : MathInlineData) : Res MathInlineObject := do
  let objectType ← required (MathObjectType.fromU32 (data.objectType.getD 0))
  pure { objectType, argCount := data.argCount.getD 0, column := data.column, align := data.align
         char := data.char, char1 := data.char1, char2 := data.char2 }

/-! ### Rich text (/repo/src/onenote/rich_text.rs) -/

/-- `ParagraphStyling`, rich_text.rs L210-231. -/
structure ParagraphStyling where
  charset : Option Charset
  bold : Bool
  italic : Bool
  underline : Bool
  strikethrough : Bool
  superscript : Bool
  subscript : Bool
  font : Option Text
  fontSize : Option Nat
  fontColor : Option ColorRef
  highlight : Option ColorRef
  nextStyle : Option Text
  styleId : Option Text
  paragraphAlignment : Option ParagraphAlignment
  paragraphSpaceBefore : Option F32
  paragraphSpaceAfter : Option F32
  paragraphLineSpacingExact : Option F32
  languageCode : Option Nat
  mathFormatting : Bool
  hyperlink : Bool
  deriving DecidableEq, Repr, Inhabited

/-- `parse_style`, rich_text.rs L548-571. -/
def parseStyle (d : ParagraphStyleObject) : ParagraphStyling where
  charset := d.charset
  bold := d.bold
  italic := d.italic
  underline := d.underline
  strikethrough := d.strikethrough
  superscript := d.superscript
  subscript := d.subscript
  font := d.font
  fontSize := d.fontSize
  fontColor := d.fontColor
  highlight := d.highlight
  nextStyle := d.nextStyle
  styleId := d.styleId
  paragraphAlignment := d.paragraphAlignment
  paragraphSpaceBefore := d.paragraphSpaceBefore
  paragraphSpaceAfter := d.paragraphSpaceAfter
  paragraphLineSpacingExact := d.paragraphLineSpacingExact
  languageCode := d.languageCode
  mathFormatting := d.mathFormatting
  hyperlink := d.hyperlink

/-- `EmbeddedInkContainer`, rich_text.rs L167-170. -/
structure EmbeddedInkContainer where
  ink : Ink
  boundingBox : Option InkBoundingBox
  deriving DecidableEq, Repr, Inhabited

/-- `EmbeddedInkSpace`, rich_text.rs L186-189. -/
structure EmbeddedInkSpace where
  height : F32
  width : F32
  deriving DecidableEq, Repr, Inhabited

/-- `EmbeddedObject`, rich_text.rs L154-163. -/
inductive EmbeddedObject where
  | ink (container : EmbeddedInkContainer)
  | inkSpace (space : EmbeddedInkSpace)
  | inkLineBreak
  deriving DecidableEq, Repr, Inhabited

/-- `RichText`, rich_text.rs L33-51. -/
structure RichText where
  text : Text
  textRunFormatting : List ParagraphStyling
  textRunIndices : List Nat
  paragraphStyle : ParagraphStyling
  paragraphSpaceBefore : F32
  paragraphSpaceAfter : F32
  paragraphLineSpacingExact : Option F32
  paragraphAlignment : ParagraphAlignment
  layoutAlignmentInParent : Option LayoutAlignment
  layoutAlignmentSelf : Option LayoutAlignment
  noteTags : List NoteTag
  embeddedObjects : List EmbeddedObject
  mathInlineObjects : List MathInlineObject
  deriving DecidableEq, Repr, Inhabited

/-- `INK_SPACE_BLOB`, rich_text.rs L372. -/
def inkSpaceBlob : Nat := 0x00020026

/-- `INK_END_OF_LINE_BLOB`, rich_text.rs L373. -/
def inkEndOfLineBlob : Nat := 0x00020027

/-- `parse_embedded_ink_space`, rich_text.rs L536-546. -/
def parseEmbeddedInkSpace (data : EmbeddedInkData) : Res EmbeddedInkSpace := do
  let width ← required data.spaceWidth
  let height ← required data.spaceHeight
  pure { height, width }

/-- The display bounding box, rich_text.rs L511-521. -/
def displayBox (data : EmbeddedInkData) : Option InkBoundingBox :=
  match data.startX, data.startY, data.height, data.width with
  | some x, some y, some height, some width =>
    some { x := .bits x, y := .bits y, height := .bits height, width := .bits width }
  | _, _, _, _ => none

/-- `parse_embedded_ink_data`, rich_text.rs L504-534. -/
def parseEmbeddedInkData (space : ObjectSpace) (id : ExGuid) (data : EmbeddedInkData) :
    Res EmbeddedInkContainer := do
  let (strokes, bb) ← parseInkData space id none none
  pure { ink := { inkStrokes := strokes, boundingBox := bb, offsetHorizontal := data.offsetHoriz
                  offsetVertical := data.offsetVert }
         boundingBox := displayBox data }

/-- The styles of the text runs, rich_text.rs L388-399. -/
def parseStyleObject (space : ObjectSpace) (id : ExGuid) : Res ParagraphStyleObject := do
  let object ← space.object id
  ParagraphStyleObject.parse object

/-- The closure of rich_text.rs L407-416. -/
def parseMathRun (run : Object × ParagraphStyleObject) : Res (Option MathInlineObject) :=
  if run.2.mathFormatting then do
    let data ← MathInlineData.parse run.1
    let m ← parseMathInlineObject data
    pure (some m)
  else pure none

/-- The closure of rich_text.rs L426-433. -/
def parseEmbeddedRun (run : Object × ParagraphStyleObject) :
    Res (Option (Option Nat × EmbeddedInkData)) :=
  if run.2.textRunIsEmbeddedObject then do
    let data ← EmbeddedInkData.parse run.1
    pure (some (run.2.textRunObjectType, data))
  else pure none

/-- `v[i]`: panics when the index is out of bounds. -/
def index {α : Type} (v : List α) (i : Nat) : Res α := orErr .panic v[i]?

/-- The loop over the embedded objects, rich_text.rs L439-474: `i` is the index of the next object
and `withoutRef` the variable `objects_without_ref`. -/
def parseEmbeddedObjects (space : ObjectSpace) (refs : List ExGuid) :
    Nat → Nat → List (Option Nat × EmbeddedInkData) → Res (List (Option EmbeddedObject))
  | _, _, [] => .ok []
  | i, withoutRef, (none, data) :: rest => do
    let o ← (if refs.isEmpty then pure none else do
      let id ← index refs (i - withoutRef)
      let container ← parseEmbeddedInkData space id data
      pure (some (.ink container)))
    let os ← parseEmbeddedObjects space refs (i + 1) withoutRef rest
    pure (o :: os)
  | i, withoutRef, (some type, data) :: rest =>
    if type = inkEndOfLineBlob then do
      let os ← parseEmbeddedObjects space refs (i + 1) (withoutRef + 1) rest
      pure (some .inkLineBreak :: os)
    else if type = inkSpaceBlob then do
      let s ← parseEmbeddedInkSpace data
      let os ← parseEmbeddedObjects space refs (i + 1) (withoutRef + 1) rest
      pure (some (.inkSpace s) :: os)
    else .error .malformedOneNoteFile

/-- `parse_rich_text`, rich_text.rs L375-502. -/
def parseRichText (space : ObjectSpace) (id : ExGuid) : Res RichText := do
  let object ← space.object id
  let data ← RichTextNode.parse object
  let paragraphStyle ← parseStyleObject space data.paragraphStyle
  let styles ← data.textRunFormatting.mapM (parseStyleObject space)
  let textRunData ← TextRunData.parse object
  let runs := (textRunData.getD []).zip styles
  let math ← runs.mapM parseMathRun
  let objects ← runs.mapM parseEmbeddedRun
  let embedded ← parseEmbeddedObjects space data.textRunDataObject 0 0 (objects.filterMap fun x => x)
  let embeddedObjects := embedded.filterMap fun x => x
  let noteTags ← parseNoteTags space data.noteTags
  pure {
    text := if embeddedObjects.isEmpty then data.text.getD [] else []
    textRunFormatting := styles.map parseStyle
    textRunIndices := data.textRunIndices
    paragraphStyle := parseStyle paragraphStyle
    paragraphSpaceBefore := data.paragraphSpaceBefore
    paragraphSpaceAfter := data.paragraphSpaceAfter
    paragraphLineSpacingExact := data.paragraphLineSpacingExact
    paragraphAlignment := data.paragraphAlignment
    layoutAlignmentInParent := data.layoutAlignmentInParent
    layoutAlignmentSelf := data.layoutAlignmentSelf
    noteTags
    embeddedObjects
    mathInlineObjects := math.filterMap fun x => x }

end OneNote
