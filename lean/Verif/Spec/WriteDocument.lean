/-
A writer for documents: every value of the API as objects of a section file. Nothing here mentions the
model's parsers.
-/
import Verif.Spec.WriteNode
import Verif.Spec.Document

namespace OneNote.Spec.Writer

/-! ### Values -/

namespace Scalar

def f32 (n : F32) : Scalar := .u32 n
def i32 (i : Int) : Scalar := .u32 (Ink.i32 i)
def text (t : List Char) : Scalar := .vec (utf16 t)
def latin1 (t : List Char) : Scalar := .vec (t.map fun c => UInt8.ofNat c.toNat)
def guid (g : Guid) : Scalar := .vec (Spec.guid g)
def u32s (ns : List Nat) : Scalar := .vec (ns.flatMap (leBytes 4))
def indents (ns : List F32) : Scalar :=
  .vec (leBytes 1 ns.length ++ [0, 0, 0] ++ ns.flatMap (leBytes 4))
def columnLocks (locks : Bytes) : Scalar := .vec (0 :: locks)
def columnWidths (ws : List F32) : Scalar := .vec (0 :: ws.flatMap (leBytes 4))

def color (c : Color) : Scalar :=
  .u32 (c.r + 2 ^ 8 * c.g + 2 ^ 16 * c.b + 2 ^ 24 * (255 - c.alpha))

def colorRef : ColorRef → Scalar
  | .auto => .u32 (2 ^ 24 * 255)
  | .manual r g b => .u32 (r + 2 ^ 8 * g + 2 ^ 16 * b)

def layout (a : LayoutAlignment) : Scalar :=
  .u32 (horizontals.idxOf a.horizontal + 2 ^ 3 * (if a.marginHorizontal = .right then 0 else 1) +
    2 ^ 16 * (if a.vertical = .bottom then 0 else 1) +
    2 ^ 19 * (if a.marginVertical = .bottom then 0 else 1))

/-- The code of an entry of a table. -/
def codeOf {α : Type} [DecidableEq α] (table : List (Nat × α)) (a : α) : Nat :=
  ((table.find? fun e => e.2 = a).map Prod.fst).getD 0

def charset (c : Charset) : Scalar := .u8 (codeOf Value.charsets c)
def mathType (t : MathObjectType) : Scalar := .u32 (codeOf Value.mathTypes t)

def fileType : FileType → Option Scalar
  | .unknown => none
  | .audio => some (.u32 1)
  | .video => some (.u32 2)

def paragraphAlignment : ParagraphAlignment → Scalar
  | .left => .u8 0
  | .center => .u8 1
  | .right => .u8 2
  | .unknown => .u8 3

def itemStatus (s : ActionItemStatus) : Scalar := .u16 (itemStatusWord s 0)
def definitionStatus (s : NoteTagPropertyStatus) : Scalar := .u32 (definitionStatusWord s false false 0)
def shape (s : NoteTagShape) : Scalar := .u16 (shapeCode s)

def itemType : ActionItemType → Scalar
  | .numeric n => .u16 n
  | .dueToday => .u16 100
  | .dueTomorrow => .u16 101
  | .dueThisWeek => .u16 102
  | .dueNextWeek => .u16 103
  | .noDueDate => .u16 104
  | .customDueDate => .u16 105
  | .unknown => .u16 106

def unit (c : Char) : Scalar := .u16 c.toNat

/-- The first unit is the length. -/
def listFormat (t : List Char) : Scalar :=
  .vec (leBytes 2 (t.length % 2 ^ 16) ++ utf16 t)

def box (b : Nat × Nat × Nat × Nat) : Scalar := u32s [b.1, b.2.1, b.2.2.1, b.2.2.2]

/-- The two dimensions of a stroke. -/
def dimensions : Scalar :=
  .vec (Ink.dimension ⟨Ink.xId, 0, 0⟩ (List.replicate 8 0) ++
    Ink.dimension ⟨Ink.yId, 0, 0⟩ (List.replicate 8 0))

/-- The path of a stroke. -/
def path (is : List Int) : Scalar := .vec (Ink.numbers is)

end Scalar

open Scalar

/-- An object of which nothing is read. -/
def dummy : Tree := node 0x00120001 none []

def noGuid : Guid := ⟨0, 0, 0, 0, 0, 0, 0, 0, 0, 0, 0, 0, 0, 0, 0, 0⟩

/-! ### Note tags -/

def definitionTree (d : NoteTagDefinition) : Tree :=
  node 0x00120043 none
    [(Word.noteTagLabel, .val (some (text d.label))),
     (Word.noteTagPropertyStatus, .val (some (definitionStatus d.status))),
     (Word.noteTagShape, .val (some (shape d.shape))),
     (Word.noteTagHighlightColor, .val (d.highlightColor.map colorRef)),
     (Word.noteTagTextColor, .val (d.textColor.map colorRef)),
     (Word.actionItemType, .val (some (itemType d.actionItemType)))]

/-- A note tag as a property set. All note tags of an object have the same references, from the first
on (this is the finding of `C19`): the set refers to `skip` other objects before the definition. -/
def tagSet (skip : Nat) (t : NoteTag) : List (Nat × Val) :=
  inner
    [(Word.contentChildNodes, t.definition.map fun _ => .refs skip),
     (Word.noteTagDefinitionOid, t.definition.map fun _ => .ref),
     (Word.noteTagCreated, some (Scalar.u32 0).val),
     (Word.noteTagCompleted, t.completedAt.map fun n => (Scalar.u32 n).val),
     (Word.actionItemStatus, some (itemStatus t.itemStatus).val)]

/-- Note tags, the definitions of which start at place `skip`. -/
def tagSets (skip : Nat) : List NoteTag → List (List (Nat × Val))
  | [] => []
  | t :: ts => tagSet skip t :: tagSets (skip + t.definition.toList.length) ts

/-- How many references are needed in addition to those to the definitions. -/
def skipped (skip : Nat) : List NoteTag → Nat
  | [] => 0
  | t :: ts => (if t.definition.isSome then skip else 0) + skipped (skip + t.definition.toList.length) ts

/-- The note tags with their definitions. -/
def tagsField (tags : List NoteTag) : Field :=
  .sets 0x00120001 (tagSets 0 tags)
    ((tags.filterMap (·.definition)).map definitionTree ++ List.replicate (skipped 0 tags) dummy)

/-! ### Images and files -/

def iframeTree (f : IFrame) : Tree :=
  node 0x00060058 none
    [(Word.imageEmbedType, .val (f.embedType.map .u32)),
     (Word.imageEmbeddedUrl, .val (some (text f.sourceUrl)))]

def pictureTree (data : Bytes) (extension : Option Text) : Tree :=
  node 0x00080039 (some data) [(Word.pictureFileExtension, .val (extension.map text))]

def imageTree (i : Image) : Tree :=
  node 0x00060011 none
    [(Word.pictureContainer, .one (i.data.map fun d => pictureTree d i.extension)),
     (Word.layoutMaxWidth, .val (i.layoutMaxWidth.map f32)),
     (Word.layoutMaxHeight, .val (i.layoutMaxHeight.map f32)),
     (Word.imageAltText, .val (i.altText.map text)),
     (Word.layoutAlignmentInParent, .val (i.layoutAlignmentInParent.map layout)),
     (Word.layoutAlignmentSelf, .val (i.layoutAlignmentSelf.map layout)),
     (Word.imageFilename, .val (i.imageFilename.map text)),
     (Word.displayedPageNumber, .val (i.displayedPageNumber.map .u32)),
     (Word.richEditTextUnicode, .val (i.text.map text)),
     (Word.richEditTextLangId, .val (i.textLanguageCode.map .u16)),
     (Word.pictureWidth, .val (i.pictureWidth.map f32)),
     (Word.pictureHeight, .val (i.pictureHeight.map f32)),
     (Word.wzHyperlinkUrl, .val (i.hyperlinkUrl.map text)),
     (Word.offsetFromParentHoriz, .val (i.offsetHorizontal.map f32)),
     (Word.offsetFromParentVert, .val (i.offsetVertical.map f32)),
     (Word.isBackground, .val (some (.bool i.isBackground))),
     (Word.noteTags, tagsField i.noteTags),
     (Word.contentChildNodes, .many (i.embeds.map iframeTree))]

def fileTree (f : EmbeddedFile) : Tree :=
  node 0x00060035 none
    [(Word.lastModifiedTime, .val (some (.u32 0))),
     (Word.layoutMaxWidth, .val (f.layoutMaxWidth.map f32)),
     (Word.layoutMaxHeight, .val (f.layoutMaxHeight.map f32)),
     (Word.embeddedFileContainer, .one (some (node 0x00080036 (some f.data) []))),
     (Word.embeddedFileName, .val (some (text f.filename))),
     (Word.iRecordMedia, .val (fileType f.fileType)),
     (Word.noteTags, tagsField f.noteTags),
     (Word.offsetFromParentHoriz, .val (f.offsetHorizontal.map f32)),
     (Word.offsetFromParentVert, .val (f.offsetVertical.map f32))]

/-! ### Ink -/

/-- The number that a coordinate is the scaled form of. -/
def unscaled : F32e → Int
  | .mul _ (.ofInt i) => i
  | .mul (.ofInt i) _ => i
  | _ => 0

/-- The numbers of a stroke: those of the x dimension, then those of the y dimension. -/
def coordinates (points : List InkPoint) : List Int :=
  (points.map fun p => unscaled p.x) ++ points.map fun p => unscaled p.y

/-- How a stroke is drawn. The height is stored under the width and the width under the height, see
the finding of `C30`. -/
def strokePropertiesTree (s : InkStroke) : Tree :=
  node 0x00120048 none
    [(Word.inkPenTip, .val (s.penTip.map .u8)),
     (Word.inkTransparency, .val (s.transparency.map .u8)),
     (Word.inkWidth, .val (some (f32 s.height))),
     (Word.inkHeight, .val (some (f32 s.width))),
     (Word.inkColor, .val (s.color.map .u32)),
     (Word.inkDimensions, .val (some dimensions))]

def strokeTree (s : InkStroke) : Tree :=
  node 0x00020047 none
    [(Word.inkPath, .val (some (path (coordinates s.path)))),
     (Word.inkBias, .val (some (.u8 0))),
     (Word.inkStrokeProperties, .one (some (strokePropertiesTree s)))]

/-- The number that a difference of numbers starts from. -/
def minuend : F32e → Nat
  | .mul (.sub (.ofInt i) _) _ => i.toNat
  | _ => 0

/-- The limits of a box: left, top, right, bottom. -/
def limits (b : InkBoundingBox) : Nat × Nat × Nat × Nat :=
  ((unscaled b.x).toNat, (unscaled b.y).toNat, minuend b.width, minuend b.height)

def inkDataTree (strokes : List InkStroke) (bounds : Option InkBoundingBox) : Tree :=
  node 0x0002003B none
    [(Word.inkStrokes, .many (strokes.map strokeTree)),
     (Word.inkBoundingBox, .val (bounds.map fun b => box (limits b)))]

/-- The scale of a coordinate. -/
def scaleIn : F32e → Option F32
  | .mul (.bits s) _ => some s
  | .mul _ (.bits s) => some s
  | _ => none

/-- The scale of a drawing, taken from its first coordinate. -/
def inkScale (i : Ink) : F32 :=
  (((i.inkStrokes.flatMap (·.path)).map (·.x) ++ i.boundingBox.toList.map (·.x)).findSome? scaleIn).getD
    0x3F800000

def inkTree (i : Ink) : Tree :=
  node 0x00060014 none
    [(Word.offsetFromParentHoriz, .val (i.offsetHorizontal.map f32)),
     (Word.offsetFromParentVert, .val (i.offsetVertical.map f32)),
     (Word.inkData, .one (some (inkDataTree i.inkStrokes i.boundingBox))),
     (Word.inkScalingX, .val (some (f32 (inkScale i))))]

/-! ### Lists -/

def listTree (l : ListFormat) : Tree :=
  node 0x00060012 none
    [(Word.lastModifiedTime, .val (some (.u32 0))),
     (Word.listFont, .val (l.listFont.map text)),
     (Word.listRestart, .val (l.listRestart.map i32)),
     (Word.numberListFormat, .val (some (listFormat l.listFormat))),
     (Word.bold, .val (some (.bool l.bold))),
     (Word.italic, .val (some (.bool l.italic))),
     (Word.font, .val (l.font.map text)),
     (Word.fontSize, .val (l.fontSize.map .u16)),
     (Word.fontColor, .val (l.fontColor.map colorRef))]

/-! ### Rich text -/

/-- The type of an embedded object. -/
def embeddedType : EmbeddedObject → Option Nat
  | .ink _ => none
  | .inkSpace _ => some 0x00020026
  | .inkLineBreak => some 0x00020027

/-- A style, and the embedded object of its run. -/
def styleTree (s : ParagraphStyling) (e : Option EmbeddedObject) : Tree :=
  node 0x0012004D none
    [(Word.charset, .val (s.charset.map charset)),
     (Word.bold, .val (some (.bool s.bold))),
     (Word.italic, .val (some (.bool s.italic))),
     (Word.underline, .val (some (.bool s.underline))),
     (Word.strikethrough, .val (some (.bool s.strikethrough))),
     (Word.superscript, .val (some (.bool s.superscript))),
     (Word.subscript, .val (some (.bool s.subscript))),
     (Word.font, .val (s.font.map text)),
     (Word.fontSize, .val (s.fontSize.map .u16)),
     (Word.fontColor, .val (s.fontColor.map colorRef)),
     (Word.highlight, .val (s.highlight.map colorRef)),
     (Word.nextStyle, .val (s.nextStyle.map text)),
     (Word.paragraphStyleId, .val (s.styleId.map text)),
     (Word.paragraphAlignment, .val (s.paragraphAlignment.map paragraphAlignment)),
     (Word.paragraphSpaceBefore, .val (s.paragraphSpaceBefore.map f32)),
     (Word.paragraphSpaceAfter, .val (s.paragraphSpaceAfter.map f32)),
     (Word.paragraphLineSpacingExact, .val (s.paragraphLineSpacingExact.map f32)),
     (Word.languageId, .val (s.languageCode.map .u32)),
     (Word.mathFormatting, .val (some (.bool s.mathFormatting))),
     (Word.hyperlink, .val (some (.bool s.hyperlink))),
     (Word.textRunIsEmbeddedObject, .val (some (.bool e.isSome))),
     (Word.embeddedObjectType, .val ((e.bind embeddedType).map .u32))]

/-- The styles of the runs: the first runs are those of the embedded objects. -/
def styleTrees : List ParagraphStyling → List EmbeddedObject → List Tree
  | [], _ => []
  | s :: ss, es => styleTree s es.head? :: styleTrees ss es.tail

/-- The properties of a formula. -/
def mathFields (m : Option MathInlineObject) : List (Nat × Option Val) :=
  [(Word.mathInlineObjectType, m.map fun m => (mathType m.objectType).val),
   (Word.mathInlineObjectCount, m.map fun m => (Scalar.u32 m.argCount).val),
   (Word.mathInlineObjectCol, m.bind fun m => m.column.map fun n => (Scalar.u8 n).val),
   (Word.mathInlineObjectAlign, m.bind fun m => m.align.map fun n => (Scalar.u8 n).val),
   (Word.mathInlineObjectChar, m.bind fun m => m.char.map fun c => (unit c).val),
   (Word.mathInlineObjectChar1, m.bind fun m => m.char1.map fun c => (unit c).val),
   (Word.mathInlineObjectChar2, m.bind fun m => m.char2.map fun c => (unit c).val)]

/-- The bits of a number that is not computed. -/
def bitsOf : F32e → F32
  | .bits n => n
  | _ => 0

/-- Where an embedded object is placed. -/
def embeddedData : Option EmbeddedObject → EmbeddedInkData
  | some (.ink c) =>
    { spaceWidth := none, spaceHeight := none
      startX := c.boundingBox.map fun b => bitsOf b.x, startY := c.boundingBox.map fun b => bitsOf b.y
      height := c.boundingBox.map fun b => bitsOf b.height
      width := c.boundingBox.map fun b => bitsOf b.width
      offsetHoriz := c.ink.offsetHorizontal, offsetVert := c.ink.offsetVertical }
  | some (.inkSpace s) =>
    { spaceWidth := some s.width, spaceHeight := some s.height, startX := none, startY := none
      height := none, width := none, offsetHoriz := none, offsetVert := none }
  | _ =>
    { spaceWidth := none, spaceHeight := none, startX := none, startY := none
      height := none, width := none, offsetHoriz := none, offsetVert := none }

def embeddedFields (d : EmbeddedInkData) : List (Nat × Option Val) :=
  [(Word.embeddedInkSpaceWidth, d.spaceWidth.map fun n => (f32 n).val),
   (Word.embeddedInkSpaceHeight, d.spaceHeight.map fun n => (f32 n).val),
   (Word.embeddedInkStartX, d.startX.map fun n => (f32 n).val),
   (Word.embeddedInkStartY, d.startY.map fun n => (f32 n).val),
   (Word.embeddedInkHeight, d.height.map fun n => (f32 n).val),
   (Word.embeddedInkWidth, d.width.map fun n => (f32 n).val),
   (Word.embeddedInkOffsetHoriz, d.offsetHoriz.map fun n => (f32 n).val),
   (Word.embeddedInkOffsetVert, d.offsetVert.map fun n => (f32 n).val)]

/-- The data of the runs with the given styles: the formulas belong to those with mathematical
styles, the embedded objects to the first ones. -/
def runSets : List ParagraphStyling → List MathInlineObject → List EmbeddedObject →
    List (List (Nat × Val))
  | [], _, _ => []
  | s :: ss, ms, es =>
    inner (mathFields (if s.mathFormatting then ms.head? else none) ++
      embeddedFields (embeddedData es.head?)) ::
    runSets ss (if s.mathFormatting then ms.tail else ms) es.tail

/-- So many runs have data that their mathematical styles are as many as the formulas: the largest
such number. -/
def runCount (styles : List ParagraphStyling) (formulas : Nat) : Nat :=
  (((List.range (styles.length + 1)).filter fun k =>
    (styles.take k).countP (·.mathFormatting) = formulas).getLast?).getD 0

/-- The drawings among embedded objects. -/
def drawings (es : List EmbeddedObject) : List Ink :=
  es.filterMap fun
    | .ink c => some c.ink
    | _ => none

def textTree (t : RichText) : Tree :=
  node 0x0006000E none
    [(Word.lastModifiedTime, .val (some (.u32 0))),
     (Word.textRunFormatting, .many (styleTrees t.textRunFormatting t.embeddedObjects)),
     (Word.textRunIndex, .val (some (u32s t.textRunIndices))),
     (Word.textRunDataObject,
      .many ((drawings t.embeddedObjects).map fun i => inkDataTree i.inkStrokes i.boundingBox)),
     (Word.textRunData, .sets 0x00120001
      (runSets (t.textRunFormatting.take (runCount t.textRunFormatting t.mathInlineObjects.length))
        t.mathInlineObjects t.embeddedObjects) []),
     (Word.paragraphStyle, .one (some (styleTree t.paragraphStyle none))),
     (Word.paragraphSpaceBefore, .val (some (f32 t.paragraphSpaceBefore))),
     (Word.paragraphSpaceAfter, .val (some (f32 t.paragraphSpaceAfter))),
     (Word.paragraphLineSpacingExact, .val (t.paragraphLineSpacingExact.map f32)),
     (Word.paragraphAlignment, .val (some (paragraphAlignment t.paragraphAlignment))),
     (Word.richEditTextUnicode, .val (if nul ∈ t.text then none else some (text t.text))),
     (Word.textExtendedAscii, .val (if nul ∈ t.text then some (latin1 t.text) else none)),
     (Word.layoutAlignmentInParent, .val (t.layoutAlignmentInParent.map layout)),
     (Word.layoutAlignmentSelf, .val (t.layoutAlignmentSelf.map layout)),
     (Word.noteTags, tagsField t.noteTags)]

/-! ### Outlines -/

mutual

def itemTree : OutlineItem → Tree
  | .group ⟨level, items⟩ =>
    node 0x00060019 none
      [(Word.lastModifiedTime, .val (some (.u32 0))),
       (Word.elementChildNodes, .many (itemTrees items)),
       (Word.outlineElementChildLevel, .val (some (.u8 level)))]
  | .element e => elementTree e

def itemTrees : List OutlineItem → List Tree
  | [] => []
  | i :: is => itemTree i :: itemTrees is

def elementTree : OutlineElement → Tree
  | ⟨contents, lists, spacing, level, children⟩ =>
    node 0x0006000D none
      [(Word.creationTimeStamp, .val (some (.u32 0))),
       (Word.lastModifiedTime, .val (some (.u32 0))),
       (Word.elementChildNodes, .many (itemTrees children)),
       (Word.outlineElementChildLevel, .val (some (.u8 level))),
       (Word.contentChildNodes, .many (contentTrees contents)),
       (Word.listNodes, .many (lists.map listTree)),
       (Word.listSpacingMu, .val (spacing.map f32)),
       (Word.authorOriginal, .one (some dummy)),
       (Word.authorMostRecent, .one (some dummy))]

def elementTrees : List OutlineElement → List Tree
  | [] => []
  | e :: es => elementTree e :: elementTrees es

def contentTree : Content → Tree
  | .richText t => textTree t
  | .table ⟨rows, cols, contents, locks, widths, borders, inParent, self, tags⟩ =>
    node 0x00060022 none
      [(Word.lastModifiedTime, .val (some (.u32 0))),
       (Word.elementChildNodes, .many (rowTrees contents)),
       (Word.rowCount, .val (some (.u32 rows))),
       (Word.columnCount, .val (some (.u32 cols))),
       (Word.tableColumnsLocked, .val (some (columnLocks locks))),
       (Word.tableColumnWidths, .val (some (columnWidths widths))),
       (Word.tableBordersVisible, .val (some (.bool borders))),
       (Word.layoutAlignmentInParent, .val (inParent.map layout)),
       (Word.layoutAlignmentSelf, .val (self.map layout)),
       (Word.noteTags, tagsField tags)]
  | .image i => imageTree i
  | .embeddedFile f => fileTree f
  | .ink i => inkTree i
  | .unknown => dummy

def contentTrees : List Content → List Tree
  | [] => []
  | c :: cs => contentTree c :: contentTrees cs

def rowTree : TableRow → Tree
  | ⟨cells⟩ => node 0x00060023 none [(Word.elementChildNodes, .many (cellTrees cells))]

def rowTrees : List TableRow → List Tree
  | [] => []
  | r :: rs => rowTree r :: rowTrees rs

def cellTree : TableCell → Tree
  | ⟨contents, background, width, indentations⟩ =>
    node 0x00060024 none
      [(Word.elementChildNodes, .many (elementTrees contents)),
       (Word.layoutMaxWidth, .val (width.map f32)),
       (Word.rgOutlineIndentDistance, .val (some (indents indentations))),
       (Word.cellBackgroundColor, .val (background.map color))]

def cellTrees : List TableCell → List Tree
  | [] => []
  | c :: cs => cellTree c :: cellTrees cs

end

def outlineTree (o : Outline) : Tree :=
  node 0x0006000C none
    [(Word.lastModifiedTime, .val (some (.u32 0))),
     (Word.elementChildNodes, .many (itemTrees o.items)),
     (Word.outlineElementChildLevel, .val (some (.u8 o.childLevel))),
     (Word.layoutMaxHeight, .val (o.layoutMaxHeight.map f32)),
     (Word.layoutMaxWidth, .val (o.layoutMaxWidth.map f32)),
     (Word.layoutOutlineReservedWidth, .val (o.layoutReservedWidth.map f32)),
     (Word.layoutMinimumOutlineWidth, .val (o.layoutMinimumOutlineWidth.map f32)),
     (Word.isLayoutSizeSetByUser, .val (some (.bool o.isLayoutSizeSetByUser))),
     (Word.offsetFromParentHoriz, .val (o.offsetHorizontal.map f32)),
     (Word.offsetFromParentVert, .val (o.offsetVertical.map f32)),
     (Word.listSpacingMu, .val (o.listSpacing.map f32)),
     (Word.rgOutlineIndentDistance, .val (some (indents o.indents))),
     (Word.layoutAlignmentInParent, .val (o.alignmentInParent.map layout)),
     (Word.layoutAlignmentSelf, .val (o.alignmentSelf.map layout))]

/-! ### Pages -/

def pageContentTree : PageContent → Tree
  | .outline o => outlineTree o
  | .image i => imageTree i
  | .embeddedFile f => fileTree f
  | .ink i => inkTree i
  | .unknown => dummy

def titleTree (t : Title) : Tree :=
  node 0x0006002C none
    [(Word.lastModifiedTime, .val (some (.u32 0))),
     (Word.elementChildNodes, .many (t.contents.map outlineTree)),
     (Word.offsetFromParentHoriz, .val (some (f32 t.offsetHorizontal))),
     (Word.offsetFromParentVert, .val (some (f32 t.offsetVertical))),
     (Word.layoutAlignmentInParent, .val (t.layoutAlignmentInParent.map layout)),
     (Word.layoutAlignmentSelf, .val (t.layoutAlignmentSelf.map layout))]

def pageTree (p : Page) : Tree :=
  node 0x0006000B none
    [(Word.author, .val (p.author.map text)),
     (Word.elementChildNodes, .many (p.contents.map pageContentTree)),
     (Word.structureElementChildNodes, .many (p.title.toList.map titleTree)),
     (Word.pageHeight, .val (p.height.map f32))]

/-- The content and the metadata of a page. -/
def pageTrees (p : Page) : Tree × Tree :=
  (node 0x00060037 none [(Word.contentChildNodes, .many [pageTree p])],
   node 0x00020030 none
    [(Word.notebookManagementEntityGuid, .val (some (Scalar.guid noGuid))),
     (Word.cachedTitleString, .val (some (text []))),
     (Word.pageLevel, .val (some (i32 p.level))),
     (Word.topologyCreationTimeStamp, .val (some (.u64 0)))])

/-! ### Sections -/

/-- The page series, whose pages are the cells from `num` on. -/
def seriesTrees (num : Nat) : List PageSeries → List Tree
  | [] => []
  | s :: ss =>
    node 0x00060008 none
      [(Word.notebookManagementEntityGuid, .val (some (Scalar.guid noGuid))),
       (Word.childGraphSpaceElementNodes, .cells ((List.range' num s.pages.length).map cellId))] ::
    seriesTrees (num + s.pages.length) ss

/-- The content and the metadata of a section. -/
def sectionTrees (s : Section) : Tree × Tree :=
  (node 0x00060007 none
    [(Word.notebookManagementEntityGuid, .val (some (Scalar.guid noGuid))),
     (Word.elementChildNodes, .many (seriesTrees 3 s.pageSeries)),
     (Word.topologyCreationTimeStamp, .val (some (.u64 0)))],
   node 0x00020031 none
    [(Word.schemaRevisionInOrderToRead, .val (some (.u32 0))),
     (Word.schemaRevisionInOrderToWrite, .val (some (.u32 0))),
     (Word.sectionDisplayName, .val (some (text s.displayName))),
     (Word.sectionColor, .val (s.color.map color))])

/-- All pages of a section, with their trees. -/
def allPages (s : Section) : List (Tree × Tree) := (s.pageSeries.flatMap (·.pages)).map pageTrees

/-- The file of a section. -/
def sectionFile (s : Section) : Bytes := treeFile sectionGuid (sectionTrees s) (allPages s)

/-- The limits of the file format for the contents of the data root and of the pages: an object refers to
less than 2²⁴ others and has data of less than 2³² bytes (attachments: 2⁶⁴), and there are less than 2³²
objects. -/
structure WithinLimits (ps : List (Tree × Tree)) : Prop where
  objects : ∀ p ∈ ps, p.1.Short ∧ p.2.Short
  count : (ps.map fun p => p.1.size + p.2.size).sum + 1 < 2 ^ 32

/-- The section is within the limits of the file format. -/
def SectionWithin (s : Section) : Prop := WithinLimits (sectionTrees s :: allPages s)

end OneNote.Spec.Writer
