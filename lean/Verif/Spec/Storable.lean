/-
Which documents the file format can store: what their numbers and texts may be. Nothing here mentions
files.
-/
import Verif.Spec.Document

namespace OneNote.Spec.Storable

/-- `P` holds of the value, if there is one. -/
def Opt {α : Type} (P : α → Prop) (x : Option α) : Prop := ∀ a, x = some a → P a

/-- An unsigned number of so many bits. -/
def Bits (k n : Nat) : Prop := n < 2 ^ k

instance (k n : Nat) : Decidable (Bits k n) := inferInstanceAs (Decidable (n < 2 ^ k))

/-- A text without NUL. -/
def Plain (t : Text) : Prop := nul ∉ t

instance (t : Text) : Decidable (Plain t) := inferInstanceAs (Decidable (nul ∉ t))

structure ColorOk (c : Color) : Prop where
  alpha : c.alpha < 256
  r : c.r < 256
  g : c.g < 256
  b : c.b < 256

def ColorRefOk : ColorRef → Prop
  | .auto => True
  | .manual r g b => r < 256 ∧ g < 256 ∧ b < 256

/-! ### Note tags -/

structure DefinitionOk (d : NoteTagDefinition) : Prop where
  label : Plain d.label
  highlightColor : Opt ColorRefOk d.highlightColor
  textColor : Opt ColorRefOk d.textColor
  actionItemType : ∀ n, d.actionItemType = .numeric n → n ≤ 99

structure TagsOk (tags : List NoteTag) : Prop where
  completedAt : ∀ t ∈ tags, Opt (Bits 32) t.completedAt
  definition : ∀ t ∈ tags, Opt DefinitionOk t.definition

/-! ### Images and files -/

structure IFrameOk (f : IFrame) : Prop where
  embedType : Opt (Bits 32) f.embedType
  sourceUrl : Plain f.sourceUrl

structure ImageOk (i : Image) : Prop where
  extension : Opt Plain i.extension
  /-- the extension is stored with the data -/
  data : i.data = none → i.extension = none
  layoutMaxWidth : Opt (Bits 32) i.layoutMaxWidth
  layoutMaxHeight : Opt (Bits 32) i.layoutMaxHeight
  altText : Opt Plain i.altText
  imageFilename : Opt Plain i.imageFilename
  displayedPageNumber : Opt (Bits 32) i.displayedPageNumber
  text : Opt Plain i.text
  textLanguageCode : Opt (Bits 16) i.textLanguageCode
  pictureWidth : Opt (Bits 32) i.pictureWidth
  pictureHeight : Opt (Bits 32) i.pictureHeight
  hyperlinkUrl : Opt Plain i.hyperlinkUrl
  offsetHorizontal : Opt (Bits 32) i.offsetHorizontal
  offsetVertical : Opt (Bits 32) i.offsetVertical
  noteTags : TagsOk i.noteTags
  embeds : ∀ f ∈ i.embeds, IFrameOk f

structure FileOk (f : EmbeddedFile) : Prop where
  filename : Plain f.filename
  layoutMaxWidth : Opt (Bits 32) f.layoutMaxWidth
  layoutMaxHeight : Opt (Bits 32) f.layoutMaxHeight
  offsetHorizontal : Opt (Bits 32) f.offsetHorizontal
  offsetVertical : Opt (Bits 32) f.offsetVertical
  noteTags : TagsOk f.noteTags

/-! ### Ink -/

/-- A point: whole numbers of 63 bits and a sign, scaled. -/
def PointOk (scale : F32) (p : InkPoint) : Prop :=
  ∃ x y : Int, x.natAbs < 2 ^ 63 ∧ y.natAbs < 2 ^ 63 ∧
    p = ⟨.mul (.bits scale) (.ofInt x), .mul (.bits scale) (.ofInt y)⟩

structure StrokeOk (scale : F32) (s : InkStroke) : Prop where
  points : ∀ p ∈ s.path, PointOk scale p
  length : s.path.length < 2 ^ 32
  penTip : Opt (Bits 8) s.penTip
  transparency : Opt (Bits 8) s.transparency
  height : Bits 32 s.height
  width : Bits 32 s.width
  color : Opt (Bits 32) s.color

/-- The box of a drawing: from its limits, scaled. -/
def BoxOk (scale : F32) (b : InkBoundingBox) : Prop :=
  ∃ left top right bottom, Bits 32 left ∧ Bits 32 top ∧ Bits 32 right ∧ Bits 32 bottom ∧
    b = Document.box (some scale) (some scale) (left, top, right, bottom)

/-- A drawing with the given scale. -/
structure DrawingOk (scale : F32) (i : Ink) : Prop where
  bits : Bits 32 scale
  strokes : ∀ s ∈ i.inkStrokes, StrokeOk scale s
  boundingBox : Opt (BoxOk scale) i.boundingBox
  offsetHorizontal : Opt (Bits 32) i.offsetHorizontal
  offsetVertical : Opt (Bits 32) i.offsetVertical

/-- There is one scale for a drawing (this is the finding of `C30`). -/
def InkOk (i : Ink) : Prop := ∃ scale, DrawingOk scale i

/-! ### Lists -/

structure ListOk (l : ListFormat) : Prop where
  listFont : Opt Plain l.listFont
  listRestart : Opt (fun i => -2 ^ 31 ≤ i ∧ i < 2 ^ 31) l.listRestart
  font : Opt Plain l.font
  fontSize : Opt (Bits 16) l.fontSize
  fontColor : Opt ColorRefOk l.fontColor

/-! ### Rich text -/

structure StyleOk (s : ParagraphStyling) : Prop where
  font : Opt Plain s.font
  fontSize : Opt (Bits 16) s.fontSize
  fontColor : Opt ColorRefOk s.fontColor
  highlight : Opt ColorRefOk s.highlight
  nextStyle : Opt Plain s.nextStyle
  styleId : Opt Plain s.styleId
  paragraphSpaceBefore : Opt (Bits 32) s.paragraphSpaceBefore
  paragraphSpaceAfter : Opt (Bits 32) s.paragraphSpaceAfter
  paragraphLineSpacingExact : Opt (Bits 32) s.paragraphLineSpacingExact
  languageCode : Opt (Bits 32) s.languageCode

/-- A part of a formula. Its characters are single UTF-16 units. -/
structure MathOk (m : MathInlineObject) : Prop where
  argCount : Bits 32 m.argCount
  column : Opt (Bits 8) m.column
  align : Opt (Bits 8) m.align
  char : Opt (fun c => Bits 16 c.toNat) m.char
  char1 : Opt (fun c => Bits 16 c.toNat) m.char1
  char2 : Opt (fun c => Bits 16 c.toNat) m.char2

/-- The box of an embedded drawing: four stored numbers. -/
def PlaceOk (b : InkBoundingBox) : Prop :=
  ∃ x y h w, Bits 32 x ∧ Bits 32 y ∧ Bits 32 h ∧ Bits 32 w ∧ b = ⟨.bits x, .bits y, .bits h, .bits w⟩

/-- An embedded object. A drawing is not scaled. -/
def EmbeddedOk : EmbeddedObject → Prop
  | .ink c => DrawingOk 0x3F800000 c.ink ∧ Opt PlaceOk c.boundingBox
  | .inkSpace s => Bits 32 s.height ∧ Bits 32 s.width
  | .inkLineBreak => True

structure TextOk (t : RichText) : Prop where
  /-- a text with NUL is stored in Latin-1 -/
  text : nul ∈ t.text → ∀ c ∈ t.text, c.toNat < 256
  /-- the text is not shown beside embedded objects -/
  embedded : t.embeddedObjects ≠ [] → t.text = []
  styles : ∀ s ∈ t.textRunFormatting, StyleOk s
  indices : ∀ n ∈ t.textRunIndices, Bits 32 n
  paragraphStyle : StyleOk t.paragraphStyle
  paragraphSpaceBefore : Bits 32 t.paragraphSpaceBefore
  paragraphSpaceAfter : Bits 32 t.paragraphSpaceAfter
  paragraphLineSpacingExact : Opt (Bits 32) t.paragraphLineSpacingExact
  noteTags : TagsOk t.noteTags
  embeddedObjects : ∀ e ∈ t.embeddedObjects, EmbeddedOk e
  mathInlineObjects : ∀ m ∈ t.mathInlineObjects, MathOk m
  /-- the first runs have data: a part of a formula for each mathematical style, and the embedded
  objects -/
  runs : ∃ k, k ≤ t.textRunFormatting.length ∧
    (t.textRunFormatting.take k).countP (·.mathFormatting) = t.mathInlineObjects.length ∧
    t.embeddedObjects.length ≤ k

/-! ### Outlines -/

/-- Indentations: at most 255 numbers. -/
def IndentsOk (ns : List F32) : Prop := ns.length < 2 ^ 8 ∧ ∀ n ∈ ns, Bits 32 n

mutual

inductive ItemOk : OutlineItem → Prop where
  | group {level : Nat} {items : List OutlineItem} : Bits 8 level → (∀ i ∈ items, ItemOk i) →
      ItemOk (.group ⟨level, items⟩)
  | element {e : OutlineElement} : ElementOk e → ItemOk (.element e)

inductive ElementOk : OutlineElement → Prop where
  | mk {contents : List Content} {lists : List ListFormat} {spacing : Option F32} {level : Nat}
      {children : List OutlineItem} : (∀ c ∈ contents, ContentOk c) → (∀ l ∈ lists, ListOk l) →
      Opt (Bits 32) spacing → Bits 8 level → (∀ i ∈ children, ItemOk i) →
      ElementOk ⟨contents, lists, spacing, level, children⟩

inductive ContentOk : Content → Prop where
  | richText {t : RichText} : TextOk t → ContentOk (.richText t)
  | table {rows cols : Nat} {contents : List TableRow} {locks : Bytes} {widths : List F32}
      {borders : Bool} {inParent self : Option LayoutAlignment} {tags : List NoteTag} :
      Bits 32 rows → Bits 32 cols → (∀ r ∈ contents, RowOk r) → (∀ w ∈ widths, Bits 32 w) →
      TagsOk tags →
      ContentOk (.table ⟨rows, cols, contents, locks, widths, borders, inParent, self, tags⟩)
  | image {i : Image} : ImageOk i → ContentOk (.image i)
  | embeddedFile {f : EmbeddedFile} : FileOk f → ContentOk (.embeddedFile f)
  | ink {i : Ink} : InkOk i → ContentOk (.ink i)
  | unknown : ContentOk .unknown

inductive RowOk : TableRow → Prop where
  | mk {cells : List TableCell} : (∀ c ∈ cells, CellOk c) → RowOk ⟨cells⟩

inductive CellOk : TableCell → Prop where
  | mk {contents : List OutlineElement} {background : Option Color} {width : Option F32}
      {indents : List F32} : (∀ e ∈ contents, ElementOk e) → Opt ColorOk background →
      Opt (Bits 32) width → IndentsOk indents → CellOk ⟨contents, background, width, indents⟩

end

structure OutlineOk (o : Outline) : Prop where
  childLevel : Bits 8 o.childLevel
  listSpacing : Opt (Bits 32) o.listSpacing
  indents : IndentsOk o.indents
  layoutMaxHeight : Opt (Bits 32) o.layoutMaxHeight
  layoutMaxWidth : Opt (Bits 32) o.layoutMaxWidth
  layoutReservedWidth : Opt (Bits 32) o.layoutReservedWidth
  layoutMinimumOutlineWidth : Opt (Bits 32) o.layoutMinimumOutlineWidth
  offsetHorizontal : Opt (Bits 32) o.offsetHorizontal
  offsetVertical : Opt (Bits 32) o.offsetVertical
  items : ∀ i ∈ o.items, ItemOk i

/-! ### Pages and sections -/

def PageContentOk : PageContent → Prop
  | .outline o => OutlineOk o
  | .image i => ImageOk i
  | .embeddedFile f => FileOk f
  | .ink i => InkOk i
  | .unknown => True

structure TitleOk (t : Title) : Prop where
  contents : ∀ o ∈ t.contents, OutlineOk o
  offsetHorizontal : Bits 32 t.offsetHorizontal
  offsetVertical : Bits 32 t.offsetVertical

structure PageOk (p : Page) : Prop where
  title : Opt TitleOk p.title
  level : -2 ^ 31 ≤ p.level ∧ p.level < 2 ^ 31
  author : Opt Plain p.author
  height : Opt (Bits 32) p.height
  contents : ∀ c ∈ p.contents, PageContentOk c

/-- A section. Its name does not end with `.one`. -/
structure SectionOk (s : Section) : Prop where
  pages : ∀ series ∈ s.pageSeries, ∀ p ∈ series.pages, PageOk p
  color : Opt ColorOk s.color
  plain : Plain s.displayName
  stripped : ¬ ∃ t, s.displayName = t ++ ['.', 'o', 'n', 'e']

end OneNote.Spec.Storable
