/-
What a document shows, from the objects it is stored in: every value of the API, with the property it
comes from (see `Spec.Objects`), and which references are followed.
-/
import Verif.Model.Section
import Verif.Spec.Objects

namespace OneNote.Spec.Document

open Fields Objects

/-- `id` is the object `o`. -/
def At (space : ObjectSpace) (id : ExGuid) (o : Object) : Prop := space.getObject id = some o

/-- What an optional reference leads to. -/
def Maybe {α β : Type} (R : α → β → Prop) (a : Option α) (b : Option β) : Prop :=
  (a = none ∧ b = none) ∨ ∃ x y, a = some x ∧ b = some y ∧ R x y

/-! ### Note tags -/

def DefinitionIs (space : ObjectSpace) (id : ExGuid) (d : NoteTagDefinition) : Prop :=
  ∃ o, At space id o ∧ IsNoteTagDefinition o d

structure NoteTagIs (space : ObjectSpace) (n : NoteTagData) (t : NoteTag) : Prop where
  completedAt : t.completedAt = n.completedAt
  itemStatus : t.itemStatus = n.itemStatus
  definition : Maybe (DefinitionIs space) n.definition t.definition

/-! ### Images and files -/

def IFrameIs (space : ObjectSpace) (id : ExGuid) (f : IFrame) : Prop := ∃ o, At space id o ∧ IsIFrame o f

def PictureIs (space : ObjectSpace) (id : ExGuid) (p : PictureContainer) : Prop :=
  ∃ o, At space id o ∧ IsPictureContainer o p

def ImageIs (space : ObjectSpace) (id : ExGuid) (i : Image) : Prop :=
  ∃ o n picture embeds tags, At space id o ∧ IsImageNode o n ∧
    Maybe (PictureIs space) n.pictureContainer picture ∧
    Each (IFrameIs space) n.iframe embeds ∧ Each (NoteTagIs space) n.noteTags tags ∧
    i = { data := picture.map (·.data), extension := picture.bind (·.extension)
          layoutMaxWidth := n.layoutMaxWidth, layoutMaxHeight := n.layoutMaxHeight
          altText := n.altText
          layoutAlignmentInParent := n.layoutAlignmentInParent
          layoutAlignmentSelf := n.layoutAlignmentSelf
          imageFilename := n.imageFilename, displayedPageNumber := n.displayedPageNumber
          text := n.text, textLanguageCode := n.textLanguageCode
          pictureWidth := n.pictureWidth, pictureHeight := n.pictureHeight
          hyperlinkUrl := n.hyperlinkUrl
          offsetHorizontal := n.offsetFromParentHoriz, offsetVertical := n.offsetFromParentVert
          isBackground := n.isBackground, noteTags := tags, embeds := embeds }

def FileIs (space : ObjectSpace) (id : ExGuid) (f : EmbeddedFile) : Prop :=
  ∃ o n container data tags, At space id o ∧ IsEmbeddedFileNode o n ∧
    At space n.embeddedFileContainer container ∧ IsFileContainer container data ∧
    Each (NoteTagIs space) n.noteTags tags ∧
    f = { filename := n.embeddedFileName, fileType := n.fileType, data := data
          layoutMaxWidth := n.layoutMaxWidth, layoutMaxHeight := n.layoutMaxHeight
          offsetHorizontal := n.offsetFromParentHoriz, offsetVertical := n.offsetFromParentVert
          noteTags := tags }

/-! ### Ink -/

/-- The points of a stroke: the numbers of the path are stored dimension by dimension. -/
def PointsAre (numbers : List Int) (dims : List InkDimension) (sx sy : Option F32)
    (points : List InkPoint) : Prop :=
  ∃ i j, Ink.FirstAt dims Ink.xId i ∧ Ink.FirstAt dims Ink.yId j ∧
    points.length = numbers.length / dims.length ∧
    ∀ k, k < numbers.length / dims.length →
      ∃ x y, numbers[numbers.length / dims.length * i + k]? = some x ∧
        numbers[numbers.length / dims.length * j + k]? = some y ∧
        points[k]? = some ⟨.mul (Ink.scale sx) (.ofInt x), .mul (Ink.scale sy) (.ofInt y)⟩

def StrokeIs (space : ObjectSpace) (sx sy : Option F32) (id : ExGuid) (s : InkStroke) : Prop :=
  ∃ o n properties p points, At space id o ∧ IsInkStrokeNode o n ∧
    At space n.properties properties ∧ IsStrokeProperties properties p ∧
    PointsAre n.path p.dimensions sx sy points ∧
    s = { path := points, penTip := p.penTip, transparency := p.transparency
          height := p.inkHeight, width := p.inkWidth, color := p.color }

/-- The box of a drawing from its limits: left, top, right, bottom. -/
def box (sx sy : Option F32) (limits : Nat × Nat × Nat × Nat) : InkBoundingBox :=
  { x := .mul (.ofInt limits.1) (Ink.scale sx)
    y := .mul (.ofInt limits.2.1) (Ink.scale sy)
    width := .mul (.sub (.ofInt limits.2.2.1) (.ofInt limits.1)) (Ink.scale sx)
    height := .mul (.sub (.ofInt limits.2.2.2) (.ofInt limits.2.1)) (Ink.scale sy) }

def InkDataIs (space : ObjectSpace) (id : ExGuid) (sx sy : Option F32) (strokes : List InkStroke)
    (bounds : Option InkBoundingBox) : Prop :=
  ∃ o n, At space id o ∧ IsInkDataNode o n ∧ Each (StrokeIs space sx sy) n.strokes strokes ∧
    bounds = n.boundingBox.map (box sx sy)

def InkIs (space : ObjectSpace) (id : ExGuid) (i : Ink) : Prop :=
  ∃ o n, At space id o ∧ IsInkContainerNode o n ∧
    i.offsetHorizontal = n.offsetFromParentHoriz ∧ i.offsetVertical = n.offsetFromParentVert ∧
    ((n.inkData = none ∧ i.inkStrokes = [] ∧ i.boundingBox = none) ∨
     ∃ data, n.inkData = some data ∧
      InkDataIs space data n.inkScalingX n.inkScalingY i.inkStrokes i.boundingBox)

/-! ### Lists -/

def ListIs (space : ObjectSpace) (id : ExGuid) (l : ListFormat) : Prop :=
  ∃ o n, At space id o ∧ IsNumberListNode o n ∧
    l = { listFont := n.listFont, listRestart := n.listRestart, listFormat := n.listFormat
          bold := n.bold, italic := n.italic, font := n.font, fontSize := n.fontSize
          fontColor := n.fontColor }

/-! ### Rich text -/

def StyleIs (space : ObjectSpace) (id : ExGuid) (n : ParagraphStyleObject) : Prop :=
  ∃ o, At space id o ∧ IsParagraphStyleObject o n

/-- What the API shows of a style. -/
def shown (n : ParagraphStyleObject) : ParagraphStyling :=
  { charset := n.charset, bold := n.bold, italic := n.italic, underline := n.underline
    strikethrough := n.strikethrough, superscript := n.superscript, subscript := n.subscript
    font := n.font, fontSize := n.fontSize, fontColor := n.fontColor, highlight := n.highlight
    nextStyle := n.nextStyle, styleId := n.styleId, paragraphAlignment := n.paragraphAlignment
    paragraphSpaceBefore := n.paragraphSpaceBefore, paragraphSpaceAfter := n.paragraphSpaceAfter
    paragraphLineSpacingExact := n.paragraphLineSpacingExact, languageCode := n.languageCode
    mathFormatting := n.mathFormatting, hyperlink := n.hyperlink }

/-- A part of a formula. -/
def MathIs (o : Object) (m : MathInlineObject) : Prop :=
  ∃ n, IsMathInlineData o n ∧ (n.objectType.getD 0, m.objectType) ∈ Value.mathTypes ∧
    m.argCount = n.argCount.getD 0 ∧ m.column = n.column ∧ m.align = n.align ∧ m.char = n.char ∧
    m.char1 = n.char1 ∧ m.char2 = n.char2

/-- The formulas of the runs: those of the runs whose style is mathematical. -/
inductive Formulas : List (Object × ParagraphStyleObject) → List MathInlineObject → Prop where
  | nil : Formulas [] []
  | formula {o : Object} {style : ParagraphStyleObject} {m : MathInlineObject}
      {runs : List (Object × ParagraphStyleObject)} {ms : List MathInlineObject} :
      style.mathFormatting = true → MathIs o m → Formulas runs ms → Formulas ((o, style) :: runs) (m :: ms)
  | other {o : Object} {style : ParagraphStyleObject}
      {runs : List (Object × ParagraphStyleObject)} {ms : List MathInlineObject} :
      style.mathFormatting = false → Formulas runs ms → Formulas ((o, style) :: runs) ms

/-- The embedded objects of the runs, with their types: those of the runs whose style is embedded. -/
inductive Embedded : List (Object × ParagraphStyleObject) → List (Option Nat × EmbeddedInkData) → Prop where
  | nil : Embedded [] []
  | object {o : Object} {style : ParagraphStyleObject} {d : EmbeddedInkData}
      {runs : List (Object × ParagraphStyleObject)} {ds : List (Option Nat × EmbeddedInkData)} :
      style.textRunIsEmbeddedObject = true → IsEmbeddedInkData o d → Embedded runs ds →
      Embedded ((o, style) :: runs) ((style.textRunObjectType, d) :: ds)
  | other {o : Object} {style : ParagraphStyleObject}
      {runs : List (Object × ParagraphStyleObject)} {ds : List (Option Nat × EmbeddedInkData)} :
      style.textRunIsEmbeddedObject = false → Embedded runs ds → Embedded ((o, style) :: runs) ds

/-- The box of an embedded drawing, if it is stored completely. -/
def BoxIs (d : EmbeddedInkData) (b : Option InkBoundingBox) : Prop :=
  (∃ x y h w, d.startX = some x ∧ d.startY = some y ∧ d.height = some h ∧ d.width = some w ∧
    b = some ⟨.bits x, .bits y, .bits h, .bits w⟩) ∨
  ((d.startX = none ∨ d.startY = none ∨ d.height = none ∨ d.width = none) ∧ b = none)

/-- What the embedded objects are. `all` are the references of the text to drawings and `left` those
that are not used yet: an object without a type takes the next one. -/
inductive EmbeddedAre (space : ObjectSpace) (all : List ExGuid) :
    List ExGuid → List (Option Nat × EmbeddedInkData) → List EmbeddedObject → Prop where
  | nil {left : List ExGuid} : EmbeddedAre space all left [] []
  | lineBreak {left : List ExGuid} {d : EmbeddedInkData} {ds : List (Option Nat × EmbeddedInkData)}
      {es : List EmbeddedObject} : EmbeddedAre space all left ds es →
      EmbeddedAre space all left ((some 0x00020027, d) :: ds) (.inkLineBreak :: es)
  | space {left : List ExGuid} {d : EmbeddedInkData} {ds : List (Option Nat × EmbeddedInkData)}
      {es : List EmbeddedObject} {width height : F32} : d.spaceWidth = some width →
      d.spaceHeight = some height → EmbeddedAre space all left ds es →
      EmbeddedAre space all left ((some 0x00020026, d) :: ds) (.inkSpace ⟨height, width⟩ :: es)
  | ink {id : ExGuid} {left : List ExGuid} {d : EmbeddedInkData}
      {ds : List (Option Nat × EmbeddedInkData)} {es : List EmbeddedObject}
      {strokes : List InkStroke} {bounds b : Option InkBoundingBox} :
      InkDataIs space id none none strokes bounds → BoxIs d b → EmbeddedAre space all left ds es →
      EmbeddedAre space all (id :: left) ((none, d) :: ds)
        (.ink ⟨⟨strokes, bounds, d.offsetHoriz, d.offsetVert⟩, b⟩ :: es)
  | skipped {left : List ExGuid} {d : EmbeddedInkData} {ds : List (Option Nat × EmbeddedInkData)}
      {es : List EmbeddedObject} : all = [] → EmbeddedAre space all left ds es →
      EmbeddedAre space all left ((none, d) :: ds) es

def TextIs (space : ObjectSpace) (id : ExGuid) (t : RichText) : Prop :=
  ∃ o n paragraph styles inners embedded tags, At space id o ∧ IsRichTextNode o n ∧
    StyleIs space n.paragraphStyle paragraph ∧ Each (StyleIs space) n.textRunFormatting styles ∧
    Nested o Word.textRunData inners ∧
    Formulas (inners.zip styles) t.mathInlineObjects ∧ Embedded (inners.zip styles) embedded ∧
    EmbeddedAre space n.textRunDataObject n.textRunDataObject embedded t.embeddedObjects ∧
    Each (NoteTagIs space) n.noteTags tags ∧
    -- the text is not shown beside embedded objects
    (t.embeddedObjects = [] → t.text = n.text.getD []) ∧ (t.embeddedObjects ≠ [] → t.text = []) ∧
    t = { t with
          textRunFormatting := styles.map shown, textRunIndices := n.textRunIndices
          paragraphStyle := shown paragraph
          paragraphSpaceBefore := n.paragraphSpaceBefore
          paragraphSpaceAfter := n.paragraphSpaceAfter
          paragraphLineSpacingExact := n.paragraphLineSpacingExact
          paragraphAlignment := n.paragraphAlignment
          layoutAlignmentInParent := n.layoutAlignmentInParent
          layoutAlignmentSelf := n.layoutAlignmentSelf, noteTags := tags }

/-! ### Outlines -/

mutual

inductive ItemIs (space : ObjectSpace) : ExGuid → OutlineItem → Prop where
  | group {id : ExGuid} {o : Object} {n : OutlineGroupNode} {items : List OutlineItem} :
      At space id o → IsOutlineGroupNode o n → Each (ItemIs space) n.children items →
      ItemIs space id (.group ⟨n.childLevel, items⟩)
  | element {id : ExGuid} {e : OutlineElement} : ElementIs space id e → ItemIs space id (.element e)

inductive ElementIs (space : ObjectSpace) : ExGuid → OutlineElement → Prop where
  | mk {id : ExGuid} {o : Object} {n : OutlineElementNode} {children : List OutlineItem}
      {contents : List Content} {lists : List ListFormat} :
      At space id o → IsOutlineElementNode o n → Each (ItemIs space) n.children children →
      Each (ContentIs space) n.contents contents → Each (ListIs space) n.listContents lists →
      ElementIs space id ⟨contents, lists, n.listSpacing, n.childLevel, children⟩

inductive ContentIs (space : ObjectSpace) : ExGuid → Content → Prop where
  | image {id : ExGuid} {i : Image} : ImageIs space id i → ContentIs space id (.image i)
  | file {id : ExGuid} {f : EmbeddedFile} : FileIs space id f → ContentIs space id (.embeddedFile f)
  | text {id : ExGuid} {t : RichText} : TextIs space id t → ContentIs space id (.richText t)
  | ink {id : ExGuid} {i : Ink} : InkIs space id i → ContentIs space id (.ink i)
  | table {id : ExGuid} {o : Object} {n : TableNode} {rows : List TableRow} {tags : List NoteTag} :
      At space id o → IsTableNode o n → Each (RowIs space) n.rows rows →
      Each (NoteTagIs space) n.noteTags tags →
      ContentIs space id (.table ⟨n.rowCount, n.colCount, rows, n.colsLocked, n.colWidths,
        n.bordersVisible, n.layoutAlignmentInParent, n.layoutAlignmentSelf, tags⟩)
  | unknown {id : ExGuid} {o : Object} : At space id o → o.jcId ∈ kinds → o.jcId ≠ 0x00060011 →
      o.jcId ≠ 0x00060035 → o.jcId ≠ 0x0006000E → o.jcId ≠ 0x00060014 → o.jcId ≠ 0x00060022 →
      ContentIs space id .unknown

inductive RowIs (space : ObjectSpace) : ExGuid → TableRow → Prop where
  | mk {id : ExGuid} {o : Object} {n : TableRowNode} {cells : List TableCell} :
      At space id o → IsTableRowNode o n → Each (CellIs space) n.cells cells → RowIs space id ⟨cells⟩

inductive CellIs (space : ObjectSpace) : ExGuid → TableCell → Prop where
  | mk {id : ExGuid} {o : Object} {n : TableCellNode} {elements : List OutlineElement} :
      At space id o → IsTableCellNode o n → Each (ElementIs space) n.contents elements →
      CellIs space id ⟨elements, n.backgroundColor, n.layoutMaxWidth, n.outlineIndentDistance⟩

end

def OutlineIs (space : ObjectSpace) (id : ExGuid) (outline : Outline) : Prop :=
  ∃ o n items, At space id o ∧ IsOutlineNode o n ∧ Each (ItemIs space) n.children items ∧
    outline =
      { items := items, childLevel := n.childLevel, listSpacing := n.listSpacing
        indents := n.outlineIndentDistance
        alignmentInParent := n.layoutAlignmentInParent, alignmentSelf := n.layoutAlignmentSelf
        layoutMaxHeight := n.layoutMaxHeight, layoutMaxWidth := n.layoutMaxWidth
        layoutReservedWidth := n.layoutReservedWidth
        layoutMinimumOutlineWidth := n.layoutMinimumOutlineWidth
        isLayoutSizeSetByUser := n.isLayoutSizeSetByUser
        offsetHorizontal := n.offsetFromParentHoriz, offsetVertical := n.offsetFromParentVert }

/-! ### Pages -/

inductive PageContentIs (space : ObjectSpace) (id : ExGuid) : PageContent → Prop where
  | image {i : Image} : ImageIs space id i → PageContentIs space id (.image i)
  | file {f : EmbeddedFile} : FileIs space id f → PageContentIs space id (.embeddedFile f)
  | outline {o : Outline} : OutlineIs space id o → PageContentIs space id (.outline o)
  | ink {i : Ink} : InkIs space id i → PageContentIs space id (.ink i)
  | unknown {o : Object} : At space id o → o.jcId ∈ kinds → o.jcId ≠ 0x00060011 →
      o.jcId ≠ 0x00060035 → o.jcId ≠ 0x0006000C → o.jcId ≠ 0x00060014 →
      PageContentIs space id .unknown

def TitleIs (space : ObjectSpace) (id : ExGuid) (t : Title) : Prop :=
  ∃ o n contents, At space id o ∧ IsTitleNode o n ∧ Each (OutlineIs space) n.children contents ∧
    t = { contents := contents, offsetHorizontal := n.offsetHorizontal
          offsetVertical := n.offsetVertical
          layoutAlignmentInParent := n.layoutAlignmentInParent
          layoutAlignmentSelf := n.layoutAlignmentSelf }

/-- A page: its metadata and its manifest are the roots of its object space. -/
def PageIs (space : ObjectSpace) (p : Page) : Prop :=
  ∃ info m metadata manifest k page o n title contents,
    space.roots.get? .metadata = some info ∧ At space info m ∧ IsPageMetadata m metadata ∧
    space.roots.get? .defaultContent = some manifest ∧ At space manifest k ∧ IsPageManifest k page ∧
    At space page o ∧ IsPageNode o n ∧ Maybe (TitleIs space) n.title title ∧
    Each (PageContentIs space) n.content contents ∧
    p = { title := title, level := metadata.pageLevel, author := n.author, height := n.pageHeight
          contents := contents }

/-! ### Sections -/

def SeriesIs (store : Store) (id : ExGuid) (s : PageSeries) : Prop :=
  ∃ o n, At store.dataRoot id o ∧ IsPageSeriesNode o n ∧
    Each (fun cell page => ∃ space, store.objectSpace cell = some space ∧ PageIs space page)
      n.pageSpaces s.pages

/-- The name without any `.one` at its end. -/
def Stripped (name shown : Text) : Prop :=
  (∃ k, name = shown ++ (List.replicate k ['.', 'o', 'n', 'e']).flatten) ∧
  ¬ ∃ s, shown = s ++ ['.', 'o', 'n', 'e']

/-- A section: its metadata and its contents are the roots of the first object space. The name is
the stored one, otherwise that of the file. -/
def SectionIs (store : Store) (filename : Text) (s : Section) : Prop :=
  ∃ info m metadata root o n,
    store.dataRoot.roots.get? .metadata = some info ∧ At store.dataRoot info m ∧ IsSectionMetadata m metadata ∧
    store.dataRoot.roots.get? .defaultContent = some root ∧ At store.dataRoot root o ∧ IsSectionNode o n ∧
    Stripped (metadata.displayName.getD filename) s.displayName ∧
    Each (SeriesIs store) n.pageSeries s.pageSeries ∧ s.color = metadata.color

end OneNote.Spec.Document
