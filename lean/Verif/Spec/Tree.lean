/-
What a parsed document looks like, in terms of the objects and references of the file: which object
every part of the document comes from, in which order.
-/
import Verif.Model.Section
import Verif.Spec.Each

namespace OneNote.Spec

/-- `id` is an object of the kind `jcid` ([MS-ONE] 2.1.13). -/
def Kind (space : ObjectSpace) (id : ExGuid) (o : Object) (jcid : Nat) : Prop :=
  space.getObject id = some o ∧ o.jcId = jcid

/-- The references of the property `t` of an object (see `C17`), none if it does not have the
property. -/
def References (o : Object) (t : PropertyType) (ids : List ExGuid) : Prop :=
  ObjectReference.parseVec t o = .ok (some ids) ∨ (o.props.get t = none ∧ ids = [])

/-- The references of the property `t` of an object to cells (see `C18`). -/
def CellReferences (o : Object) (t : PropertyType) (ids : List CellId) : Prop :=
  ObjectSpaceReference.parseVec t o = .ok (some ids) ∨ (o.props.get t = none ∧ ids = [])

/-- The ink of an object: its strokes are those of the ink data node's references. -/
inductive InkAt (space : ObjectSpace) (id : ExGuid) (ink : Ink) : Prop where
  | empty (o : Object) : Kind space id o 0x00060014 → o.props.get .inkData = none ∨
      ObjectReference.parse .inkData o = .ok none → ink.inkStrokes = [] → InkAt space id ink
  | strokes (o d : Object) (data : ExGuid) (ids : List ExGuid) (scaleX scaleY : Option F32) :
      Kind space id o 0x00060014 → ObjectReference.parse .inkData o = .ok (some data) →
      Kind space data d 0x0002003B → References d .inkStrokes ids →
      Each (fun id stroke => parseInkStroke space scaleX scaleY id = .ok stroke) ids ink.inkStrokes →
      InkAt space id ink

/-- The text of an object: the formatting of its runs is that of its references. -/
def TextAt (space : ObjectSpace) (id : ExGuid) (t : RichText) : Prop :=
  parseRichText space id = .ok t ∧ ∃ o ids, Kind space id o 0x0006000E ∧
    References o .textRunFormatting ids ∧
    Each (fun id style => ∃ d, parseStyleObject space id = .ok d ∧ style = parseStyle d) ids
      t.textRunFormatting

/-- An image: its embedded web contents are those of its references. -/
def ImageAt (space : ObjectSpace) (id : ExGuid) (i : Image) : Prop :=
  parseImage space id = .ok i ∧ ∃ o ids, Kind space id o 0x00060011 ∧
    References o .contentChildNodes ids ∧
    Each (fun id frame => parseIFrame space id = .ok frame) ids i.embeds

mutual

/-- An item of an outline. -/
inductive ItemAt (space : ObjectSpace) : ExGuid → OutlineItem → Prop where
  | group {id : ExGuid} {o : Object} {ids : List ExGuid} {d : OutlineGroupNode}
      {items : List OutlineItem} :
      Kind space id o 0x00060019 → OutlineGroupNode.parse o = .ok d →
      References o .elementChildNodes ids → Each (ItemAt space) ids items →
      ItemAt space id (.group ⟨d.childLevel, items⟩)
  | element {id : ExGuid} {e : OutlineElement} : ElementAt space id e → ItemAt space id (.element e)

/-- An outline element: nested items, contents and list formats. -/
inductive ElementAt (space : ObjectSpace) : ExGuid → OutlineElement → Prop where
  | mk {id : ExGuid} {o : Object} {ids cs ls : List ExGuid} {d : OutlineElementNode}
      {children : List OutlineItem} {contents : List Content} {lists : List ListFormat} :
      Kind space id o 0x0006000D → OutlineElementNode.parse o = .ok d →
      References o .elementChildNodes ids → Each (ItemAt space) ids children →
      References o .contentChildNodes cs → Each (ContentAt space) cs contents →
      References o .listNodes ls → Each (fun id l => parseList space id = .ok l) ls lists →
      ElementAt space id ⟨contents, lists, d.listSpacing, d.childLevel, children⟩

/-- A content of an outline element. -/
inductive ContentAt (space : ObjectSpace) : ExGuid → Content → Prop where
  | image {id : ExGuid} {i : Image} : ImageAt space id i → ContentAt space id (.image i)
  | file {id : ExGuid} {o : Object} {f : EmbeddedFile} :
      Kind space id o 0x00060035 → parseEmbeddedFile space id = .ok f →
      ContentAt space id (.embeddedFile f)
  | text {id : ExGuid} {t : RichText} : TextAt space id t → ContentAt space id (.richText t)
  | ink {id : ExGuid} {i : Ink} : parseInk space id = .ok i → InkAt space id i →
      ContentAt space id (.ink i)
  | table {id : ExGuid} {o : Object} {ids : List ExGuid} {d : TableNode} {rows : List TableRow}
      {tags : List NoteTag} :
      Kind space id o 0x00060022 → TableNode.parse o = .ok d → References o .elementChildNodes ids →
      Each (RowAt space) ids rows → Each (fun d t => parseNoteTag space d = .ok t) d.noteTags tags →
      ContentAt space id (.table ⟨d.rowCount, d.colCount, rows, d.colsLocked, d.colWidths,
        d.bordersVisible, d.layoutAlignmentInParent, d.layoutAlignmentSelf, tags⟩)
  | unknown {id : ExGuid} {o : Object} {jcid : Nat} : Kind space id o jcid →
      jcid ≠ 0x00060011 → jcid ≠ 0x00060035 → jcid ≠ 0x0006000E → jcid ≠ 0x00060014 →
      jcid ≠ 0x00060022 → ContentAt space id .unknown

/-- A row of a table. -/
inductive RowAt (space : ObjectSpace) : ExGuid → TableRow → Prop where
  | mk {id : ExGuid} {o : Object} {ids : List ExGuid} {cells : List TableCell} :
      Kind space id o 0x00060023 → References o .elementChildNodes ids →
      Each (CellAt space) ids cells → RowAt space id ⟨cells⟩

/-- A cell of a table. -/
inductive CellAt (space : ObjectSpace) : ExGuid → TableCell → Prop where
  | mk {id : ExGuid} {o : Object} {ids : List ExGuid} {d : TableCellNode}
      {elements : List OutlineElement} :
      Kind space id o 0x00060024 → TableCellNode.parse o = .ok d →
      References o .elementChildNodes ids → Each (ElementAt space) ids elements →
      CellAt space id ⟨elements, d.backgroundColor, d.layoutMaxWidth, d.outlineIndentDistance⟩

end

/-- An outline. -/
def OutlineAt (space : ObjectSpace) (id : ExGuid) (outline : Outline) : Prop :=
  ∃ o ids, Kind space id o 0x0006000C ∧ References o .elementChildNodes ids ∧
    Each (ItemAt space) ids outline.items

/-- A content of a page. -/
inductive PageContentAt (space : ObjectSpace) (id : ExGuid) : PageContent → Prop where
  | image {i : Image} : ImageAt space id i → PageContentAt space id (.image i)
  | file {o : Object} {f : EmbeddedFile} : Kind space id o 0x00060035 →
      parseEmbeddedFile space id = .ok f → PageContentAt space id (.embeddedFile f)
  | outline {outline : Outline} : OutlineAt space id outline →
      PageContentAt space id (.outline outline)
  | ink {i : Ink} : parseInk space id = .ok i → InkAt space id i → PageContentAt space id (.ink i)
  | unknown {o : Object} {jcid : Nat} : Kind space id o jcid → jcid ≠ 0x00060011 →
      jcid ≠ 0x00060035 → jcid ≠ 0x0006000C → jcid ≠ 0x00060014 → PageContentAt space id .unknown

/-- The title of a page is the first of its structure elements; it consists of outlines. -/
def TitleAt (space : ObjectSpace) (page : Object) (title : Option Title) : Prop :=
  ∃ ids, References page .structureElementChildNodes ids ∧
    ((ids = [] ∧ title = none) ∨ ∃ id rest t o os, ids = id :: rest ∧ title = some t ∧
      Kind space id o 0x0006002C ∧ References o .elementChildNodes os ∧
      Each (OutlineAt space) os t.contents)

/-- A page: the page object is the first reference of the content root of its object space. -/
def PageIn (space : ObjectSpace) (page : Page) : Prop :=
  ∃ root manifest id rest o ids, space.roots.get? .defaultContent = some root ∧
    Kind space root manifest 0x00060037 ∧ References manifest .contentChildNodes (id :: rest) ∧
    Kind space id o 0x0006000B ∧ TitleAt space o page.title ∧ References o .elementChildNodes ids ∧
    Each (PageContentAt space) ids page.contents

/-- A page series: its pages are the object spaces of its references. -/
def SeriesAt (store : Store) (id : ExGuid) (series : PageSeries) : Prop :=
  ∃ o cells, Kind store.dataRoot id o 0x00060008 ∧
    CellReferences o .childGraphSpaceElementNodes cells ∧
    Each (fun cell page => ∃ space, store.objectSpace cell = some space ∧ PageIn space page) cells
      series.pages

/-- A section: its page series are the references of the content root. -/
def SectionIn (store : Store) (s : Section) : Prop :=
  ∃ root o ids, store.dataRoot.roots.get? .defaultContent = some root ∧ Kind store.dataRoot root o 0x00060007 ∧
    References o .elementChildNodes ids ∧ Each (SeriesAt store) ids s.pageSeries

end OneNote.Spec
