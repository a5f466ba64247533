/-
Pages, page series and sections.

Models /repo/src/onenote/{page,page_content,page_series,section}.rs and
`Parser::parse_section_buffer`.
-/
import Verif.Model.Outline

namespace OneNote

/-! ### Page contents (/repo/src/onenote/page_content.rs) -/

/-- `PageContent`, page_content.rs L12-23. -/
inductive PageContent where
  | outline (o : Outline)
  | image (i : Image)
  | embeddedFile (f : EmbeddedFile)
  | ink (i : Ink)
  | unknown

/-- `parse_page_content`, page_content.rs L63-85. -/
def parsePageContent (fuel : Nat) (space : ObjectSpace) (id : ExGuid) : Res PageContent := do
  match ← space.propertySetId id with
  | .imageNode => PageContent.image <$> parseImage space id
  | .embeddedFileNode => PageContent.embeddedFile <$> parseEmbeddedFile space id
  | .outlineNode => PageContent.outline <$> parseOutline fuel space id
  | .inkContainer => PageContent.ink <$> parseInk space id
  | _ => pure .unknown

/-! ### Pages (/repo/src/onenote/page.rs) -/

/-- `Title`, page.rs L97-103. -/
structure Title where
  contents : List Outline
  offsetHorizontal : F32
  offsetVertical : F32
  layoutAlignmentInParent : Option LayoutAlignment
  layoutAlignmentSelf : Option LayoutAlignment

/-- `Page`, page.rs L16-22. -/
structure Page where
  title : Option Title
  level : Int
  author : Option Text
  height : Option F32
  contents : List PageContent

/-- `OutlineItem::element`, /repo/src/onenote/outline.rs L161-167. -/
def OutlineItem.element? : OutlineItem → Option OutlineElement
  | .element e => some e
  | .group _ => none

/-- `Content::rich_text`, /repo/src/onenote/content.rs L35-41. -/
def Content.richText? : Content → Option RichText
  | .richText t => some t
  | _ => none

/-- `PageContent::outline`, page_content.rs L27-33. -/
def PageContent.outline? : PageContent → Option Outline
  | .outline o => some o
  | _ => none

/-- `Page::outline_text`, page.rs L79-87. -/
def Outline.text (o : Outline) : Option Text := do
  let item ← o.items.head?
  let element ← item.element?
  let content ← element.contents.head?
  let text ← content.richText?
  if text.text.isEmpty then none else some text.text

/-- `Page::title_text`, page.rs L65-77. -/
def Page.titleText (p : Page) : Option Text :=
  (p.title.bind fun t => t.contents.head?.bind Outline.text).or
    (((p.contents.filterMap PageContent.outline?).filterMap Outline.text).head?)

/-- `parse_title`, page.rs L175-193. -/
def parseTitle (fuel : Nat) (space : ObjectSpace) (id : ExGuid) : Res Title := do
  let object ← space.object id
  let title ← TitleNode.parse object
  let contents ← title.children.mapM (parseOutline fuel space)
  pure { contents, offsetHorizontal := title.offsetHorizontal
         offsetVertical := title.offsetVertical
         layoutAlignmentInParent := title.layoutAlignmentInParent
         layoutAlignmentSelf := title.layoutAlignmentSelf }

/-- `space.content_root().ok_or_else(..)?` and `space.get_object(..).ok_or_else(..)?`,
page.rs L205-210, /repo/src/onenote/section.rs L89-94. -/
def ObjectSpace.contentObject (space : ObjectSpace) : Res Object := do
  let id ← orErr .malformedOneNote space.contentRoot
  space.object id

/-- `space.metadata_root().ok_or_else(..)?` and `space.get_object(..).ok_or_else(..)?`,
page.rs L216-221, /repo/src/onenote/section.rs L100-105. -/
def ObjectSpace.metadataObject (space : ObjectSpace) : Res Object := do
  let id ← orErr .malformedOneNote space.metadataRoot
  space.object id

/-- `parse_metadata`, page.rs L215-224. -/
def parsePageMetadata (space : ObjectSpace) : Res PageMetadata := do
  let object ← space.metadataObject
  PageMetadata.parse object

/-- `parse_manifest`, page.rs L204-213. -/
def parsePageManifest (space : ObjectSpace) : Res ExGuid := do
  let object ← space.contentObject
  PageManifestNode.parse object

/-- `parse_data`, page.rs L195-202. -/
def parsePageData (space : ObjectSpace) (page : ExGuid) : Res PageNode := do
  let object ← space.object page
  PageNode.parse object

/-- `parse_page`, page.rs L148-173. -/
def parsePage (fuel : Nat) (space : ObjectSpace) : Res Page := do
  let metadata ← parsePageMetadata space
  let manifest ← parsePageManifest space
  let data ← parsePageData space manifest
  let title ← optM (parseTitle fuel space) data.title
  let contents ← data.content.mapM (parsePageContent fuel space)
  pure { title, level := metadata.pageLevel, author := data.author, height := data.pageHeight
         contents }

/-! ### Page series (/repo/src/onenote/page_series.rs) -/

/-- `PageSeries`, page_series.rs L14-16. -/
structure PageSeries where
  pages : List Page

/-- The two closures of page_series.rs L35-40. -/
def parsePageSpace (fuel : Nat) (store : Store) (id : CellId) : Res Page := do
  let space ← orErr .malformedOneNote (store.objectSpace id)
  parsePage fuel space

/-- `parse_page_series`, page_series.rs L25-44. -/
def parsePageSeries (fuel : Nat) (store : Store) (id : ExGuid) : Res PageSeries := do
  let object ← store.dataRoot.object id
  let data ← PageSeriesNode.parse object
  let pages ← data.pageSpaces.mapM (parsePageSpace fuel store)
  pure { pages }

/-! ### Sections (/repo/src/onenote/section.rs) -/

/-- `Section`, section.rs L23-27. -/
structure Section where
  displayName : Text
  pageSeries : List PageSeries
  color : Option Color

/-- `suffix.strip_suffix`: the rest of `s` when `s` ends with `suffix`, both reversed. -/
def stripReversed : (suffix s : Text) → Option Text
  | [], s => some s
  | c :: cs, d :: ds => if c = d then stripReversed cs ds else none
  | _ :: _, [] => none

/-- `trim_end_matches(suffix)` on reversed text: strip the suffix as long as it is there. Every step
removes at least one character of a non-empty suffix, so the length of the text is enough steps. -/
def trimReversed (suffix : Text) : Nat → Text → Text
  | 0, s => s
  | n + 1, s =>
    match stripReversed suffix s with
    | some rest => trimReversed suffix n rest
    | none => s

/-- `s.trim_end_matches(suffix)` for a non-empty suffix, section.rs L72. -/
def trimEndMatches (suffix s : Text) : Text :=
  (trimReversed suffix.reverse s.length s.reverse).reverse

/-- `".one"` -/
def dotOne : Text := ['.', 'o', 'n', 'e']

/-- `parse_metadata`, section.rs L99-108. -/
def parseSectionMetadata (space : ObjectSpace) : Res SectionMetadata := do
  let object ← space.metadataObject
  SectionMetadata.parse object

/-- `parse_content`, section.rs L88-97. -/
def parseSectionContent (space : ObjectSpace) : Res SectionNode := do
  let object ← space.contentObject
  SectionNode.parse object

/-- `parse_section`, section.rs L65-86. -/
def parseSectionStore (fuel : Nat) (store : Store) (filename : Text) : Res Section := do
  let metadata ← parseSectionMetadata store.dataRoot
  let content ← parseSectionContent store.dataRoot
  let pageSeries ← content.pageSeries.mapM (parsePageSeries fuel store)
  pure { displayName := trimEndMatches dotOne (metadata.displayName.getD filename)
         pageSeries, color := metadata.color }

/-! ### The parser (/repo/src/onenote/mod.rs) -/

/-- `{1F937CB4-B26F-445F-B9F8-17E20160E461}`, mod.rs L111, L134. -/
def sectionSchema : Guid :=
  ⟨0x1F, 0x93, 0x7C, 0xB4, 0xB2, 0x6F, 0x44, 0x5F, 0xB9, 0xF8, 0x17, 0xE2, 0x01, 0x60, 0xE4, 0x61⟩

/-- `{E4DBFD38-E5C7-408B-A8A1-0E7B421E1F5F}`, mod.rs L65. -/
def tocSchema : Guid :=
  ⟨0xE4, 0xDB, 0xFD, 0x38, 0xE5, 0xC7, 0x40, 0x8B, 0xA8, 0xA1, 0x0E, 0x7B, 0x42, 0x1E, 0x1F, 0x5F⟩

/-- `OneStorePackaging::parse(&mut Reader::new(data))?` and `parse_store(&packaging)?`, mod.rs
L62-63, L108-109, L131-132. -/
def readStore (ord : Order) (data : Bytes) : Res Store := do
  let packaging ← Packaging.parse.run data
  Store.parse ord packaging

/-- `Parser::parse_section_buffer`, mod.rs L107-119. -/
def parseSectionBuffer (fuel : Nat) (ord : Order) (data : Bytes) (fileName : Text) :
    Res Section := do
  let store ← readStore ord data
  if store.schema ≠ sectionSchema then .error .notASectionFile else
  parseSectionStore fuel store fileName

end OneNote
