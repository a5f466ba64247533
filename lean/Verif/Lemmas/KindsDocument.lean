/-
Which kinds of errors the parsers report: documents.
-/
import Verif.Lemmas.Kinds
import Verif.Model.Notebook

namespace OneNote

open Spec

instance : OnlyP malformed Guid.parse := by unfold Guid.parse; kinds

/-! ### Text -/

instance (data) : Only malformed (utf16ToString data) := by
  unfold utf16ToString; kinds

/-! ### Ink numbers -/

instance (data : Bytes) (v n : Nat) : Only malformed (MultiByte.decodeUintLoop data v n) := by
  induction data generalizing v n with
  | nil => unfold MultiByte.decodeUintLoop; kinds
  | cons b data ih => unfold MultiByte.decodeUintLoop; kinds
instance (data) : Only malformed (MultiByte.decodeUint data) := by
  unfold MultiByte.decodeUint; kinds
instance (input : Bytes) (n i : Nat) : Only malformed (MultiByte.decodeLoop input n i) := by
  induction n generalizing i with
  | zero => unfold MultiByte.decodeLoop; kinds
  | succ n ih => unfold MultiByte.decodeLoop; kinds
instance (input) : Only malformed (MultiByte.decode input) := by
  unfold MultiByte.decode; kinds
instance (input) : Only malformed (MultiByte.decodeSigned input) := by
  unfold MultiByte.decodeSigned; kinds

/-! ### Note tags -/

instance (value) : Only malformed (NoteTagShape.parse value) := by
  unfold NoteTagShape.parse; kinds

/-! ### Properties -/

instance {α : Type} (o : Option α) : Only malformed (required o) := by
  unfold required; kinds
instance {α : Type} (to : PropertyValue → Option α) (t) (o) : Only malformed (propAs to t o) := by
  unfold propAs; kinds
instance (t) (o) : Only malformed (Simple.parseBool t o) := by
  unfold Simple.parseBool; kinds
instance (t) (o) : Only malformed (Simple.parseU8 t o) := by
  unfold Simple.parseU8; kinds
instance (t) (o) : Only malformed (Simple.parseU16 t o) := by
  unfold Simple.parseU16; kinds
instance (t) (o) : Only malformed (Simple.parseU32 t o) := by
  unfold Simple.parseU32; kinds
instance (t) (o) : Only malformed (Simple.parseF32 t o) := by
  unfold Simple.parseF32; kinds
instance (t) (o) : Only malformed (Simple.parseVec t o) := by
  unfold Simple.parseVec; kinds
instance (t) (o) : Only malformed (Simple.parseVecU16 t o) := by
  unfold Simple.parseVecU16; kinds
instance (t) (o) : Only malformed (Simple.parseVecU32 t o) := by
  unfold Simple.parseVecU32; kinds
instance (t) (o) : Only malformed (Simple.parseAscii t o) := by
  unfold Simple.parseAscii; kinds
instance (t) (o) : Only malformed (Simple.parseString t o) := by
  unfold Simple.parseString; kinds
instance (t) (o) : Only malformed (Simple.parseGuid t o) := by
  unfold Simple.parseGuid; kinds
instance (t) (o) : Only malformed (Color.parse t o) := by
  unfold Color.parse; kinds
instance (value) : Only malformed (ColorRef.ofValue value) := by
  unfold ColorRef.ofValue; kinds
instance Only.optM {α β : Type} {S : Err → Bool} (f : α → Res β) (x : Option α) [∀ a, Only S (f a)] :
    Only S (optM f x) := by
  unfold OneNote.optM; kinds
instance (t) (o) : Only malformed (ColorRef.parse t o) := by
  unfold ColorRef.parse; kinds
instance : OnlyP malformed (OutlineIndentDistance.reader) := by
  unfold OutlineIndentDistance.reader; kinds
instance (o) : Only malformed (OutlineIndentDistance.parse o) := by
  unfold OutlineIndentDistance.parse; kinds
instance (x0) : Only malformed (PageSize.ofValue x0) := by
  unfold PageSize.ofValue; kinds
instance (t) (o) : Only malformed (PageSize.parse t o) := by
  unfold PageSize.parse; kinds
instance (o) : Only malformed (ActionItemStatus.parse o) := by
  unfold ActionItemStatus.parse; kinds
instance (o) : Only malformed (ActionItemType.parse o) := by
  unfold ActionItemType.parse; kinds
instance (o) : Only malformed (NoteTagPropertyStatus.parse o) := by
  unfold NoteTagPropertyStatus.parse; kinds
instance (x0) : Only malformed (Charset.ofValue x0) := by
  unfold Charset.ofValue; kinds
instance (t) (o) : Only malformed (Charset.parse t o) := by
  unfold Charset.parse; kinds
instance (x0) : Only malformed (FileType.ofValue x0) := by
  unfold FileType.ofValue; kinds
instance (o) : Only malformed (FileType.parse o) := by
  unfold FileType.parse; kinds
instance (o) : Only malformed (ParagraphAlignment.parse o) := by
  unfold ParagraphAlignment.parse; kinds
instance (t) (o) : Only malformed (Time.parse t o) := by
  unfold Time.parse; kinds
instance (t) (o) : Only malformed (Timestamp.parse t o) := by
  unfold Timestamp.parse; kinds
instance : OnlyP malformed (InkDimension.entry) := by
  unfold InkDimension.entry; kinds
instance (t) (o) : Only malformed (InkDimension.parse t o) := by
  unfold InkDimension.parse; kinds
instance (x0) : Only malformed (HorizontalAlignment.parse x0) := by
  unfold HorizontalAlignment.parse; kinds
instance (x0) : Only malformed (HorizontalAlignmentMargin.parse x0) := by
  unfold HorizontalAlignmentMargin.parse; kinds
instance (x0) : Only malformed (VerticalAlignment.parse x0) := by
  unfold VerticalAlignment.parse; kinds
instance (value) : Only malformed (LayoutAlignment.ofValue value) := by
  unfold LayoutAlignment.ofValue; kinds
instance (t) (o) : Only malformed (LayoutAlignment.parse t o) := by
  unfold LayoutAlignment.parse; kinds
instance (o) : Only malformed (Author.parse o) := by
  unfold Author.parse; kinds

/-! ### References -/

instance (t) (o) : Only malformed (predecessors t o) := by
  unfold predecessors; kinds
instance (t) (o) : Only malformed (ObjectReference.getOffset t o) := by
  unfold ObjectReference.getOffset; kinds
instance (t) (o) : Only malformed (ObjectReference.parse t o) := by
  unfold ObjectReference.parse; kinds
instance (t) (o) : Only malformed (ObjectReference.parseVec t o) := by
  unfold ObjectReference.parseVec; kinds
instance (t) (o) : Only malformed (ObjectSpaceReference.getOffset t o) := by
  unfold ObjectSpaceReference.getOffset; kinds
instance (t) (o) : Only malformed (ObjectSpaceReference.parseVec t o) := by
  unfold ObjectSpaceReference.parseVec; kinds
instance (t) (o) (id) (props) : Only malformed (nestedObject t o id props) := by
  unfold nestedObject; kinds
instance (t) (o) : Only malformed (nestedObjects t o) := by
  unfold nestedObjects; kinds

/-! ### The kinds of objects -/

instance (o) (expected) : Only malformed (assertPropertySet o expected) := by
  unfold assertPropertySet; kinds
instance (o) : Only malformed (EmbeddedFileContainer.parse o) := by
  unfold EmbeddedFileContainer.parse; kinds
instance (o) : Only malformed (NoteTagData.parseData o) := by
  unfold NoteTagData.parseData; kinds
instance (o) : Only malformed (NoteTagData.parse o) := by
  unfold NoteTagData.parse; kinds
instance (o) : Only malformed (EmbeddedFileNode.parse o) := by
  unfold EmbeddedFileNode.parse; kinds
instance (o) : Only malformed (EmbeddedInkData.parse o) := by
  unfold EmbeddedInkData.parse; kinds
instance (o) : Only malformed (IFrameNode.parse o) := by
  unfold IFrameNode.parse; kinds
instance (o) : Only malformed (ImageNode.parse o) := by
  unfold ImageNode.parse; kinds
instance (o) : Only malformed (InkContainerNode.parse o) := by
  unfold InkContainerNode.parse; kinds
instance (o) : Only malformed (InkDataNode.parse o) := by
  unfold InkDataNode.parse; kinds
instance (x0) : Only malformed (InkBias.ofValue x0) := by
  unfold InkBias.ofValue; kinds
instance (o) : Only malformed (InkStrokeNode.parse o) := by
  unfold InkStrokeNode.parse; kinds
instance (c) : Only malformed (parseUtf16Char c) := by
  unfold parseUtf16Char; kinds
instance (o) : Only malformed (MathInlineData.parse o) := by
  unfold MathInlineData.parse; kinds
instance (o) : Only malformed (NoteTagDefinition.parse o) := by
  unfold NoteTagDefinition.parse; kinds
instance (x0) : Only malformed (parseListFormat x0) := by
  unfold parseListFormat; kinds
instance (o) : Only malformed (NumberListNode.parse o) := by
  unfold NumberListNode.parse; kinds
instance (o) : Only malformed (OutlineElementNode.parse o) := by
  unfold OutlineElementNode.parse; kinds
instance (o) : Only malformed (OutlineGroupNode.parse o) := by
  unfold OutlineGroupNode.parse; kinds
instance (o) : Only malformed (OutlineNode.parse o) := by
  unfold OutlineNode.parse; kinds
instance (o) : Only malformed (PageManifestNode.parse o) := by
  unfold PageManifestNode.parse; kinds
instance (o) : Only malformed (PageMetadata.parse o) := by
  unfold PageMetadata.parse; kinds
instance (o) : Only malformed (PageNode.parse o) := by
  unfold PageNode.parse; kinds
instance (o) : Only malformed (PageSeriesNode.parse o) := by
  unfold PageSeriesNode.parse; kinds
instance (o) : Only malformed (ParagraphStyleObject.parse o) := by
  unfold ParagraphStyleObject.parse; kinds
instance (o) : Only malformed (PictureContainer.parse o) := by
  unfold PictureContainer.parse; kinds
instance (o) : Only malformed (RichTextNode.parseText o) := by
  unfold RichTextNode.parseText; kinds
instance (o) : Only malformed (RichTextNode.parse o) := by
  unfold RichTextNode.parse; kinds
instance (o) : Only malformed (SectionMetadata.parse o) := by
  unfold SectionMetadata.parse; kinds
instance (o) : Only malformed (SectionNode.parse o) := by
  unfold SectionNode.parse; kinds
instance (o) : Only malformed (StrokeProperties.parse o) := by
  unfold StrokeProperties.parse; kinds
instance (o) : Only malformed (TableCellNode.parse o) := by
  unfold TableCellNode.parse; kinds
instance (o) : Only malformed (TableNode.parse o) := by
  unfold TableNode.parse; kinds
instance (o) : Only malformed (TableRowNode.parse o) := by
  unfold TableRowNode.parse; kinds
instance (o) : Only malformed (TextRunData.parse o) := by
  unfold TextRunData.parse; kinds
instance (o) : Only malformed (TitleNode.parse o) := by
  unfold TitleNode.parse; kinds
instance (o) : Only malformed (TocContainer.parse o) := by
  unfold TocContainer.parse; kinds

/-! ### The parts of a page -/

instance (space) (id) : Only malformed (ObjectSpace.object space id) := by
  unfold ObjectSpace.object; kinds
instance (space) (id) : Only malformed (parseNoteTagDefinition space id) := by
  unfold parseNoteTagDefinition; kinds
instance (space) (data) : Only malformed (parseNoteTag space data) := by
  unfold parseNoteTag; kinds
instance (space) (tags) : Only malformed (parseNoteTags space tags) := by
  unfold parseNoteTags; kinds
instance (space) (id) : Only malformed (parseIFrame space id) := by
  unfold parseIFrame; kinds
instance (space) (id) : Only malformed (parseImageContainer space id) := by
  unfold parseImageContainer; kinds
instance (space) (id) : Only malformed (parseImage space id) := by
  unfold parseImage; kinds
instance (space) (id) : Only malformed (parseEmbeddedFile space id) := by
  unfold parseEmbeddedFile; kinds
instance (dims) (id) : Only malformed (findDimension dims id) := by
  unfold findDimension; kinds
instance {α : Type} (data : List α) (start) (len) : Only malformed (slice data start len) := by
  unfold slice; kinds
instance (data) (dims) (scaleX) (scaleY) : Only malformed (parseInkPath data dims scaleX scaleY) := by
  unfold parseInkPath; kinds
instance (space) (scaleX) (scaleY) (id) : Only malformed (parseInkStroke space scaleX scaleY id) := by
  unfold parseInkStroke; kinds
instance (space) (id) (scaleX) (scaleY) : Only malformed (parseInkData space id scaleX scaleY) := by
  unfold parseInkData; kinds
instance (space) (id) : Only malformed (parseInk space id) := by
  unfold parseInk; kinds
instance (space) (id) : Only malformed (parseList space id) := by
  unfold parseList; kinds
instance (data) : Only malformed (parseMathInlineObject data) := by
  unfold parseMathInlineObject; kinds
instance (data) : Only malformed (parseEmbeddedInkSpace data) := by
  unfold parseEmbeddedInkSpace; kinds
instance (space) (id) (data) : Only malformed (parseEmbeddedInkData space id data) := by
  unfold parseEmbeddedInkData; kinds
instance (space) (id) : Only malformed (parseStyleObject space id) := by
  unfold parseStyleObject; kinds
instance (run) : Only malformed (parseMathRun run) := by
  unfold parseMathRun; kinds
instance (run) : Only malformed (parseEmbeddedRun run) := by
  unfold parseEmbeddedRun; kinds
instance {α : Type} (v : List α) (i) : Only malformed (index v i) := by
  unfold index; kinds
instance (space : ObjectSpace) (refs : List ExGuid) (i j : Nat) (l : List (Option Nat × EmbeddedInkData)) :
    Only malformed (parseEmbeddedObjects space refs i j l) := by
  induction l generalizing i j with
  | nil => unfold parseEmbeddedObjects; kinds
  | cons x l ih =>
    obtain ⟨t, d⟩ := x
    cases t <;> (unfold parseEmbeddedObjects; kinds)
instance (space) (id) : Only malformed (parseRichText space id) := by
  unfold parseRichText; kinds

/-! ### Outlines -/

/-- The recursive calls only fail in these ways. -/
class OnlyRec (r : Rec) : Prop where
  item : ∀ id, Only malformed (r.item id)
  element : ∀ id, Only malformed (r.element id)

instance (r : Rec) [h : OnlyRec r] (id) : Only malformed (r.item id) := h.item id
instance (r : Rec) [h : OnlyRec r] (id) : Only malformed (r.element id) := h.element id
instance (r) [OnlyRec r] (space) (id) : Only malformed (parseCell r space id) := by
  unfold parseCell; kinds
instance (r) [OnlyRec r] (space) (id) : Only malformed (parseRow r space id) := by
  unfold parseRow; kinds
instance (r) [OnlyRec r] (space) (id) : Only malformed (parseTable r space id) := by
  unfold parseTable; kinds
instance (space : ObjectSpace) (id) : Only malformed (space.propertySetId id) := by
  unfold ObjectSpace.propertySetId; kinds
instance (r) [OnlyRec r] (space) (id) : Only malformed (parseContent r space id) := by
  unfold parseContent; kinds
instance (r) [OnlyRec r] (space) (id) : Only malformed (parseOutlineGroup r space id) := by
  unfold parseOutlineGroup; kinds
instance (r) [OnlyRec r] (space) (id) : Only malformed (parseElementWith r space id) := by
  unfold parseElementWith; kinds
instance (r) [OnlyRec r] (space) (id) : Only malformed (parseItemWith r space id) := by
  unfold parseItemWith; kinds
instance (space : ObjectSpace) (n : Nat) : OnlyRec (recAt space n) := by
  induction n with
  | zero => exact ⟨fun _ => Only.error .fuel, fun _ => Only.error .fuel⟩
  | succ n ih => exact ⟨fun id => inferInstanceAs (Only malformed (parseItemWith _ _ id)),
      fun id => inferInstanceAs (Only malformed (parseElementWith _ _ id))⟩
instance (n) (space) (id) : Only malformed (parseOutline n space id) := by unfold parseOutline; kinds

/-! ### Pages and sections -/

instance (n) (space) (id) : Only malformed (parsePageContent n space id) := by
  unfold parsePageContent; kinds
instance (n) (space) (id) : Only malformed (parseTitle n space id) := by unfold parseTitle; kinds
instance (space : ObjectSpace) : Only malformed space.contentObject := by
  unfold ObjectSpace.contentObject; kinds
instance (space : ObjectSpace) : Only malformed space.metadataObject := by
  unfold ObjectSpace.metadataObject; kinds
instance (space) : Only malformed (parsePageMetadata space) := by unfold parsePageMetadata; kinds
instance (space) : Only malformed (parsePageManifest space) := by unfold parsePageManifest; kinds
instance (space) (id) : Only malformed (parsePageData space id) := by unfold parsePageData; kinds
instance (n) (space) : Only malformed (parsePage n space) := by unfold parsePage; kinds
instance (n) (store) (id) : Only malformed (parsePageSpace n store id) := by unfold parsePageSpace; kinds
instance (n) (store) (id) : Only malformed (parsePageSeries n store id) := by
  unfold parsePageSeries; kinds
instance (space) : Only malformed (parseSectionMetadata space) := by unfold parseSectionMetadata; kinds
instance (space) : Only malformed (parseSectionContent space) := by unfold parseSectionContent; kinds
instance (n) (store) (name) : Only malformed (parseSectionStore n store name) := by
  unfold parseSectionStore; kinds

/-! ### Tables of contents -/

instance (space : ObjectSpace) (n : Nat) (id : ExGuid) : Only malformed (parseTocEntry space n id) := by
  induction n generalizing id with
  | zero => unfold parseTocEntry; kinds
  | succ n ih => unfold parseTocEntry; kinds
instance (n) (space) : Only malformed (parseToc n space) := by unfold parseToc; kinds

/-! ### The container and the store -/

instance (ord) (data) : Only damaged (readStore ord data) := by unfold readStore; kinds

end OneNote
