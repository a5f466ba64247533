/-
Of the metadata of a page only its level is shown.
-/
import Verif.Spec.Deleted
import Verif.Lemmas.Contents

namespace OneNote.Deleted

open Spec Spec.Document Spec.Objects

/-- The two spaces have the same objects, or both have metadata of a page. -/
def Blind (s s' : ObjectSpace) : Prop :=
  ∀ id, s.object id = s'.object id ∨ ∃ o o', s.object id = .ok o ∧ s'.object id = .ok o' ∧
    o.jcId = 0x00020030 ∧ o'.jcId = 0x00020030

theorem wrong {o : Object} (h : o.jcId = 0x00020030) {k : PropertySetId} (hk : k.asJcid ≠ 0x00020030) :
    assertPropertySet o k = .error .malformedOneNoteFile := by
  unfold assertPropertySet
  rw [if_neg (by rw [h]; exact fun e => hk e.symm)]

/-- A reader that refuses the metadata of a page sees the same. -/
theorem asserted {s s' : ObjectSpace} (h : Blind s s') {α : Type} (id : ExGuid) (f : Object → Res α)
    (hf : ∀ o, o.jcId = 0x00020030 → f o = .error .malformedOneNoteFile) :
    (s.object id >>= f) = (s'.object id >>= f) := by
  rcases h id with e | ⟨o, o', e, e', ho, ho'⟩
  · rw [e]
  · rw [e, e']
    show f o = f o'
    rw [hf o ho, hf o' ho']

section

variable {s s' : ObjectSpace} (h : Blind s s')
include h

theorem propertySetId_same : s.propertySetId = s'.propertySetId := by
  funext id
  unfold ObjectSpace.propertySetId
  rcases h id with e | ⟨o, o', e, e', ho, ho'⟩
  · rw [e]
  · rw [e, e']
    show orErr _ (PropertySetId.fromJcid o.jcId) = orErr _ (PropertySetId.fromJcid o'.jcId)
    rw [ho, ho']

theorem noteTagDefinition_same : parseNoteTagDefinition s = parseNoteTagDefinition s' := by
  funext id
  unfold parseNoteTagDefinition
  refine asserted h _ _ fun o ho => ?_
  unfold NoteTagDefinition.parse
  rw [wrong ho (by decide)]
  rfl

theorem noteTags_same : parseNoteTags s = parseNoteTags s' := by
  funext l
  unfold parseNoteTags
  congr 1
  funext t
  unfold parseNoteTag
  rw [noteTagDefinition_same h]

theorem iframe_same : parseIFrame s = parseIFrame s' := by
  funext id
  unfold parseIFrame
  refine asserted h _ _ fun o ho => ?_
  unfold IFrameNode.parse
  rw [wrong ho (by decide)]
  rfl

theorem imageContainer_same : parseImageContainer s = parseImageContainer s' := by
  funext id
  unfold parseImageContainer
  refine asserted h _ _ fun o ho => ?_
  unfold PictureContainer.parse
  rw [if_pos (by rw [ho]; decide)]

theorem image_same : parseImage s = parseImage s' := by
  funext id
  unfold parseImage
  rw [iframe_same h, imageContainer_same h, noteTags_same h]
  refine asserted h _ _ fun o ho => ?_
  unfold ImageNode.parse
  rw [wrong ho (by decide)]
  rfl

theorem embeddedFile_same : parseEmbeddedFile s = parseEmbeddedFile s' := by
  funext id
  unfold parseEmbeddedFile
  rw [noteTags_same h]
  have e : ∀ (n : ExGuid) (f : Bytes → Res EmbeddedFile),
      (s.object n >>= fun o => EmbeddedFileContainer.parse o >>= f) =
        (s'.object n >>= fun o => EmbeddedFileContainer.parse o >>= f) := by
    intro n f
    refine asserted h _ _ fun o ho => ?_
    unfold EmbeddedFileContainer.parse
    rw [wrong ho (by decide)]
    rfl
  simp only [e]
  refine asserted h _ _ fun o ho => ?_
  unfold EmbeddedFileNode.parse
  rw [wrong ho (by decide)]
  rfl

theorem inkStroke_same : parseInkStroke s = parseInkStroke s' := by
  funext sx sy id
  unfold parseInkStroke
  have e : ∀ (n : ExGuid) (f : StrokeProperties → Res InkStroke),
      (s.object n >>= fun o => StrokeProperties.parse o >>= f) =
        (s'.object n >>= fun o => StrokeProperties.parse o >>= f) := by
    intro n f
    refine asserted h _ _ fun o ho => ?_
    unfold StrokeProperties.parse
    rw [wrong ho (by decide)]
    rfl
  simp only [e]
  refine asserted h _ _ fun o ho => ?_
  unfold InkStrokeNode.parse
  rw [wrong ho (by decide)]
  rfl

theorem inkData_same : parseInkData s = parseInkData s' := by
  funext id sx sy
  unfold parseInkData
  rw [inkStroke_same h]
  refine asserted h _ _ fun o ho => ?_
  unfold InkDataNode.parse
  rw [wrong ho (by decide)]
  rfl

theorem ink_same : parseInk s = parseInk s' := by
  funext id
  unfold parseInk
  rw [inkData_same h]
  refine asserted h _ _ fun o ho => ?_
  unfold InkContainerNode.parse
  rw [wrong ho (by decide)]
  rfl

theorem list_same : parseList s = parseList s' := by
  funext id
  unfold parseList
  refine asserted h _ _ fun o ho => ?_
  unfold NumberListNode.parse
  rw [wrong ho (by decide)]
  rfl

theorem embeddedInkData_same : parseEmbeddedInkData s = parseEmbeddedInkData s' := by
  funext id data
  unfold parseEmbeddedInkData
  rw [inkData_same h]

theorem styleObject_same : parseStyleObject s = parseStyleObject s' := by
  funext id
  unfold parseStyleObject
  refine asserted h _ _ fun o ho => ?_
  unfold ParagraphStyleObject.parse
  rw [wrong ho (by decide)]
  rfl

theorem embeddedObjects_same (refs : List ExGuid) (i k : Nat)
    (l : List (Option Nat × EmbeddedInkData)) :
    parseEmbeddedObjects s refs i k l = parseEmbeddedObjects s' refs i k l := by
  induction l generalizing i k with
  | nil => rfl
  | cons x l ih =>
    obtain ⟨_ | ty, d⟩ := x
    · unfold parseEmbeddedObjects
      rw [embeddedInkData_same h, ih]
    · unfold parseEmbeddedObjects
      rw [ih]

theorem richText_same : parseRichText s = parseRichText s' := by
  funext id
  unfold parseRichText
  simp only [styleObject_same h, embeddedObjects_same h, noteTags_same h]
  refine asserted h _ _ fun o ho => ?_
  unfold RichTextNode.parse
  rw [wrong ho (by decide)]
  rfl

theorem cell_same (r : Rec) : parseCell r s = parseCell r s' := by
  funext id
  unfold parseCell
  refine asserted h _ _ fun o ho => ?_
  unfold TableCellNode.parse
  rw [wrong ho (by decide)]
  rfl

theorem row_same (r : Rec) : parseRow r s = parseRow r s' := by
  funext id
  unfold parseRow
  rw [cell_same h]
  refine asserted h _ _ fun o ho => ?_
  unfold TableRowNode.parse
  rw [wrong ho (by decide)]
  rfl

theorem table_same (r : Rec) : parseTable r s = parseTable r s' := by
  funext id
  unfold parseTable
  rw [row_same h, noteTags_same h]
  refine asserted h _ _ fun o ho => ?_
  unfold TableNode.parse
  rw [wrong ho (by decide)]
  rfl

theorem content_same (r : Rec) : parseContent r s = parseContent r s' := by
  funext id
  unfold parseContent
  rw [propertySetId_same h, image_same h, embeddedFile_same h, richText_same h, table_same h,
    ink_same h]

theorem element_same (r : Rec) : parseElementWith r s = parseElementWith r s' := by
  funext id
  unfold parseElementWith
  rw [content_same h, list_same h]
  refine asserted h _ _ fun o ho => ?_
  unfold OutlineElementNode.parse
  rw [wrong ho (by decide)]
  rfl

theorem outlineGroup_same (r : Rec) : parseOutlineGroup r s = parseOutlineGroup r s' := by
  funext id
  unfold parseOutlineGroup
  refine asserted h _ _ fun o ho => ?_
  unfold OutlineGroupNode.parse
  rw [wrong ho (by decide)]
  rfl

theorem item_same (r : Rec) : parseItemWith r s = parseItemWith r s' := by
  funext id
  unfold parseItemWith
  rw [propertySetId_same h, outlineGroup_same h, element_same h]

theorem rec_same (n : Nat) : recAt s n = recAt s' n := by
  induction n with
  | zero => rfl
  | succ n ih =>
    unfold recAt
    rw [ih, item_same h, element_same h]

theorem outline_same (fuel : Nat) : parseOutline fuel s = parseOutline fuel s' := by
  funext id
  unfold parseOutline
  rw [rec_same h]
  refine asserted h _ _ fun o ho => ?_
  unfold OutlineNode.parse
  rw [wrong ho (by decide)]
  rfl

theorem title_same (fuel : Nat) : parseTitle fuel s = parseTitle fuel s' := by
  funext id
  unfold parseTitle
  rw [outline_same h]
  refine asserted h _ _ fun o ho => ?_
  unfold TitleNode.parse
  rw [wrong ho (by decide)]
  rfl

theorem pageContent_same (fuel : Nat) : parsePageContent fuel s = parsePageContent fuel s' := by
  funext id
  unfold parsePageContent
  rw [propertySetId_same h, image_same h, embeddedFile_same h, outline_same h, ink_same h]

theorem pageData_same : parsePageData s = parsePageData s' := by
  funext id
  unfold parsePageData
  refine asserted h _ _ fun o ho => ?_
  unfold PageNode.parse
  rw [wrong ho (by decide)]
  rfl

end

theorem blind {s s' : ObjectSpace} (h : SameButMetadata s s') : Blind s s' := by
  obtain ⟨info, m, m', n, n', h1, h2, h3, h4, h5, -⟩ := h.metadata
  intro id
  by_cases hi : s.roots.get? .metadata = some id
  · rw [h1] at hi
    cases hi
    exact .inr ⟨m, m', at_iff.2 h2, at_iff.2 h3, h4.kind, h5.kind⟩
  · left
    unfold ObjectSpace.object
    rw [h.others id hi]

/-- A page whose metadata differs is the same page, and is refused for the same reason. -/
theorem page_same {s s' : ObjectSpace} (h : SameButMetadata s s') (fuel : Nat) :
    parsePage fuel s' = parsePage fuel s := by
  have hb := blind h
  obtain ⟨info, m, m', n, n', h1, h2, h3, h4, h5, h6⟩ := h.metadata
  have e : parsePageMetadata s = .ok n := by
    unfold parsePageMetadata ObjectSpace.metadataObject ObjectSpace.metadataRoot
    rw [h1]
    show (s.object info >>= PageMetadata.parse) = _
    rw [at_iff.2 h2]
    exact PageMetadata.parse_iff.2 h4
  have e' : parsePageMetadata s' = .ok n' := by
    unfold parsePageMetadata ObjectSpace.metadataObject ObjectSpace.metadataRoot
    rw [h.roots, h1]
    show (s'.object info >>= PageMetadata.parse) = _
    rw [at_iff.2 h3]
    exact PageMetadata.parse_iff.2 h5
  have em : parsePageManifest s' = parsePageManifest s := by
    unfold parsePageManifest ObjectSpace.contentObject ObjectSpace.contentRoot
    rw [h.roots]
    cases s.roots.get? .defaultContent with
    | none => rfl
    | some id =>
      show (s'.object id >>= PageManifestNode.parse) = (s.object id >>= PageManifestNode.parse)
      symm
      refine asserted hb _ _ fun o ho => ?_
      unfold PageManifestNode.parse
      rw [wrong ho (by decide)]
      rfl
  unfold parsePage
  rw [e, e', em, title_same hb, pageContent_same hb, pageData_same hb]
  simp only [bind, Except.bind, h6]

theorem blind_root {s s' : ObjectSpace} (h : ∀ id, SameButMetadataAt s s' id) : Blind s s' := by
  intro id
  rcases h id with e | ⟨m, m', h1, h2, h3, h4⟩
  · left
    unfold ObjectSpace.object
    rw [e]
  · exact .inr ⟨m, m', at_iff.2 h1, at_iff.2 h2, h3, h4⟩

/-- Sections. -/
theorem section_same {s s' : Store} (h : SameButMarks s s') (fuel : Nat) (name : Text) :
    parseSectionStore fuel s' name = parseSectionStore fuel s name := by
  have hb := blind_root h.objects
  have hp : parsePageSpace fuel s' = parsePageSpace fuel s := by
    funext c
    unfold parsePageSpace
    cases e : s.objectSpace c with
    | none => rw [h.none c e]
    | some space =>
      obtain ⟨space', e', hs⟩ := h.there c space e
      rw [e']
      rcases hs with rfl | hs
      · rfl
      · exact page_same hs fuel
  have hs : parsePageSeries fuel s' = parsePageSeries fuel s := by
    funext id
    unfold parsePageSeries
    rw [hp]
    symm
    refine asserted hb _ _ fun o ho => ?_
    unfold PageSeriesNode.parse
    rw [wrong ho (by decide)]
    rfl
  have hm : parseSectionMetadata s'.dataRoot = parseSectionMetadata s.dataRoot := by
    unfold parseSectionMetadata ObjectSpace.metadataObject ObjectSpace.metadataRoot
    rw [h.roots]
    cases s.dataRoot.roots.get? .metadata with
    | none => rfl
    | some id =>
      show (s'.dataRoot.object id >>= SectionMetadata.parse) = (s.dataRoot.object id >>= SectionMetadata.parse)
      symm
      refine asserted hb _ _ fun o ho => ?_
      unfold SectionMetadata.parse
      rw [wrong ho (by decide)]
      rfl
  have hc : parseSectionContent s'.dataRoot = parseSectionContent s.dataRoot := by
    unfold parseSectionContent ObjectSpace.contentObject ObjectSpace.contentRoot
    rw [h.roots]
    cases s.dataRoot.roots.get? .defaultContent with
    | none => rfl
    | some id =>
      show (s'.dataRoot.object id >>= SectionNode.parse) = (s.dataRoot.object id >>= SectionNode.parse)
      symm
      refine asserted hb _ _ fun o ho => ?_
      unfold SectionNode.parse
      rw [wrong ho (by decide)]
      rfl
  unfold parseSectionStore
  rw [hm, hc, hs]

/-! ### Places in the list of the pages -/

theorem each_at {α β : Type} {R : α → β → Prop} {as : List α} {bs : List β} (h : Each R as bs)
    {i : Nat} {a : α} (ha : as[i]? = some a) : ∃ b, bs[i]? = some b ∧ R a b := by
  induction h generalizing i with
  | nil => cases ha
  | cons hr _ ih =>
    cases i with
    | zero => cases ha; exact ⟨_, rfl, hr⟩
    | succ i => exact ih ha

theorem each_from {α β : Type} {R : α → β → Prop} {as : List α} {bs : List β} (h : Each R as bs)
    {i : Nat} {b : β} (hb : bs[i]? = some b) : ∃ a, as[i]? = some a ∧ R a b := by
  induction h generalizing i with
  | nil => cases hb
  | cons hr _ ih =>
    cases i with
    | zero => cases hb; exact ⟨_, rfl, hr⟩
    | succ i => exact ih hb

theorem listed {store : Store} {ids : List ExGuid} {ss : List PageSeries} (h : Each (SeriesIs store) ids ss) :
    ∃ cells, Each (fun series cs => ∃ o n, At store.dataRoot series o ∧ IsPageSeriesNode o n ∧
        n.pageSpaces = cs) ids cells ∧
      Each (fun cs (x : PageSeries) => Each (fun c p => ∃ space, store.objectSpace c = some space ∧
        PageIs space p) cs x.pages) cells ss := by
  induction h with
  | nil => exact ⟨[], .nil, .nil⟩
  | cons hx _ ih =>
    obtain ⟨cells, a1, a2⟩ := ih
    obtain ⟨o, n, b1, b2, b3⟩ := hx
    exact ⟨n.pageSpaces :: cells, .cons ⟨o, n, b1, b2, rfl⟩ a1, .cons b3 a2⟩

end OneNote.Deleted
