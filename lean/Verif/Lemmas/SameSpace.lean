/-
The document parsers look at an object space only through the answers it gives.
-/
import Verif.Model.Notebook
import Verif.Spec.StoreContents

namespace OneNote

open Spec Spec.StoreContents

section

variable {s s' : ObjectSpace} (h : SameSpace s s')
include h

theorem object_same : s.object = s'.object := by
  funext id
  unfold ObjectSpace.object
  rw [h.objects]

theorem contentRoot_same : s.contentRoot = s'.contentRoot := h.roots .defaultContent

theorem metadataRoot_same : s.metadataRoot = s'.metadataRoot := h.roots .metadata

theorem contentObject_same : s.contentObject = s'.contentObject := by
  unfold ObjectSpace.contentObject
  rw [contentRoot_same h, object_same h]

theorem metadataObject_same : s.metadataObject = s'.metadataObject := by
  unfold ObjectSpace.metadataObject
  rw [metadataRoot_same h, object_same h]

theorem propertySetId_same : s.propertySetId = s'.propertySetId := by
  funext id
  unfold ObjectSpace.propertySetId
  rw [object_same h]

theorem noteTagDefinition_same : parseNoteTagDefinition s = parseNoteTagDefinition s' := by
  funext id
  unfold parseNoteTagDefinition
  rw [object_same h]

theorem noteTags_same : parseNoteTags s = parseNoteTags s' := by
  funext l
  unfold parseNoteTags
  congr 1
  funext t
  unfold parseNoteTag
  rw [noteTagDefinition_same h]

theorem iframe_same : parseIFrame s = parseIFrame s' := by
  funext id
  unfold parseIFrame
  rw [object_same h]

theorem imageContainer_same : parseImageContainer s = parseImageContainer s' := by
  funext id
  unfold parseImageContainer
  rw [object_same h]

theorem image_same : parseImage s = parseImage s' := by
  funext id
  unfold parseImage
  rw [object_same h, iframe_same h, imageContainer_same h, noteTags_same h]

theorem embeddedFile_same : parseEmbeddedFile s = parseEmbeddedFile s' := by
  funext id
  unfold parseEmbeddedFile
  rw [object_same h, noteTags_same h]

theorem inkStroke_same : parseInkStroke s = parseInkStroke s' := by
  funext sx sy id
  unfold parseInkStroke
  rw [object_same h]

theorem inkData_same : parseInkData s = parseInkData s' := by
  funext id sx sy
  unfold parseInkData
  rw [object_same h, inkStroke_same h]

theorem ink_same : parseInk s = parseInk s' := by
  funext id
  unfold parseInk
  rw [object_same h, inkData_same h]

theorem list_same : parseList s = parseList s' := by
  funext id
  unfold parseList
  rw [object_same h]

theorem embeddedInkData_same : parseEmbeddedInkData s = parseEmbeddedInkData s' := by
  funext id data
  unfold parseEmbeddedInkData
  rw [inkData_same h]

theorem styleObject_same : parseStyleObject s = parseStyleObject s' := by
  funext id
  unfold parseStyleObject
  rw [object_same h]

theorem embeddedObjects_same (refs : List ExGuid) (i k : Nat)
    (l : List (Option Nat × EmbeddedInkData)) :
    parseEmbeddedObjects s refs i k l = parseEmbeddedObjects s' refs i k l := by
  induction l generalizing i k with
  | nil => rfl
  | cons x l ih =>
    obtain ⟨_ | ty, d⟩ := x
    · unfold parseEmbeddedObjects
      rw [embeddedInkData_same h, ih]
    · unfold parseEmbeddedObjects
      rw [ih]

theorem richText_same : parseRichText s = parseRichText s' := by
  funext id
  unfold parseRichText
  simp only [object_same h, styleObject_same h, embeddedObjects_same h, noteTags_same h]

theorem cell_same (r : Rec) : parseCell r s = parseCell r s' := by
  funext id
  unfold parseCell
  rw [object_same h]

theorem row_same (r : Rec) : parseRow r s = parseRow r s' := by
  funext id
  unfold parseRow
  rw [object_same h, cell_same h]

theorem table_same (r : Rec) : parseTable r s = parseTable r s' := by
  funext id
  unfold parseTable
  rw [object_same h, row_same h, noteTags_same h]

theorem content_same (r : Rec) : parseContent r s = parseContent r s' := by
  funext id
  unfold parseContent
  rw [propertySetId_same h, image_same h, embeddedFile_same h, richText_same h, table_same h,
    ink_same h]

theorem element_same (r : Rec) : parseElementWith r s = parseElementWith r s' := by
  funext id
  unfold parseElementWith
  rw [object_same h, content_same h, list_same h]

theorem outlineGroup_same (r : Rec) : parseOutlineGroup r s = parseOutlineGroup r s' := by
  funext id
  unfold parseOutlineGroup
  rw [object_same h]

theorem item_same (r : Rec) : parseItemWith r s = parseItemWith r s' := by
  funext id
  unfold parseItemWith
  rw [propertySetId_same h, outlineGroup_same h, element_same h]

theorem rec_same (n : Nat) : recAt s n = recAt s' n := by
  induction n with
  | zero => rfl
  | succ n ih =>
    unfold recAt
    rw [ih, item_same h, element_same h]

theorem outline_same (fuel : Nat) : parseOutline fuel s = parseOutline fuel s' := by
  funext id
  unfold parseOutline
  rw [object_same h, rec_same h]

theorem title_same (fuel : Nat) : parseTitle fuel s = parseTitle fuel s' := by
  funext id
  unfold parseTitle
  rw [object_same h, outline_same h]

theorem pageContent_same (fuel : Nat) : parsePageContent fuel s = parsePageContent fuel s' := by
  funext id
  unfold parsePageContent
  rw [propertySetId_same h, image_same h, embeddedFile_same h, outline_same h, ink_same h]

/-- Pages. -/
theorem page_same (fuel : Nat) : parsePage fuel s = parsePage fuel s' := by
  unfold parsePage parsePageMetadata parsePageManifest parsePageData
  rw [metadataObject_same h, contentObject_same h, object_same h, title_same h, pageContent_same h]

theorem tocEntry_same (n : Nat) : parseTocEntry s n = parseTocEntry s' n := by
  induction n with
  | zero => rfl
  | succ n ih =>
    funext id
    unfold parseTocEntry
    rw [object_same h, ih]

/-- Tables of contents. -/
theorem toc_same (n : Nat) : parseToc n s = parseToc n s' := by
  unfold parseToc
  rw [contentRoot_same h, tocEntry_same h]

end

/-- Sections. -/
theorem section_same {s s' : Store} (h : SameContents s s') (fuel : Nat) (name : Text) :
    parseSectionStore fuel s name = parseSectionStore fuel s' name := by
  have hp : parsePageSpace fuel s = parsePageSpace fuel s' := by
    funext c
    unfold parsePageSpace Store.objectSpace
    have := h.spaces c
    generalize s.objectSpaces.get? c = a at *
    generalize s'.objectSpaces.get? c = b at *
    cases a <;> cases b
    · rfl
    · exact this.elim
    · exact this.elim
    · exact page_same this fuel
  have hs : parsePageSeries fuel s = parsePageSeries fuel s' := by
    funext id
    unfold parsePageSeries
    rw [object_same h.dataRoot, hp]
  unfold parseSectionStore parseSectionMetadata parseSectionContent
  rw [metadataObject_same h.dataRoot, contentObject_same h.dataRoot, hs]

end OneNote
