/-
C43: A parsed document shows exactly what the stored properties say.

`Spec.Objects` lists the properties of every kind of object with their identifiers, types and
defaults, `Spec.Values` what the stored values mean, and `Spec.Document` which of them the API shows
where. The nested calls of the parser are unbounded in the code: "it succeeds" is "there is a number of
nested calls with which it succeeds".
-/
import Verif.Lemmas.Contents
import Verif.Lemmas.Terminates
import Verif.Spec.SampleFile

namespace OneNote

open Spec Spec.Document

/-- Parsing a section succeeds with a section exactly if the section is what is stored. -/
theorem C43_section (store : Store) (filename : Text) (s : Section) :
    (∃ fuel, parseSectionStore fuel store filename = .ok s) ↔ SectionIs store filename s :=
  section_iff

/-- The same for the bytes of a file. -/
theorem C43_buffer (ord : Order) (data : Bytes) (filename : Text) (s : Section) :
    (∃ fuel, parseSectionBuffer fuel ord data filename = .ok s) ↔
      ∃ store, readStore ord data = .ok store ∧ store.schema = sectionGuid ∧
        SectionIs store filename s := by
  rw [show sectionGuid = sectionSchema from rfl]
  constructor
  · rintro ⟨fuel, h⟩
    unfold parseSectionBuffer at h
    obtain ⟨store, hs, h⟩ := Res.bind_ok h
    split at h
    · cases h
    · rename_i hg
      exact ⟨store, hs, by simpa using hg, section_iff.1 ⟨fuel, h⟩⟩
  · rintro ⟨store, hs, hg, h⟩
    obtain ⟨fuel, hf⟩ := section_iff.2 h
    refine ⟨fuel, ?_⟩
    unfold parseSectionBuffer
    rw [hs]
    show (if store.schema ≠ sectionSchema then _ else _) = _
    rw [if_neg (by simpa using hg)]
    exact hf

/-- What is stored determines the section: there is at most one. -/
theorem C43_unique (store : Store) (filename : Text) (s s' : Section)
    (h : SectionIs store filename s) (h' : SectionIs store filename s') : s = s' := by
  obtain ⟨m, hm⟩ := section_iff.2 h
  obtain ⟨n, hn⟩ := section_iff.2 h'
  have hm := refines_ok (refines_section (Nat.le_max_left m n) store filename) hm
  have hn := refines_ok (refines_section (Nat.le_max_right m n) store filename) hn
  rw [hm] at hn
  exact Except.ok.inj hn

/-- Pages. -/
theorem C43_page (space : ObjectSpace) (p : Page) :
    (∃ fuel, parsePage fuel space = .ok p) ↔ PageIs space p :=
  page_iff

/-- Outlines with everything in them: nested items, tables, text, images, files, ink, lists. -/
theorem C43_outline (space : ObjectSpace) (id : ExGuid) (o : Outline) :
    (∃ fuel, parseOutline fuel space id = .ok o) ↔ OutlineIs space id o :=
  outline_iff

/-- Rich text. -/
theorem C43_text (space : ObjectSpace) (id : ExGuid) (t : RichText) :
    parseRichText space id = .ok t ↔ TextIs space id t :=
  richText_iff

/-- Images. -/
theorem C43_image (space : ObjectSpace) (id : ExGuid) (i : Image) :
    parseImage space id = .ok i ↔ ImageIs space id i :=
  image_iff

/-- Attached files. -/
theorem C43_file (space : ObjectSpace) (id : ExGuid) (f : EmbeddedFile) :
    parseEmbeddedFile space id = .ok f ↔ FileIs space id f :=
  file_iff

/-- Ink. -/
theorem C43_ink (space : ObjectSpace) (id : ExGuid) (i : Ink) :
    parseInk space id = .ok i ↔ InkIs space id i :=
  ink_iff

/-! ### Examples -/

/-- A page with a table of one cell with a bold text and an image. -/
private def page : List SampleObject :=
  [outlineW 3001 [3002], outlineElementW 3002 [] [3003] [],
   objectW 3003 .tableNode [(.lastModifiedTime, .u32 0), (.elementChildNodes, .objectIds 1),
     (.rowCount, .u32 1), (.columnCount, .u32 1), (.tableColumnsLocked, .vec [1, 0]),
     (.tableColumnWidths, .vec [1, 0, 0, 0x80, 0x3F]), (.tableBordersVisible, .bool false)] [3004],
   objectW 3004 .tableRowNode [(.lastModifiedTime, .u32 0), (.elementChildNodes, .objectIds 1)] [3005],
   objectW 3005 .tableCellNode [(.lastModifiedTime, .u32 0), (.elementChildNodes, .objectIds 1),
     (.rgOutlineIndentDistance, .vec [0, 0, 0, 0]), (.outlineElementChildLevel, .u8 1)] [3006],
   outlineElementW 3006 [] [3007, 3009] [],
   objectW 3007 .richTextNode [(.lastModifiedTime, .u32 0), (.paragraphStyle, .objectId),
     (.richEditTextUnicode, stringW ['H', 'i'])] [3008],
   objectW 3008 .paragraphStyleObject [(.bold, .bool true)],
   objectW 3009 .imageNode [(.lastModifiedTime, .u32 0), (.pictureWidth, .u32 0x40000000)]]

private def file : Bytes := sectionFile (some "S.one".toList) [3001] page

/-- Text, bold, and picture width of what is in the elements. -/
private def contentText : Content → Option (Text × Bool)
  | .richText t => some (t.text, t.paragraphStyle.bold)
  | _ => none

private def contentWidth : Content → Option (Option F32)
  | .image i => some i.pictureWidth
  | _ => none

private def elements : Content → List OutlineElement
  | .table t => t.contents.flatMap fun r => r.contents.flatMap fun c => c.contents
  | _ => []

private def shownContents (s : Section) : List Content :=
  s.pageSeries.flatMap fun series => series.pages.flatMap fun p => p.contents.flatMap fun
    | .outline o => o.items.flatMap fun
      | .element e => e.contents.flatMap fun c => (elements c).flatMap fun e => e.contents
      | _ => []
    | _ => []

/-- There is a file with a section named `S` that shows the bold text `Hi` and a picture of width 2,
both in a table. By `C43_buffer` this is what `SectionIs` says of it. -/
example : ∃ s, (∃ store, readStore Order.id file = .ok store ∧ store.schema = sectionGuid ∧
      SectionIs store ['f'] s) ∧
    s.displayName = ['S'] ∧
    (shownContents s).filterMap contentText = [(['H', 'i'], true)] ∧
    (shownContents s).filterMap contentWidth = [some 0x40000000] := by
  have h : (parseSectionBuffer 4 Order.id file ['f']).toOption.map (fun s =>
      (s.displayName, (shownContents s).filterMap contentText,
        (shownContents s).filterMap contentWidth))
      = some (['S'], [(['H', 'i'], true)], [some 0x40000000]) := by
    decide +kernel
  obtain ⟨s, hs, he⟩ := Option.map_eq_some_iff.1 h
  simp only [Prod.mk.injEq] at he
  refine ⟨s, (C43_buffer _ _ _ _).1 ⟨4, toOption_some hs⟩, he.1, he.2.1, he.2.2⟩

end OneNote

#print axioms OneNote.C43_section
#print axioms OneNote.C43_buffer
#print axioms OneNote.C43_unique
#print axioms OneNote.C43_page
#print axioms OneNote.C43_outline
#print axioms OneNote.C43_text
#print axioms OneNote.C43_image
#print axioms OneNote.C43_file
#print axioms OneNote.C43_ink
