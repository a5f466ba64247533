/-
C44: Properties can be stored in the type that their identifier declares.
-/
import Verif.Lemmas.Contents
import Verif.Lemmas.Terminates
import Verif.Spec.Declared
import Verif.Spec.SampleFile

namespace OneNote

open Spec Spec.Fields Spec.Objects Spec.Document Spec.Declared

/-- A page that stores its size in the declared type is rejected, whatever the size is. -/
theorem C44_page_size_refuted (space : ObjectSpace) (id : ExGuid) (o : Object) (v : PropertyValue)
    (ho : space.getObject id = some o) (hv : o.props.properties.get Word.pageSize = some v)
    (ht : HasType Word.pageSize v) (p : PageNode) : parsePageData space id ≠ .ok p := by
  intro h
  simp only [parsePageData, bind_ok_iff, at_iff, PageNode.parse_iff] at h
  obtain ⟨o', ho', h⟩ := h
  rw [show space.getObject id = some o' from ho'] at ho
  cases ho
  rcases h.pageSize with ⟨hn, _⟩ | ⟨v', hs, n, rfl, _⟩
  · rw [hv] at hn
    cases hn
  · rw [hv] at hs
    cases hs
    exact absurd ht.1 (by decide)

/-- A section with an empty page that stores its size. -/
private def sized (size : PropertyValue) : Bytes :=
  storeFile sectionGuid [.root contentRole (sx 1000), .root metadataRole (sx 1001)]
    (sectionObjects none 1)
    [(pageCell, 5, [.root contentRole (sx 2002), .root metadataRole (sx 2001)],
      [objectW 2001 .pageMetadata
         [(.notebookManagementEntityGuid, .vec (guid sampleGuid)), (.cachedTitleString, stringW ['t']),
          (.topologyCreationTimeStamp, .u64 0)],
       objectW 2002 .pageManifestNode [(.contentChildNodes, .objectIds 1)] [2003],
       objectW 2003 .pageNode [(.pageSize, size)] []])]

private def errorOf {α : Type} : Res α → Option Err
  | .error e => some e
  | .ok _ => none

private theorem errorOf_eq {α : Type} {r : Res α} {e : Err} (h : errorOf r = some e) :
    r = .error e := by
  cases r with
  | ok a => cases h
  | error e' => cases h; rfl

/-- A file to which this applies: the section is rejected because its page has the size "A4". -/
theorem C44_file_refuted : ∃ data, ∀ fuel, 1 ≤ fuel →
    parseSectionBuffer fuel Order.id data ['s'] = .error .malformedOneNoteFile := by
  refine ⟨sized (.u32 6), fun fuel hf => ?_⟩
  have h : parseSectionBuffer 1 Order.id (sized (.u32 6)) ['s'] = .error .malformedOneNoteFile :=
    errorOf_eq (by decide +kernel)
  rcases refines_buffer hf Order.id (sized (.u32 6)) ['s'] with h' | h'
  · rw [h] at h'
    cases h'
  · rw [← h', h]

/-- Every other property with a single value can be stored in the type that its identifier declares.
Missing for the full property: the page size, see above. -/
theorem C44_others_partial : AllOthers :=
  ⟨⟨.u8 0, .handwriting, ⟨rfl, by decide⟩, .inl ⟨rfl, rfl⟩⟩,
    ⟨.bool true, true, rfl, rfl⟩,
    ⟨.bool true, true, rfl, rfl⟩,
    ⟨.bool true, true, rfl, rfl⟩,
    ⟨.bool true, true, rfl, rfl⟩,
    ⟨.bool true, true, rfl, rfl⟩,
    ⟨.bool true, true, rfl, rfl⟩,
    ⟨.bool true, true, rfl, rfl⟩,
    ⟨.bool true, true, rfl, rfl⟩,
    ⟨.bool true, true, rfl, rfl⟩,
    ⟨.bool true, true, rfl, rfl⟩,
    ⟨.bool true, true, rfl, rfl⟩,
    ⟨.bool true, true, rfl, rfl⟩,
    ⟨.bool true, true, rfl, rfl⟩,
    ⟨.bool true, true, rfl, rfl⟩,
    ⟨.bool true, true, rfl, rfl⟩,
    ⟨.bool true, true, rfl, rfl⟩,
    ⟨.bool true, true, rfl, rfl⟩,
    ⟨.bool true, true, rfl, rfl⟩,
    ⟨.bool true, true, rfl, rfl⟩,
    ⟨.bool true, true, rfl, rfl⟩,
    ⟨.bool true, true, rfl, rfl⟩,
    ⟨.bool true, true, rfl, rfl⟩,
    ⟨.bool true, true, rfl, rfl⟩,
    ⟨.bool true, true, rfl, rfl⟩,
    ⟨.bool true, true, rfl, rfl⟩,
    ⟨.bool true, true, rfl, rfl⟩,
    ⟨.bool true, true, rfl, rfl⟩,
    ⟨.bool true, true, rfl, rfl⟩,
    ⟨.vec [], none, rfl, [], ⟨[], rfl, by decide, fun _ h => (by cases h)⟩, .inr ⟨by decide, rfl⟩⟩,
    ⟨.u8 0, .ansi, ⟨rfl, by decide⟩, 0, rfl, by decide⟩,
    ⟨.u32 0, ⟨255, 0, 0, 0⟩, ⟨rfl, by decide⟩, 0, rfl, rfl, rfl, rfl, rfl⟩,
    ⟨.u32 0, ⟨255, 0, 0, 0⟩, ⟨rfl, by decide⟩, 0, rfl, rfl, rfl, rfl, rfl⟩,
    ⟨.u32 0, .manual 0 0 0, ⟨rfl, by decide⟩, 0, rfl, .inr ⟨rfl, rfl⟩⟩,
    ⟨.u32 0, .manual 0 0 0, ⟨rfl, by decide⟩, 0, rfl, .inr ⟨rfl, rfl⟩⟩,
    ⟨.u32 0, .manual 0 0 0, ⟨rfl, by decide⟩, 0, rfl, .inr ⟨rfl, rfl⟩⟩,
    ⟨.u32 0, .manual 0 0 0, ⟨rfl, by decide⟩, 0, rfl, .inr ⟨rfl, rfl⟩⟩,
    ⟨.vec [], [], rfl, [], rfl, rfl⟩,
    ⟨.vec [], [], rfl, [], rfl, [], rfl, by decide, fun _ h => (by cases h)⟩,
    ⟨.u32 0, default, ⟨rfl, by decide⟩, false, false, 0, rfl⟩,
    ⟨.vec [], [], rfl, [], [], rfl, rfl, fun _ h => (by cases h), by decide, fun _ h => (by cases h)⟩,
    ⟨.u32 0, 0, ⟨rfl, by decide⟩, rfl⟩,
    ⟨.u32 0, 0, ⟨rfl, by decide⟩, rfl⟩,
    ⟨.u32 0, 0, ⟨rfl, by decide⟩, rfl⟩,
    ⟨.u32 0, 0, ⟨rfl, by decide⟩, rfl⟩,
    ⟨.u32 0, 0, ⟨rfl, by decide⟩, rfl⟩,
    ⟨.u32 0, 0, ⟨rfl, by decide⟩, rfl⟩,
    ⟨.u32 0, 0, ⟨rfl, by decide⟩, rfl⟩,
    ⟨.u32 0, 0, ⟨rfl, by decide⟩, rfl⟩,
    ⟨.u32 0, 0, ⟨rfl, by decide⟩, rfl⟩,
    ⟨.u32 0, 0, ⟨rfl, by decide⟩, rfl⟩,
    ⟨.u32 0, 0, ⟨rfl, by decide⟩, rfl⟩,
    ⟨.u32 0, 0, ⟨rfl, by decide⟩, rfl⟩,
    ⟨.u32 0, 0, ⟨rfl, by decide⟩, rfl⟩,
    ⟨.u32 0, 0, ⟨rfl, by decide⟩, rfl⟩,
    ⟨.u32 0, 0, ⟨rfl, by decide⟩, rfl⟩,
    ⟨.u32 0, 0, ⟨rfl, by decide⟩, rfl⟩,
    ⟨.u32 0, 0, ⟨rfl, by decide⟩, rfl⟩,
    ⟨.u32 0, 0, ⟨rfl, by decide⟩, rfl⟩,
    ⟨.u32 0, 0, ⟨rfl, by decide⟩, rfl⟩,
    ⟨.u32 0, 0, ⟨rfl, by decide⟩, rfl⟩,
    ⟨.u32 0, 0, ⟨rfl, by decide⟩, rfl⟩,
    ⟨.u32 0, 0, ⟨rfl, by decide⟩, rfl⟩,
    ⟨.u32 0, 0, ⟨rfl, by decide⟩, rfl⟩,
    ⟨.u32 0, 0, ⟨rfl, by decide⟩, rfl⟩,
    ⟨.u32 0, 0, ⟨rfl, by decide⟩, rfl⟩,
    ⟨.u32 0, 0, ⟨rfl, by decide⟩, rfl⟩,
    ⟨.u32 0, 0, ⟨rfl, by decide⟩, rfl⟩,
    ⟨.u32 0, 0, ⟨rfl, by decide⟩, rfl⟩,
    ⟨.u32 0, 0, ⟨rfl, by decide⟩, rfl⟩,
    ⟨.u32 0, 0, ⟨rfl, by decide⟩, rfl⟩,
    ⟨.u32 0, 0, ⟨rfl, by decide⟩, rfl⟩,
    ⟨.u32 1, .audio, ⟨rfl, by decide⟩, .inl ⟨rfl, rfl⟩⟩,
    ⟨.vec (utf16 [] ++ []), [], rfl, [], ⟨[], rfl, fun h => (by cases h), .inl (by decide)⟩, .nil⟩,
    ⟨.vec (guid Guid.nil ++ []), Guid.nil, rfl, [], rfl⟩,
    ⟨.u32 0, 0, ⟨rfl, by decide⟩, 0, rfl, rfl⟩,
    ⟨.u32 0, 0, ⟨rfl, by decide⟩, 0, rfl, rfl⟩,
    ⟨.vec [0, 0, 0, 0], [], rfl, 0, 0, 0, [], rfl, by decide, fun _ h => (by cases h)⟩,
    ⟨.u16 0, default, ⟨rfl, by decide⟩, 0, rfl⟩,
    ⟨.u16 0, .numeric 0, ⟨rfl, by decide⟩, 0, rfl, by decide, rfl⟩,
    ⟨.vec [], [], rfl, [], rfl, rfl⟩,
    ⟨.u32 (2 ^ 31), none, ⟨rfl, by decide⟩, _, rfl, .inl ⟨rfl, rfl⟩⟩,
    ⟨.u32 (2 ^ 31), none, ⟨rfl, by decide⟩, _, rfl, .inl ⟨rfl, rfl⟩⟩,
    ⟨.vec [0, 0], [], rfl, 0, [], ⟨[], rfl, by decide, by decide⟩, .nil⟩,
    ⟨.bool true, false, rfl, rfl⟩,
    ⟨.u8 0, .left, ⟨rfl, by decide⟩, 0, rfl, rfl⟩,
    ⟨.vec [0], [], rfl, [0], 0, [], [], rfl, ⟨[0], rfl, by decide, by decide, .inl (by unfold Ink.Complete Ink.more; decide)⟩, .nil, rfl, rfl⟩,
    ⟨.u16 0, .noIcon, ⟨rfl, by decide⟩, rfl⟩,
    ⟨.vec (utf16 [] ++ []), [], rfl, [], rfl, fun h => (by cases h), .inl (by decide)⟩,
    ⟨.vec (utf16 [] ++ []), [], rfl, [], rfl, fun h => (by cases h), .inl (by decide)⟩,
    ⟨.vec (utf16 [] ++ []), [], rfl, [], rfl, fun h => (by cases h), .inl (by decide)⟩,
    ⟨.vec (utf16 [] ++ []), [], rfl, [], rfl, fun h => (by cases h), .inl (by decide)⟩,
    ⟨.vec (utf16 [] ++ []), [], rfl, [], rfl, fun h => (by cases h), .inl (by decide)⟩,
    ⟨.vec (utf16 [] ++ []), [], rfl, [], rfl, fun h => (by cases h), .inl (by decide)⟩,
    ⟨.vec (utf16 [] ++ []), [], rfl, [], rfl, fun h => (by cases h), .inl (by decide)⟩,
    ⟨.vec (utf16 [] ++ []), [], rfl, [], rfl, fun h => (by cases h), .inl (by decide)⟩,
    ⟨.vec (utf16 [] ++ []), [], rfl, [], rfl, fun h => (by cases h), .inl (by decide)⟩,
    ⟨.vec (utf16 [] ++ []), [], rfl, [], rfl, fun h => (by cases h), .inl (by decide)⟩,
    ⟨.vec (utf16 [] ++ []), [], rfl, [], rfl, fun h => (by cases h), .inl (by decide)⟩,
    ⟨.vec (utf16 [] ++ []), [], rfl, [], rfl, fun h => (by cases h), .inl (by decide)⟩,
    ⟨.vec (utf16 [] ++ []), [], rfl, [], rfl, fun h => (by cases h), .inl (by decide)⟩,
    ⟨.vec (utf16 [] ++ []), [], rfl, [], rfl, fun h => (by cases h), .inl (by decide)⟩,
    ⟨.vec (utf16 [] ++ []), [], rfl, [], rfl, fun h => (by cases h), .inl (by decide)⟩,
    ⟨.vec (utf16 [] ++ []), [], rfl, [], rfl, fun h => (by cases h), .inl (by decide)⟩,
    ⟨.u16 0, 0, ⟨rfl, by decide⟩, rfl⟩,
    ⟨.u16 0, 0, ⟨rfl, by decide⟩, rfl⟩,
    ⟨.u32 0, 0, ⟨rfl, by decide⟩, rfl⟩,
    ⟨.u32 0, 0, ⟨rfl, by decide⟩, rfl⟩,
    ⟨.u32 0, 0, ⟨rfl, by decide⟩, rfl⟩,
    ⟨.u32 0, 0, ⟨rfl, by decide⟩, rfl⟩,
    ⟨.u32 0, 0, ⟨rfl, by decide⟩, rfl⟩,
    ⟨.u32 0, 0, ⟨rfl, by decide⟩, rfl⟩,
    ⟨.u32 0, 0, ⟨rfl, by decide⟩, rfl⟩,
    ⟨.u32 0, 0, ⟨rfl, by decide⟩, rfl⟩,
    ⟨.u32 0, 0, ⟨rfl, by decide⟩, rfl⟩,
    ⟨.u32 0, 0, ⟨rfl, by decide⟩, rfl⟩,
    ⟨.u32 0, 0, ⟨rfl, by decide⟩, rfl⟩,
    ⟨.u32 0, 0, ⟨rfl, by decide⟩, rfl⟩,
    ⟨.u32 0, 0, ⟨rfl, by decide⟩, rfl⟩,
    ⟨.u32 0, 0, ⟨rfl, by decide⟩, rfl⟩,
    ⟨.u32 0, 0, ⟨rfl, by decide⟩, rfl⟩,
    ⟨.u32 0, 0, ⟨rfl, by decide⟩, rfl⟩,
    ⟨.vec [], [], rfl, [], rfl, by decide, fun _ h => (by cases h)⟩,
    ⟨.u64 0, 0, ⟨rfl, by decide⟩, rfl⟩,
    ⟨.u8 0, 0, ⟨rfl, by decide⟩, rfl⟩,
    ⟨.u8 0, 0, ⟨rfl, by decide⟩, rfl⟩,
    ⟨.u8 0, 0, ⟨rfl, by decide⟩, rfl⟩,
    ⟨.u8 0, 0, ⟨rfl, by decide⟩, rfl⟩,
    ⟨.u8 0, 0, ⟨rfl, by decide⟩, rfl⟩,
    ⟨.u8 0, 0, ⟨rfl, by decide⟩, rfl⟩,
    ⟨.u16 65, 'A', ⟨rfl, by decide⟩, 65, rfl, by unfold Leading; decide, by unfold Trailing; decide, rfl⟩,
    ⟨.u16 65, 'A', ⟨rfl, by decide⟩, 65, rfl, by unfold Leading; decide, by unfold Trailing; decide, rfl⟩,
    ⟨.u16 65, 'A', ⟨rfl, by decide⟩, 65, rfl, by unfold Leading; decide, by unfold Trailing; decide, rfl⟩⟩

/-- A page in the file above meets the hypotheses of `C44_page_size_refuted`. -/
example : ((readStore Order.id (sized (.u32 6))).toOption.bind fun store => do
      let space ← store.objectSpace pageCell
      let o ← space.getObject (sx 2003)
      match o.props.properties.get Word.pageSize with
      | some (.u32 n) => some n
      | _ => none) = some 6 := by
  decide +kernel

end OneNote

#print axioms OneNote.C44_page_size_refuted
#print axioms OneNote.C44_file_refuted
#print axioms OneNote.C44_others_partial
