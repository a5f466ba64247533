/-
C47: From the bytes to the document: a section file shows exactly what is written in it.
-/
import Verif.Lemmas.Whole
import Verif.Props.C43
import Verif.Spec.SampleFile

namespace OneNote

open Spec Spec.StoreContents Spec.Document

/-- **Whatever a section file is parsed as is written in its bytes**: in the container format, in the
data elements, and in the properties of the objects. No assumption is made about the file. -/
theorem C47_section_sound (fuel : Nat) (ord : Order) (data : Bytes) (name : Text) (s : Section)
    (h : parseSectionBuffer fuel ord data name = .ok s) : SectionFile data name s := by
  obtain ⟨store, hr, hs, hi⟩ := (C43_buffer ord data name s).1 ⟨fuel, h⟩
  exact ⟨store, readStore_sound hr, hs, hi⟩

/-- **A section that is written in the bytes is read**, in every order of the hash maps, if the file
has no ambiguities (see `C24`). The nested calls are not limited in the code. -/
theorem C47_section_complete (data : Bytes) (name : Text) (s : Section) (hu : PlainFile data)
    (h : SectionFile data name s) : ∃ fuel, ∀ ord, parseSectionBuffer fuel ord data name = .ok s := by
  obtain ⟨store, hf, hschema, hi⟩ := h
  obtain ⟨fuel, hfuel⟩ := (C43_section store name s).2 hi
  refine ⟨fuel, fun ord => ?_⟩
  obtain ⟨s', hs', e⟩ := readStore_complete hu hf ord
  unfold parseSectionBuffer
  rw [hs']
  show (if s'.schema ≠ sectionSchema then _ else _) = _
  rw [if_neg (by rw [← e.schema, hschema]; exact fun h => h rfl), ← section_same e]
  exact hfuel

/-- Exactly. -/
theorem C47_section_exactly (data : Bytes) (name : Text) (s : Section) (hu : PlainFile data)
    (ord : Order) :
    (∃ fuel, parseSectionBuffer fuel ord data name = .ok s) ↔ SectionFile data name s := by
  constructor
  · rintro ⟨fuel, h⟩
    exact C47_section_sound fuel ord data name s h
  · intro h
    obtain ⟨fuel, hf⟩ := C47_section_complete data name s hu h
    exact ⟨fuel, hf ord⟩

/-- The bytes say at most one thing. -/
theorem C47_unique (data : Bytes) (name : Text) (s s' : Section) (hu : PlainFile data)
    (h : SectionFile data name s) (h' : SectionFile data name s') : s = s' := by
  obtain ⟨m, hm⟩ := C47_section_complete data name s hu h
  obtain ⟨n, hn⟩ := C47_section_complete data name s' hu h'
  have hm := hm Order.id
  have hn := hn Order.id
  unfold parseSectionBuffer at hm hn
  obtain ⟨store, hs, hm⟩ := Res.bind_ok_iff.1 hm
  rw [hs] at hn
  obtain ⟨store', hs', hn⟩ := Res.bind_ok_iff.1 hn
  cases hs'
  split at hm
  · cases hm
  · rename_i hc
    rw [if_neg hc] at hn
    exact C43_unique store name s s' ((C43_section _ _ _).1 ⟨m, hm⟩) ((C43_section _ _ _).1 ⟨n, hn⟩)

/-! ### The hypotheses can be met -/

/-- A section file with a page with the text `Hi`. -/
private def objects : List SampleObject :=
  [outlineW 3001 [3002], outlineElementW 3002 [] [3003] [],
   objectW 3003 .richTextNode [(.lastModifiedTime, .u32 0), (.paragraphStyle, .objectId),
     (.richEditTextUnicode, stringW ['H', 'i'])] [3004],
   objectW 3004 .paragraphStyleObject []]

private def elements : List Element :=
  ⟨sx 4, manifestOf sectionGuid⟩ ::
    storeElements [.root contentRole (sx 1000), .root metadataRole (sx 1001)] (sectionObjects none 1)
      [(pageCell, 5, [.root contentRole (sx 2002), .root metadataRole (sx 2001)],
        pageObjects [3001] objects)]

private def package : Packaging :=
  ⟨sectionGuid, Guid.nil, Guid.nil, packageStore, sx 3, sectionGuid, packageOf elements⟩

private theorem package_unambiguous : Unambiguous package where
  index := .inl (Option.isSome_iff_exists.mp (by decide +kernel))
  manifest := by decide +kernel
  cells := by
    have h : ∀ e ∈ package.package.storageIndexes, ∀ e' ∈ e.2.cellMappings,
        (package.package.resolveCellRevisionManifestId e.2 e'.2.id).isSome = true := by
      decide +kernel
    exact fun _ _ _ _ hi hm => .inr (.inl ((leads_iff _ _ _).mpr
      (Option.isSome_iff_exists.mp (h _ hi _ hm))))

private theorem file_parse :
    Packaging.parse (sectionFile none [3001] objects) = .ok (package, []) :=
  fileW_parse (by decide) (by decide +kernel)

private theorem file_plain : PlainFile (sectionFile none [3001] objects) := by
  intro p hp
  have h := holds_iff.1 hp
  unfold P.run at h
  rw [file_parse] at h
  cases h
  exact package_unambiguous

private def texts (s : Section) : List Text :=
  s.pageSeries.flatMap fun series => series.pages.flatMap fun p => p.contents.flatMap fun
    | .outline o => o.items.flatMap fun
      | .element e => e.contents.flatMap fun
        | .richText t => [t.text]
        | _ => []
      | _ => []
    | _ => []

/-- A file without ambiguities in which a section with this text is written. -/
example : ∃ data s, PlainFile data ∧ SectionFile data ['N'] s ∧ s.displayName = ['N'] ∧
    texts s = [['H', 'i']] := by
  have h : (parseSectionBuffer 2 Order.id (sectionFile none [3001] objects) ['N']).toOption.map
      (fun s => (s.displayName, texts s)) = some (['N'], [['H', 'i']]) := by
    decide +kernel
  obtain ⟨s, hs, he⟩ := Option.map_eq_some_iff.1 h
  simp only [Prod.mk.injEq] at he
  exact ⟨_, s, file_plain, C47_section_sound _ _ _ _ _ (toOption_some hs), he.1, he.2⟩

#print axioms C47_section_sound
#print axioms C47_section_complete
#print axioms C47_section_exactly
#print axioms C47_unique

end OneNote
