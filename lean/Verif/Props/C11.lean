/-
C11: Object groups with a metadata block are readable. FALSE of the code.
-/
import Verif.Lemmas.Reject
import Verif.Lemmas.Rejected
import Verif.Spec.SampleFile
import Verif.Lemmas.Write

namespace OneNote

open Spec

/-- Every package with an object group that carries a metadata block is rejected, whatever the
block contains and whatever follows. -/
theorem C11_metadata_rejected (es : List Element) (h bs mb rest : Bytes) (id : ExGuid)
    (ds : List Declaration) (hh : Start16 .dataElementPackage h) (he : ListEnc ElementEnc es bs)
    (hm : MetadataElementStart id ds mb) :
    ∃ e, Package.parse (h ++ (0 :: (bs ++ (mb ++ rest)))) = .error e := by
  obtain ⟨e, hf⟩ := metadataElement_fails hm rest
  exact ⟨e, package_fails hh he ((metadataElement_low hm).append rest) hf⟩

/-- Concrete witness: a group without objects and with an empty metadata block, closed with the
end header of the block. -/
theorem C11_refuted : ∃ id ds mb, MetadataElementStart id ds mb ∧
    ∃ e, Package.parse (hdr16 .dataElementPackage ++ (0 :: ([] ++ (mb ++
      (end16 (typeCode .objectGroupMetadataBlock) ++ (hdr16 .objectGroupData ++
        (end8 (typeCode .objectGroupData) ++ (dataElementEnd ++
          end8 (typeCode .dataElementPackage))))))))) = .error e := by
  have hm : MetadataElementStart ExGuid.nil [] _ :=
    .mk ⟨Guid.nil, 0⟩ _ _ _ _ _ (hdr16_start _) .null .null (compact_writer (by decide))
      (.mk _ _ _ (hdr16_start' _ (by decide)) .nil (.s32 _ (hdr32_start _)))
  exact ⟨_, _, _, hm, C11_metadata_rejected [] _ _ _ _ _ _ (hdr16_start _) .nil hm⟩

/-- What does hold: without the optional block the declarations and data are returned. -/
theorem C11_without_block_partial (ds : List Declaration) (os : List GroupData)
    (bs rest : Bytes) (h : BodyEnc (.objectGroup ds os) bs) :
    ObjectGroup.parse (bs ++ rest) = .ok (⟨ds, [], os⟩, rest) := by
  cases h with
  | objectGroup _ _ h bd h' bo hh hd hh' ho =>
    simp only [List.append_assoc]
    exact reads_objectGroup hh hd hh' ho rest

/-! ### Whole files -/

/-- A whole file with such an object group is rejected by every function of the parser. -/
theorem C11_file_rejected (a b c schema : Guid) (si id : ExGuid) (h bi hp bs mb rest : Bytes)
    (es : List Element) (ds : List Declaration) (hh : Start32 .oneNotePackaging h)
    (hi : ExGuidEnc si bi) (hs : Start16 .dataElementPackage hp) (he : ListEnc ElementEnc es bs)
    (hm : MetadataElementStart id ds mb) :
    ∃ e, Rejected (storeStart a b c h bi schema (hp ++ (0 :: (bs ++ (mb ++ rest))))) e := by
  obtain ⟨e, h⟩ := C11_metadata_rejected es hp bs mb rest id ds hs he hm
  exact ⟨e, rejected_package hh hi h⟩

/-- The elements of a section file. -/
private def sectionElements : List Element :=
  ⟨sx 4, manifestOf sectionGuid⟩ ::
  storeElements [.root contentRole (sx 1000), .root metadataRole (sx 1001)]
    (sectionObjects (some ['N']) 0)

private def fileStart : Bytes :=
  storeStart sectionGuid Guid.nil Guid.nil (hdr32 .oneNotePackaging) (exGuid (sx 3)) sectionGuid
    (hdr16 .dataElementPackage ++ (0 :: listW elementW sectionElements))

private def fileEnd : Bytes :=
  end8 (typeCode .dataElementPackage) ++ end16 (typeCode .oneNotePackaging)

/-- A section file that is shown, and rejected when an empty object group with an empty metadata block
is inserted after its elements. -/
theorem C11_section_refuted : ∃ before after id ds mb rest, MetadataElementStart id ds mb ∧
    (∃ s, parseSectionBuffer 1 Order.id (before ++ after) [] = .ok s) ∧
    ∃ e, Rejected (before ++ (mb ++ (rest ++ after))) e := by
  have hm : MetadataElementStart ExGuid.nil [] _ :=
    .mk ⟨Guid.nil, 0⟩ _ _ _ _ _ (hdr16_start _) .null .null (compact_writer (by decide))
      (.mk _ _ _ (hdr16_start' _ (by decide)) .nil (.s32 _ (hdr32_start _)))
  refine ⟨fileStart, fileEnd, _, _, _, end16 (typeCode .objectGroupMetadataBlock) ++
    (hdr16 .objectGroupData ++ (end8 (typeCode .objectGroupData) ++ dataElementEnd)), hm, ?_, ?_⟩
  · have h : (parseSectionBuffer 1 Order.id (fileStart ++ fileEnd) []).toOption.isSome = true := by
      decide +kernel
    cases hs : parseSectionBuffer 1 Order.id (fileStart ++ fileEnd) [] with
    | error e => rw [hs] at h; cases h
    | ok s => exact ⟨s, rfl⟩
  · have he : ListEnc ElementEnc sectionElements (listW elementW sectionElements) := by
      have hw : ∀ e ∈ sectionElements, ElementFits e := by decide +kernel
      exact listW_enc _ fun e h => elementW_enc (hw e h)
    obtain ⟨e, h⟩ := C11_file_rejected sectionGuid Guid.nil Guid.nil sectionGuid (sx 3) _ _ _ _ _ _ 
      (end16 (typeCode .objectGroupMetadataBlock) ++
        (hdr16 .objectGroupData ++ (end8 (typeCode .objectGroupData) ++ dataElementEnd)) ++ fileEnd)
      _ _ (hdr32_start _) (exGuid_writer (by decide)) (hdr16_start _) he hm
    refine ⟨e, ?_⟩
    simpa only [fileStart, storeStart, List.append_assoc, List.cons_append] using h

#print axioms C11_file_rejected
#print axioms C11_section_refuted
#print axioms C11_metadata_rejected
#print axioms C11_refuted
#print axioms C11_without_block_partial

end OneNote
