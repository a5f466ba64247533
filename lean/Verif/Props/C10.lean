/-
C10: Containers with data element fragments are readable. FALSE of the code.
-/
import Verif.Lemmas.Reject
import Verif.Lemmas.Rejected
import Verif.Spec.SampleFile
import Verif.Lemmas.Write

namespace OneNote

open Spec

/-- Every package that holds a well-formed fragment element (behind any well-formed elements, and
followed by at least one more byte, as the package end requires) is rejected. -/
theorem C10_fragment_rejected (es : List Element) (h bs fb t : Bytes) (id : ExGuid) (f : Fragment)
    (x : UInt8) (hh : Start16 .dataElementPackage h) (he : ListEnc ElementEnc es bs)
    (hf : FragmentElementEnc id f fb) :
    Package.parse (h ++ (0 :: (bs ++ (fb ++ x :: t)))) = .error .malformedFssHttpB :=
  package_fragment_fails hh he hf

/-- Concrete witness: an empty fragment in a package of its own. -/
theorem C10_refuted : ∃ id f fb, FragmentElementEnc id f fb ∧
    Package.parse (hdr16 .dataElementPackage ++
      (0 :: (fb ++ end8 (typeCode .dataElementPackage)))) = .error .malformedFssHttpB := by
  have hf : FragmentElementEnc ExGuid.nil ⟨ExGuid.nil, 2, 0, 2, [1, 2]⟩ _ :=
    .mk ⟨Guid.nil, 0⟩ _ _ _ _ _ (hdr16_start _) .null .null (compact_writer (by decide))
      (.mk ExGuid.nil 0 2 [1, 2] _ _ _ _ _ (.s32 _ (hdr32_start _)) .null (compact_writer (by decide))
        (compact_writer (by decide)) (compact_writer (by decide)))
  exact ⟨_, _, _, hf, C10_fragment_rejected [] _ [] _ [] _ _ _ (hdr16_start _) .nil hf⟩

/-- What does hold: the fragment's own fields are read back, only the end header of its data
element is left unread. -/
theorem C10_fields_partial (f : Fragment) (bs rest : Bytes) (h : FragmentEnc f bs) :
    Fragment.parse (bs ++ rest) = .ok (f, dataElementEnd ++ rest) :=
  fragment_reads h rest

/-! ### Whole files -/

/-- A whole file with a fragment is rejected by every function of the parser, whatever elements stand
before the fragment and whatever follows it. -/
theorem C10_file_rejected (a b c schema : Guid) (si id : ExGuid) (h bi hp bs fb t : Bytes)
    (es : List Element) (f : Fragment) (x : UInt8) (hh : Start32 .oneNotePackaging h)
    (hi : ExGuidEnc si bi) (hs : Start16 .dataElementPackage hp) (he : ListEnc ElementEnc es bs)
    (hf : FragmentElementEnc id f fb) :
    Rejected (storeStart a b c h bi schema (hp ++ (0 :: (bs ++ (fb ++ x :: t))))) .malformedFssHttpB :=
  rejected_package hh hi (C10_fragment_rejected es hp bs fb t id f x hs he hf)

/-- The elements of a section file. -/
private def sectionElements : List Element :=
  ⟨sx 4, manifestOf sectionGuid⟩ ::
  storeElements [.root contentRole (sx 1000), .root metadataRole (sx 1001)]
    (sectionObjects (some ['N']) 0)

private def fileStart : Bytes :=
  storeStart sectionGuid Guid.nil Guid.nil (hdr32 .oneNotePackaging) (exGuid (sx 3)) sectionGuid
    (hdr16 .dataElementPackage ++ (0 :: listW elementW sectionElements))

private def fileEnd : Bytes :=
  end8 (typeCode .dataElementPackage) ++ end16 (typeCode .oneNotePackaging)

/-- A section file that is shown, and rejected when a fragment is inserted after its elements. -/
theorem C10_section_refuted : ∃ before after id f fb, FragmentElementEnc id f fb ∧
    (∃ s, parseSectionBuffer 1 Order.id (before ++ after) [] = .ok s) ∧
    Rejected (before ++ (fb ++ after)) .malformedFssHttpB := by
  have hf : FragmentElementEnc ExGuid.nil ⟨ExGuid.nil, 2, 0, 2, [1, 2]⟩ _ :=
    .mk ⟨Guid.nil, 0⟩ _ _ _ _ _ (hdr16_start _) .null .null (compact_writer (by decide))
      (.mk ExGuid.nil 0 2 [1, 2] _ _ _ _ _ (.s32 _ (hdr32_start _)) .null (compact_writer (by decide))
        (compact_writer (by decide)) (compact_writer (by decide)))
  refine ⟨fileStart, fileEnd, _, _, _, hf, ?_, ?_⟩
  · have h : (parseSectionBuffer 1 Order.id (fileStart ++ fileEnd) []).toOption.isSome = true := by
      decide +kernel
    cases hs : parseSectionBuffer 1 Order.id (fileStart ++ fileEnd) [] with
    | error e => rw [hs] at h; cases h
    | ok s => exact ⟨s, rfl⟩
  · have he : ListEnc ElementEnc sectionElements (listW elementW sectionElements) := by
      have hw : ∀ e ∈ sectionElements, ElementFits e := by decide +kernel
      exact listW_enc _ fun e h => elementW_enc (hw e h)
    obtain ⟨x, t, hx⟩ : ∃ x t, fileEnd = x :: t := ⟨_, _, rfl⟩
    rw [hx]
    have := C10_file_rejected sectionGuid Guid.nil Guid.nil sectionGuid (sx 3) _ _ _ _ _ _
      t _ _ x (hdr32_start _) (exGuid_writer (by decide)) (hdr16_start _) he hf
    simpa only [fileStart, storeStart, List.append_assoc, List.cons_append] using this

#print axioms C10_file_rejected
#print axioms C10_section_refuted
#print axioms C10_fragment_rejected
#print axioms C10_refuted
#print axioms C10_fields_partial

end OneNote
