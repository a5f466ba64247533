/-
The sample container is a legal serialisation of the sample elements.
-/
import Verif.Lemmas.Container
import Verif.Spec.Sample

namespace OneNote

open Spec

theorem hdr16_start (ty : ObjectType) : Start16 ty (hdr16 ty) := .mk true 0 (by decide)

theorem hdr16_start' (ty : ObjectType) (h : typeCode ty < 2 ^ 6) : Start ty (hdr16 ty) :=
  .s16 _ h (hdr16_start ty)

theorem hdr32_start (ty : ObjectType) : Start32 ty (hdr32 ty) := by
  refine .mk true 0 _ ?_
  exact .short 0 (by decide)

theorem exGuid_sample (v : Nat) (h : v < 2 ^ 32) : ExGuidEnc ⟨sampleGuid, v⟩ (exGuid ⟨sampleGuid, v⟩) :=
  exGuid_writer (by exact h)

theorem sampleTail_enc :
    PackagingTailEnc ⟨sampleGuid, 1⟩ sampleGuid sampleElements sampleTail := by
  refine .mk _ _ _ (hdr32_start _) (exGuid_sample _ (by decide)) ?_
  refine .mk _ _ _ (hdr16_start _) ?_
  refine .cons (.mk _ _ ⟨Guid.nil, 0⟩ _ _ _ _ _ (hdr16_start _) (exGuid_sample _ (by decide)) .null
    (compact_writer (by decide)) (.storageIndex _ _ ?_)) ?_
  · refine .cons (.manifest _ _ _ _ _ (hdr16_start _) (exGuid_sample _ (by decide)) .null) ?_
    refine .cons (.cell _ _ _ _ _ _ _ (hdr16_start _) (.mk _ _ _ _ (exGuid_sample _ (by decide)) .null)
      (exGuid_sample _ (by decide)) (.value _ _ (by decide))) ?_
    exact .cons (.revision _ _ _ _ _ _ _ (hdr16_start _) (exGuid_sample _ (by decide))
      (exGuid_sample _ (by decide)) .null) .nil
  refine .cons (.mk _ _ ⟨Guid.nil, 0⟩ _ _ _ _ _ (hdr16_start _) (exGuid_sample _ (by decide)) .null
    (compact_writer (by decide)) ?_) ?_
  · refine .objectGroup _ _ _ _ _ _ (hdr16_start' _ (by decide)) ?_ (hdr16_start' _ (by decide)) ?_
    · exact .cons (.object _ _ _ _ _ _ _ _ _ _ _ (hdr16_start' _ (by decide))
        (exGuid_sample _ (by decide)) (compact_writer (by decide)) (compact_writer (by decide))
        (compact_writer (by decide)) (compact_writer (by decide))) .nil
    · exact .cons (.object _ _ _ _ _ _ _ (hdr16_start' _ (by decide))
        (.mk _ _ _ (compact_writer (by decide)) (.cons (exGuid_sample _ (by decide)) .nil))
        (.mk _ _ _ (compact_writer (by decide)) .nil)
        (.mk _ _ (compact_writer (by decide)))) .nil
  refine .cons (.mk _ _ ⟨Guid.nil, 0⟩ _ _ _ _ _ (hdr16_start _) (exGuid_sample _ (by decide)) .null
    (compact_writer (by decide)) ?_) .nil
  exact .blob _ _ _ (hdr16_start' _ (by decide)) (.mk _ _ (compact_writer (by decide)))

/-- The package store around any legal tail. -/
theorem parse_packageStore (a b c : Guid) (si : ExGuid) (schema : Guid) (es : List Element)
    (bs : Bytes) (h : PackagingTailEnc si schema es bs) (r : Bytes) :
    Packaging.parse
        (guid a ++ (guid b ++ (guid c ++ (guid Packaging.packageStoreFormat ++ (bs ++ r))))) =
      .ok (⟨a, b, c, Packaging.packageStoreFormat, si, schema, packageOf es⟩, r) := by
  rw [parse_eq_const]
  unfold parseConst
  rw [P.bind_ok (Guid.parse_guid _ _), P.bind_ok (Guid.parse_guid _ _),
    P.bind_ok (Guid.parse_guid _ _), P.bind_ok (Guid.parse_guid _ _), if_pos rfl]
  exact reads_legacy _ _ _ _ _ _ _ _ h r

theorem sampleFile_parse (r : Bytes) :
    Packaging.parse (sampleFile ++ r) =
      .ok (⟨sampleGuid, Guid.nil, Guid.nil, Packaging.packageStoreFormat, ⟨sampleGuid, 1⟩,
        sampleGuid, packageOf sampleElements⟩, r) := by
  have := parse_packageStore sampleGuid Guid.nil Guid.nil _ _ _ _ sampleTail_enc r
  rw [← this]
  unfold sampleFile sampleHead
  simp only [List.append_assoc]

end OneNote
