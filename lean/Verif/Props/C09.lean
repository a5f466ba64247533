/-
C09: Container round trip.
-/
import Verif.Lemmas.Write
import Verif.Spec.Store

namespace OneNote

open Spec

/-- Every legal serialisation of a list of data elements is parsed back to exactly those elements,
and exactly the bytes of the package are consumed. -/
theorem C09_package_round_trip (es : List Element) (bs rest : Bytes) (h : PackageEnc es bs) :
    Package.parse (bs ++ rest) = .ok (packageOf es, rest) :=
  reads_package es bs h rest

/-- The same for a whole package-store file. -/
theorem C09_file_round_trip (fileType file legacy : Guid) (si : ExGuid) (schema : Guid)
    (es : List Element) (bs rest : Bytes) (h : PackagingTailEnc si schema es bs) :
    Packaging.parse
        (guid fileType ++ (guid file ++ (guid legacy ++ (guid packageStore ++ (bs ++ rest))))) =
      .ok (⟨fileType, file, legacy, packageStore, si, schema, packageOf es⟩, rest) :=
  parse_packageStore fileType file legacy si schema es bs h rest

/-- Every list of data elements whose numbers fit their fields can be written, and the file is read
back. -/
theorem C09_every_package_has_a_file (si : ExGuid) (schema : Guid) (es : List Element)
    (hs : ExGuidFits si) (h : ∀ e ∈ es, ElementFits e) :
    PackagingTailEnc si schema es (tailW si schema es) ∧
    ∃ bs, Packaging.parse bs =
      .ok (⟨schema, Guid.nil, Guid.nil, packageStore, si, schema, packageOf es⟩, []) :=
  ⟨tailW_enc hs h, fileW si schema es, fileW_parse hs h⟩

/-- `packageOf` looks each identifier up in the list of written elements of that kind and finds the
one written last; nothing else is in the package. -/
theorem C09_last_element_kept (es : List Element) (id : ExGuid) :
    (packageOf es).storageIndexes.get? id = lastWith (storageIndexes es) id ∧
    (packageOf es).storageManifests.get? id = lastWith (storageManifests es) id ∧
    (packageOf es).cellManifests.get? id = lastWith (cellManifests es) id ∧
    (packageOf es).revisionManifests.get? id = lastWith (revisionManifests es) id ∧
    (packageOf es).objectGroups.get? id = lastWith (objectGroups es) id ∧
    (packageOf es).blobs.get? id = lastWith (blobs es) id ∧
    (packageOf es).fragments = [] :=
  ⟨Map.get?_ofList _ _, Map.get?_ofList _ _, Map.get?_ofList _ _, Map.get?_ofList _ _,
    Map.get?_ofList _ _, Map.get?_ofList _ _, rfl⟩

/-- Inside a storage index and a storage manifest, too, the last entry for a key is the one kept. -/
theorem C09_last_entry_kept (items : List IndexItem) (cell : CellId) (rev : ExGuid) (g : Guid)
    (roots : List (ExGuid × CellId)) (root : ExGuid) :
    (indexOf items).cellMappings.get? cell = lastWith (items.filterMap fun
      | .cell c i s => some (c, (⟨c, i, s⟩ : CellMapping))
      | _ => none) cell ∧
    (indexOf items).revisionMappings.get? rev = lastWith (items.filterMap fun
      | .revision i m s => some (i, (⟨m, s⟩ : RevisionMapping))
      | _ => none) rev ∧
    (⟨g, Map.ofList roots⟩ : StorageManifest).roots.get? root = lastWith roots root :=
  ⟨Map.get?_ofList _ _, Map.get?_ofList _ _, Map.get?_ofList _ _⟩

/-- No identifier occurs twice in the result. -/
theorem C09_no_duplicates (es : List Element) :
    ((packageOf es).storageIndexes.map Prod.fst).Nodup ∧
    ((packageOf es).storageManifests.map Prod.fst).Nodup ∧
    ((packageOf es).cellManifests.map Prod.fst).Nodup ∧
    ((packageOf es).revisionManifests.map Prod.fst).Nodup ∧
    ((packageOf es).objectGroups.map Prod.fst).Nodup ∧
    ((packageOf es).blobs.map Prod.fst).Nodup :=
  ⟨Map.nodup_ofList _, Map.nodup_ofList _, Map.nodup_ofList _, Map.nodup_ofList _,
    Map.nodup_ofList _, Map.nodup_ofList _⟩

/-- The sample elements have a legal serialisation (storage index with all three kinds of entries,
object group, blob), and are parsed back. -/
example : ∃ bs, PackagingTailEnc ⟨sampleGuid, 1⟩ sampleGuid sampleElements bs ∧
    bs.length = 291 := ⟨_, sampleTail_enc, by decide +kernel⟩

/-- Two blobs under one identifier: the later one is kept. -/
example : (packageOf [⟨⟨sampleGuid, 3⟩, .blob [1]⟩, ⟨⟨sampleGuid, 4⟩, .blob [2]⟩,
    ⟨⟨sampleGuid, 3⟩, .blob [3]⟩]).blobs.get? ⟨sampleGuid, 3⟩ = some [3] := by decide

#print axioms C09_package_round_trip
#print axioms C09_file_round_trip
#print axioms C09_every_package_has_a_file
#print axioms C09_last_element_kept
#print axioms C09_last_entry_kept
#print axioms C09_no_duplicates

end OneNote
