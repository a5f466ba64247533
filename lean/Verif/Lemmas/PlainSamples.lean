/-
The sample tables of contents and the empty sample section have no ambiguities.
-/
import Verif.Lemmas.WholeNotebook
import Verif.Spec.SampleFile

namespace OneNote.PlainSamples

open OneNote Spec Spec.StoreContents Spec.Document

def tocElements (entries : List (Nat × Text)) : List Element :=
  ⟨sx 4, manifestOf tocGuid⟩ :: storeElements [.root contentRole (sx 1000)]
    (objectW 1000 .tocContainer [(.tocChildren, .objectIds entries.length)]
        ((List.range entries.length).map (4000 + ·)) ::
      entries.zipIdx.map fun e => objectW (4000 + e.2) .tocContainer
        [(.folderChildFilename, stringW e.1.2), (.notebookElementOrderingId, .u32 e.1.1)]) []

def sectionElements : List Element :=
  ⟨sx 4, manifestOf sectionGuid⟩ :: storeElements [.root contentRole (sx 1000), .root metadataRole (sx 1001)]
    (sectionObjects none 0) []

def package (schema : Guid) (es : List Element) : Packaging :=
  ⟨schema, Guid.nil, Guid.nil, packageStore, sx 3, schema, packageOf es⟩

theorem package_unambiguous {p : Packaging}
    (hi : (p.package.storageIndexes.get? p.storageIndex).isSome = true)
    (hm : p.package.storageManifests.length ≤ 1)
    (h : ∀ e ∈ p.package.storageIndexes, ∀ e' ∈ e.2.cellMappings,
        (p.package.resolveCellRevisionManifestId e.2 e'.2.id).isSome = true) : Unambiguous p where
  index := .inl (Option.isSome_iff_exists.mp hi)
  manifest := hm
  cells := fun _ _ _ _ hi hm => .inr (.inl ((leads_iff _ _ _).mpr
      (Option.isSome_iff_exists.mp (h _ hi _ hm))))

theorem plain_of {data rest : Bytes} {p : Packaging}
    (h : Packaging.parse data = .ok (p, rest)) (hu : Unambiguous p) : PlainFile data := by
  intro p' hp
  have hp := holds_iff.1 hp
  unfold P.run at hp
  rw [h] at hp
  cases hp
  exact hu

theorem plain {schema : Guid} {es : List Element} (h : ∀ e ∈ es, ElementFits e)
    (hu : Unambiguous (package schema es)) : PlainFile (fileW (sx 3) schema es) :=
  plain_of (fileW_parse (by decide) h) hu

theorem toc_plain (entries : List (Nat × Text)) (h : ∀ e ∈ tocElements entries, ElementFits e)
    (hu : Unambiguous (package tocGuid (tocElements entries))) : PlainFile (tocFile entries) :=
  plain h hu

theorem section_plain : PlainFile (emptySectionFile none) :=
  plain (schema := sectionGuid) (es := sectionElements) (by decide +kernel)
    (package_unambiguous (by decide +kernel) (by decide +kernel) (by decide +kernel))

end OneNote.PlainSamples
