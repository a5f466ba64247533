/-
Which stored versions have been overwritten. A file keeps earlier revisions; an object that a newer
object group declares replaces the one in an older group ([MS-ONESTORE] 2.1.9).
-/
import Verif.Spec.Arrange
import Verif.Spec.StoreContents
import Verif.Spec.Each

namespace OneNote.Spec.History

open StoreContents

/-- The identifiers of the object groups of the revisions, newest first. -/
def groupIdsOf (ms : List RevisionManifest) : List ExGuid := ms.flatMap (·.groupReferences)

/-- `ms` is the history of some cell, newest revision first. -/
def HistoryOf (pkg : Package) (ms : List RevisionManifest) : Prop :=
  ∃ i si c m r, (i, si) ∈ pkg.storageIndexes ∧ (c, m) ∈ si.cellMappings ∧ Newest pkg si m r ∧
    RevisionChain pkg si r ms

/-- The object groups with these identifiers are overwritten: in every history, whatever they declare
is also declared by a newer group, which is not one of them. None is the first group of the newest
revision of a cell (where the header of the file is looked for). -/
structure Overwritten (pkg : Package) (old : ExGuid → Prop) : Prop where
  objects : ∀ ms, HistoryOf pkg ms → ∀ newer gid older g id,
    groupIdsOf ms = newer ++ gid :: older → old gid → pkg.objectGroups.get? gid = some g →
    Declares g id →
    ∃ gid' ∈ newer, ¬ old gid' ∧ ∃ g', pkg.objectGroups.get? gid' = some g' ∧ Declares g' id
  first : ∀ i si c m r rm gid, (i, si) ∈ pkg.storageIndexes → (c, m) ∈ si.cellMappings →
    HeaderRevision pkg si m.id r → pkg.revisionManifests.get? r = some rm →
    rm.groupReferences.head? = some gid → ¬ old gid

/-- The elements are the same, except that the contents of object groups with these identifiers may
differ. -/
def SameBut (old : ExGuid → Prop) (es es' : List LaxElement) : Prop :=
  Each (fun e e' => e' = e ∨ ∃ ds os ds' os', old e.id ∧ e.piece = .body (.objectGroup ds os) ∧
    e' = ⟨e.id, .body (.objectGroup ds' os')⟩) es es'

end OneNote.Spec.History
