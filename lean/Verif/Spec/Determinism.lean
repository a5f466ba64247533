/-
What it means for a file to leave no choice to the iteration order of hash maps.
-/
import Verif.Spec.Revisions
import Verif.Model.Store

namespace OneNote.Spec

/-- The cell manifest `id` leads to some revision manifest without looking at serial numbers. -/
def LeadsToRevision (pkg : Package) (si : StorageIndex) (id : ExGuid) : Prop :=
  (∃ c r, pkg.cellManifests.get? id = some c ∧ Resolves pkg si c r) ∨ ∃ r, Resolves pkg si id r

/-- The revision of a cell mapping is determined: its cell manifest leads to one, or else only one
revision is recorded under its serial number (and only one serial number under its id). -/
def Settled (pkg : Package) (si : StorageIndex) (m : CellMapping) : Prop :=
  LeadsToRevision pkg si m.id ∨
  ((∀ c m', (c, m') ∈ si.cellMappings → m'.id = m.id → m'.serial = m.serial) ∧
   ∀ a r a' r', (a, r) ∈ si.revisionMappings → (a', r') ∈ si.revisionMappings →
     r.serial = m.serial → r'.serial = m.serial → r.revisionMapping = r'.revisionMapping)

/-- A file without ambiguities: one storage index (or one named by the packaging header), one storage
manifest, and every cell that is read has a determined revision. -/
structure Unambiguous (p : Packaging) : Prop where
  index : (∃ si, p.package.storageIndexes.get? p.storageIndex = some si) ∨
    p.package.storageIndexes.length ≤ 1
  manifest : p.package.storageManifests.length ≤ 1
  cells : ∀ i si c m, (i, si) ∈ p.package.storageIndexes → (c, m) ∈ si.cellMappings →
    (m.id = ExGuid.nil ∧ ∀ j sm root, (j, sm) ∈ p.package.storageManifests → (root, c) ∉ sm.roots) ∨
    Settled p.package si m

/-- Two stores show the same contents. -/
def SameStore (s s' : Store) : Prop :=
  s.schema = s'.schema ∧ s.header = s'.header ∧ s.dataRoot = s'.dataRoot ∧
  ∀ id, s.objectSpaces.get? id = s'.objectSpaces.get? id

/-- Every storage index has at most one mapping per cell and keeps it under its own cell id (true of
every parsed file: `keyed_of_parse`). -/
def Keyed (p : Packaging) : Prop :=
  ∀ i si, (i, si) ∈ p.package.storageIndexes →
    (∀ c m, (c, m) ∈ si.cellMappings → m.cellId = c) ∧ (si.cellMappings.map Prod.fst).Nodup

end OneNote.Spec
