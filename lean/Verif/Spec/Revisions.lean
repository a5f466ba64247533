/-
Revision histories ([MS-ONESTORE] 2.1.8 to 2.1.10): which revisions make up an
object space, which object groups they refer to and which roots they declare.
Nothing here mentions the model's parsing functions.
-/
import Verif.Spec.Container

namespace OneNote.Spec

/-- A base revision reference `id` leads to the revision manifest `r`: through the storage index's
revision mapping if it has an entry for `id`, otherwise directly. -/
def Resolves (pkg : Package) (si : StorageIndex) (id r : ExGuid) : Prop :=
  match si.revisionMappings.get? id with
  | some m => r = m.revisionMapping
  | none => r = id ∧ (pkg.revisionManifests.get? id).isSome

/-- `RevisionChain pkg si r ms`: starting with the revision manifest `r` and following the base
revisions, the manifests are `ms`, newest first; the last one has no base. -/
inductive RevisionChain (pkg : Package) (si : StorageIndex) :
    ExGuid → List RevisionManifest → Prop where
  | oldest (r : ExGuid) (m : RevisionManifest) (hm : pkg.revisionManifests.get? r = some m)
      (hb : m.baseRevId = ExGuid.nil) : RevisionChain pkg si r [m]
  | based (r b : ExGuid) (m : RevisionManifest) (ms : List RevisionManifest)
      (hm : pkg.revisionManifests.get? r = some m) (hb : m.baseRevId ≠ ExGuid.nil)
      (hr : Resolves pkg si m.baseRevId b) (h : RevisionChain pkg si b ms) :
      RevisionChain pkg si r (m :: ms)

/-- The object groups of the revisions, in the order of the list, within a revision in file order. -/
def groupsOf (pkg : Package) (ms : List RevisionManifest) : List ObjectGroup :=
  ms.flatMap fun m => m.groupReferences.filterMap pkg.objectGroups.get?

/-- The object and the partition that a declaration is for ([MS-FSSHTTPB] 2.2.1.12.6.1 and
2.2.1.12.6.2). -/
def declared : Declaration → ExGuid × Nat
  | .object id partition _ _ _ => (id, partition)
  | .blob id _ partition _ _ => (id, partition)

/-- The group declares an object with this identifier. -/
def Declares (g : ObjectGroup) (id : ExGuid) : Prop := ∃ d ∈ g.declarations, (declared d).1 = id

/-- The data stored in the group for an object and partition (a later entry replaces an earlier one). -/
def storedData (g : ObjectGroup) (id : ExGuid) (part : Nat) : Option GroupData :=
  lastWith ((g.declarations.zip g.objects).map fun e => (declared e.1, e.2))
    (id, part)

/-- All root declarations of the revisions, in the order of the list. -/
def rootsOf (ms : List RevisionManifest) : List (ExGuid × ExGuid) :=
  ms.flatMap fun m => m.rootDeclare.map fun r => (r.rootId, r.objectId)

/-- `{4A3717F8-1C14-49E7-9526-81D942DE1741}` -/
def rootGuid : Guid :=
  ⟨0x4A, 0x37, 0x17, 0xF8, 0x1C, 0x14, 0x49, 0xE7, 0x95, 0x26, 0x81, 0xD9, 0x42, 0xDE, 0x17, 0x41⟩

/-- Root role 1: the content of the object space. -/
def contentRole : ExGuid := ⟨rootGuid, 1⟩

/-- Root role 2: the metadata of the object space. -/
def metadataRole : ExGuid := ⟨rootGuid, 2⟩

end OneNote.Spec
