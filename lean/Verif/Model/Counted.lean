/-
The number of steps that it takes to assemble the object spaces of a file.

The same functions as in `Store.lean`, with a count of what is looked at: a step is one cell, one
revision manifest, one root declaration, one reference to an object group, one declaration of an
object group each time it is gone through, one byte or reference of an object when it is parsed, and
one entry of a table that is searched from its beginning.

Simplifications: a lookup in a hash map is no step of its own, and reading the bytes of the file into
the package before (`OneStorePackaging::parse`) is not counted.
-/
import Verif.Model.Section

namespace OneNote

/-- A result and the steps that it took. -/
structure Counted (α : Type) where
  result : Res α
  steps : Nat

namespace Counted

variable {α β : Type}

def bind' (c : Counted α) (f : α → Counted β) : Counted β :=
  match c.result with
  | .ok a => ⟨(f a).result, c.steps + (f a).steps⟩
  | .error e => ⟨.error e, c.steps⟩

instance : Monad Counted where
  pure a := ⟨.ok a, 0⟩
  bind := bind'

/-- That many steps. -/
def tick (n : Nat) : Counted Unit := ⟨.ok (), n⟩

/-- `res?` -/
def ofRes (r : Res α) : Counted α := ⟨r, 0⟩

end Counted

open Counted

namespace Revision

/-- The bytes and references of the properties that `Object::parse` goes through, object.rs L72-105. -/
def objectSteps (group : ObjectGroup) (objectId : ExGuid) : Nat :=
  match Object.findObject objectId Object.partitionObjectData (groupMap group) with
  | some (.object refs cells data) => refs.length + cells.length + data.length
  | _ => 0

/-- The body of the loop in `parse_group`, revision.rs L97-118. -/
def addObjectCounted (contextId objectSpaceId : ExGuid) (pkg : Package) (group : ObjectGroup)
    (objects : Objects) (objectId : ExGuid) : Counted Objects :=
  ⟨addObject contextId objectSpaceId pkg group objects objectId,
    if objects.contains objectId then 1 else 1 + objectSteps group objectId⟩

/-- `Revision::parse_group`, revision.rs L76-121. The declarations are gone through for `object_ids`
and `group_objects` (L88-95) before the loop. -/
def parseGroupCounted (contextId objectSpaceId : ExGuid) (pkg : Package) (objects : Objects)
    (groupId : ExGuid) : Counted Objects := do
  tick 1
  let group ← ofRes (orErr .malformedOneStore (pkg.findObjectGroup groupId))
  tick group.declarations.length
  (group.declarations.map (·.objectId)).foldlM
    (addObjectCounted contextId objectSpaceId pkg group) objects

/-- `Revision::parse`, revision.rs L24-74. -/
def parseCounted (contextId objectSpaceId : ExGuid) (si : StorageIndex) (pkg : Package)
    (revisionManifestId : ExGuid) (objects : Objects) (roots : Roots) :
    Counted (Option ExGuid × Objects × Roots) := do
  tick 1
  let rm ← ofRes (orErr .malformedOneStore (pkg.findRevisionManifest revisionManifestId))
  let base ← ofRes (baseOf pkg si rm)
  tick rm.rootDeclare.length
  let declared ← ofRes (parseRoots rm)
  let objects ← rm.groupReferences.foldlM (parseGroupCounted contextId objectSpaceId pkg) objects
  return (base, objects, roots.extend declared)

end Revision

namespace ObjectSpace

/-- The loop over the revisions, object_space.rs L85-98. -/
def followCounted (contextId objectSpaceId : ExGuid) (si : StorageIndex) (pkg : Package) :
    Nat → Option ExGuid → Objects → Roots → Counted (Objects × Roots)
  | _, none, objects, roots => pure (objects, roots)
  | 0, some _, _, _ => ofRes (.error .fuel)
  | n + 1, some rev, objects, roots => do
    let x ← Revision.parseCounted contextId objectSpaceId si pkg rev objects roots
    followCounted contextId objectSpaceId si pkg n x.1 x.2.1 x.2.2

/-- The steps to find the first revision: the revision mappings are searched from the beginning if the
cell manifest leads nowhere, object_space.rs L58-61. -/
def firstSteps (si : StorageIndex) (pkg : Package) (mapping : CellMapping) : Nat :=
  match pkg.resolveCellRevisionManifestId si mapping.id with
  | some _ => 0
  | none => si.revisionMappings.length

/-- `ObjectSpace::parse`, object_space.rs L43-108. -/
def parseCounted (ord : Order) (mapping : CellMapping) (si : StorageIndex) (pkg : Package) :
    Counted (CellId × ObjectSpace) := do
  tick (firstSteps si pkg mapping)
  match firstRevision ord si pkg mapping with
  | none =>
    if ((pkg.findCellRevisionId mapping.id).map (·.isNil)).getD false then
      pure (mapping.cellId, ⟨mapping.cellId.snd, mapping.cellId.fst, [], []⟩)
    else ofRes (.error .malformedOneStore)
  | some rev =>
    let x ← followCounted mapping.cellId.fst mapping.cellId.snd si pkg
      (pkg.revisionManifests.length + 1) (some rev) [] []
    pure (mapping.cellId, ⟨mapping.cellId.snd, mapping.cellId.fst, x.2, x.1⟩)

end ObjectSpace

namespace Store

/-- `parse_object_space`, mod.rs L122-134. -/
def parseObjectSpaceCounted (ord : Order) (cellId : CellId) (si : StorageIndex) (pkg : Package) :
    Counted (CellId × ObjectSpace) :=
  match si.cellMappings.get? cellId with
  | none => ofRes (.error .malformedOneStore)
  | some mapping => ObjectSpace.parseCounted ord mapping si pkg

/-- The body of the loop over the cell mappings, mod.rs L100-112. -/
def addSpaceCounted (ord : Order) (si : StorageIndex) (pkg : Package) (done : List CellId)
    (spaces : Map CellId ObjectSpace) (mapping : CellMapping) :
    Counted (Map CellId ObjectSpace) := do
  tick 1
  if mapping.id.isNil then pure spaces else
  if mapping.cellId ∈ done then pure spaces else
  let x ← parseObjectSpaceCounted ord mapping.cellId si pkg
  pure (spaces.insert x.1 x.2)

/-- The steps of `find_objects`, /repo/src/fsshttpb/data_element/mod.rs L73-107: the cell mappings and
the revision mappings are searched from the beginning if the cell manifest leads nowhere. -/
def findSteps (ord : Order) (pkg : Package) (cell : ExGuid) (si : StorageIndex) : Nat :=
  match pkg.resolveCellRevisionManifestId si cell with
  | some r => ((pkg.findRevisionManifest r).map fun m => m.groupReferences.length).getD 0
  | none => si.cellMappings.length + si.revisionMappings.length +
    ((pkg.findObjects ord cell si).toOption.map List.length).getD 0

/-- `parse_store`, mod.rs L43-120. -/
def parseCounted (ord : Order) (p : Packaging) : Counted Store := do
  let si ← ofRes (orErr .malformedOneStore (storageIndexOf ord p))
  let manifest ← ofRes (orErr .malformedOneStore (p.package.findStorageManifest ord))
  let headerCellId ← ofRes (findHeaderCellId manifest)
  let headerMappingId ← ofRes (orErr .malformedOneStore (si.findCellMappingId headerCellId))
  tick (findSteps ord p.package headerMappingId si)
  let headerObjects ← ofRes (p.package.findObjects ord headerMappingId si)
  let headerCell ← ofRes (orErr .malformedOneStore headerObjects.head?)
  let header ← ofRes (StoreHeader.parse headerCell)
  let dataRootCellId ← ofRes (findDataRootCellId manifest)
  let dataRoot ← parseObjectSpaceCounted ord dataRootCellId si p.package
  let spaces ← (si.cellMappings.values ord 4).foldlM
    (addSpaceCounted ord si p.package [headerCellId, dataRootCellId]) []
  return ⟨manifest.id, header, dataRoot.2, spaces⟩

end Store

/-- `OneStorePackaging::parse` and `parse_store`, /repo/src/onenote/mod.rs L62-63, L108-109, L131-132. -/
def readStoreCounted (ord : Order) (data : Bytes) : Counted Store := do
  let packaging ← ofRes (Packaging.parse.run data)
  Store.parseCounted ord packaging

end OneNote
