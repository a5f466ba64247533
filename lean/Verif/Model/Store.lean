/-
The object store: header, mapping tables, objects, revisions, object spaces.

Models /repo/src/onestore/*.rs.
-/
import Verif.Model.Container
import Verif.Model.PropSet

namespace OneNote

/-- `Option::ok_or(e)?` -/
def orErr {α : Type} (e : Err) : Option α → Res α
  | some a => .ok a
  | none => .error e

/-- Run a parser on a byte string and drop the reader (`Foo::parse(&mut Reader::new(data))?`). -/
def P.run {α : Type} (p : P α) (data : Bytes) : Res α :=
  match p data with
  | .ok (a, _) => .ok a
  | .error e => .error e

/-! ### Header (/repo/src/onestore/header.rs) -/

/-- `StoreHeader`, header.rs L16-21. -/
structure StoreHeader where
  fileIdentity : Guid
  ancestorIdentity : Guid
  lastCodeVersionThatWroteToIt : Option Nat
  fileNameCrc : Nat
  deriving DecidableEq, Repr

namespace StoreHeader

/-- `StoreHeader::parse_guid`, header.rs L78-84. -/
def parseGuid : PropertyValue → Res Guid
  | .vec data => Guid.parse.run data
  | _ => .error .malformedOneStore

/-- `StoreHeader::parse_u32`, header.rs L86-92. -/
def parseU32 : PropertyValue → Res Nat
  | .u32 v => .ok v
  | _ => .error .malformedOneStore

/-- `opt.map(f).transpose()?` -/
def optional {α β : Type} (f : α → Res β) : Option α → Res (Option β)
  | none => .ok none
  | some a => match f a with
    | .ok b => .ok (some b)
    | .error e => .error e

/-- `StoreHeader::parse`, header.rs L24-76. -/
def parse (data : ObjectGroup) : Res StoreHeader := do
  let x ← orErr .malformedOneStore
    ((data.declarations.zip data.objects).find? fun d => decide (d.1.partitionId = 1))
  let objectData ← (match x.2 with
    | .object _ _ data => .ok data
    | _ => .error .malformedOneStore : Res Bytes)
  let propSet ← ObjectPropSet.parse.run objectData
  let fi ← optional parseGuid (propSet.get .fileIdentityGuid)
  let fileIdentity ← orErr .malformedOneStore fi
  let ai ← optional parseGuid (propSet.get .fileAncestorIdentityGuid)
  let ancestorIdentity ← orErr .malformedOneStore ai
  let last ← optional parseU32 (propSet.get .fileLastCodeVersionThatWroteToIt)
  let crc ← optional parseU32 (propSet.get .fileNameCrc)
  let fileNameCrc ← orErr .malformedOneStore crc
  return ⟨fileIdentity, ancestorIdentity, last, fileNameCrc⟩

end StoreHeader

/-! ### Mapping table (/repo/src/onestore/mapping_table.rs) -/

/-- `HashMap<CompactId, Vec<(usize, T)>>`, mapping_table.rs L19-20. -/
abbrev IdTable (T : Type) := Map CompactId (List (Nat × T))

/-- `MappingTable`, mapping_table.rs L18-21. -/
structure MappingTable where
  objects : IdTable ExGuid
  objectSpaces : IdTable CellId
  deriving DecidableEq, Repr

namespace MappingTable

/-- `map.entry(cid).or_default().push((i, id))`, mapping_table.rs L33, L38. -/
def push {T : Type} (m : IdTable T) (e : (CompactId × T) × Nat) : IdTable T :=
  m.insert e.1.1 ((m.get? e.1.1).getD [] ++ [(e.2, e.1.2)])

/-- The two loops of `MappingTable::from_entries`, mapping_table.rs L31-39. -/
def tableOf {T : Type} (es : List (CompactId × T)) : IdTable T := es.zipIdx.foldl push []

/-- `MappingTable::from_entries`, mapping_table.rs L24-45. -/
def fromEntries (objects : List (CompactId × ExGuid)) (spaces : List (CompactId × CellId)) :
    MappingTable := ⟨tableOf objects, tableOf spaces⟩

/-- `MappingTable::get`, mapping_table.rs L55-74. -/
def lookup {T : Type} (index : Nat) (cid : CompactId) (table : IdTable T) : Option T :=
  match table.get? cid with
  | none => none
  | some [(_, id)] => some id
  | some entries => (entries.find? fun e => decide (e.1 = index)).map Prod.snd

/-- `MappingTable::get_object`, mapping_table.rs L47-49. -/
def getObject (t : MappingTable) (index : Nat) (cid : CompactId) : Option ExGuid :=
  lookup index cid t.objects

/-- `MappingTable::get_object_space`, mapping_table.rs L51-53. -/
def getObjectSpace (t : MappingTable) (index : Nat) (cid : CompactId) : Option CellId :=
  lookup index cid t.objectSpaces

end MappingTable

/-! ### Objects (/repo/src/onestore/object.rs) -/

/-- `Object`, object.rs L18-25. -/
structure Object where
  contextId : ExGuid
  jcId : Nat
  props : ObjectPropSet
  fileData : Option Bytes
  mapping : MappingTable
  deriving Repr

/-- `GroupData = HashMap<(ExGuid, u64), &ObjectGroupData>`, object_space.rs L12. -/
abbrev GroupMap := Map (ExGuid × Nat) GroupData

namespace Object

/-- `Partition`, object.rs L28-32. -/
def partitionMetadata : Nat := 4
def partitionObjectData : Nat := 1
def partitionFileData : Nat := 2

/-- `Object::find_object`, object.rs L161-167. -/
def findObject (id : ExGuid) (partition : Nat) (objects : GroupMap) : Option GroupData :=
  objects.get? (id, partition)

/-- `Object::find_blob_id`, object.rs L169-178. -/
def findBlobId (id : ExGuid) (objects : GroupMap) : Res (Option ExGuid) :=
  match findObject id partitionFileData objects with
  | none => .ok none
  | some (.blobReference _ _ blob) => .ok (some blob)
  | some _ => .error .malformedOneStore

/-- The mapping table of an object, object.rs L107-117 and L133-150. -/
def mappingOf (props : ObjectPropSet) (objectSpaceId : ExGuid) (objectRefs : List ExGuid)
    (cells : List CellId) : MappingTable :=
  let contextRefs := (cells.filter fun c => decide (c.snd = objectSpaceId)).map (·.fst)
  let spaceRefs := cells.filter fun c => decide (c.snd ≠ objectSpaceId)
  MappingTable.fromEntries
    (props.objectIds.zip objectRefs ++ props.contextIds.zip contextRefs)
    (props.objectSpaceIds.zip spaceRefs)

/-- `Object::parse`, object.rs L57-159. -/
def parse (objectId contextId objectSpaceId : ExGuid) (objects : GroupMap) (pkg : Package) :
    Res Object := do
  let metadataObject ← orErr .malformedOneStore (findObject objectId partitionMetadata objects)
  let dataObject ← orErr .malformedOneStore (findObject objectId partitionObjectData objects)
  let metadata ← (match metadataObject with
    | .object _ _ data => .ok data
    | _ => .error .malformedOneStore : Res Bytes)
  let jcId ← JcId.parse.run metadata
  let x ← (match dataObject with
    | .object group cells data => .ok (data, group, cells)
    | _ => .error .malformedOneStore : Res (Bytes × List ExGuid × List CellId))
  let props ← ObjectPropSet.parse.run x.1
  let blobId ← findBlobId objectId objects
  let fileData ← (match blobId with
    | none => .ok none
    | some b => (orErr .malformedOneStore (pkg.findBlob b)).map some : Res (Option Bytes))
  if props.objectIds.length < x.2.1.length then .error .malformedOneStore else
  if props.contextIds.length + props.objectSpaceIds.length ≠ x.2.2.length then
    .error .malformedOneStore else
  return ⟨contextId, jcId, props, fileData, mappingOf props objectSpaceId x.2.1 x.2.2⟩

end Object

/-! ### Revision roles (/repo/src/onestore/revision_role.rs) -/

/-- `RevisionRole`, revision_role.rs L10-15. -/
inductive RevisionRole where
  | defaultContent
  | metadata
  | encryptionKey
  | versionMetadata
  deriving DecidableEq, Repr

/-- `{4A3717F8-1C14-49E7-9526-81D942DE1741}`, revision_role.rs L19. -/
def RevisionRole.roleGuid : Guid :=
  ⟨0x4A, 0x37, 0x17, 0xF8, 0x1C, 0x14, 0x49, 0xE7, 0x95, 0x26, 0x81, 0xD9, 0x42, 0xDE, 0x17, 0x41⟩

/-- `RevisionRole::parse`, revision_role.rs L18-37. -/
def RevisionRole.parse (id : ExGuid) : Res RevisionRole :=
  if id.guid ≠ roleGuid then .error .malformedOneStore else
  match id.value with
  | 1 => .ok .defaultContent
  | 2 => .ok .metadata
  | 3 => .ok .encryptionKey
  | 4 => .ok .versionMetadata
  | _ => .error .malformedOneStore

/-! ### Revisions (/repo/src/onestore/revision.rs) -/

abbrev Objects := Map ExGuid Object
abbrev Roots := Map RevisionRole ExGuid

namespace Revision

/-- `group_objects`, revision.rs L90-95. -/
def groupMap (group : ObjectGroup) : GroupMap :=
  Map.ofList ((group.declarations.zip group.objects).map fun e =>
    ((e.1.objectId, e.1.partitionId), e.2))

/-- The body of the loop in `parse_group`, revision.rs L97-118. -/
def addObject (contextId objectSpaceId : ExGuid) (pkg : Package) (group : ObjectGroup)
    (objects : Objects) (objectId : ExGuid) : Res Objects :=
  if objects.contains objectId then .ok objects else
  if group.declarations.length ≠ group.objects.length then .error .malformedOneStore else
  match Object.parse objectId contextId objectSpaceId (groupMap group) pkg with
  | .error e => .error e
  | .ok o => .ok (objects.insert objectId o)

/-- `Revision::parse_group`, revision.rs L76-121. -/
def parseGroup (contextId objectSpaceId : ExGuid) (pkg : Package) (objects : Objects)
    (groupId : ExGuid) : Res Objects := do
  let group ← orErr .malformedOneStore (pkg.findObjectGroup groupId)
  (group.declarations.map (·.objectId)).foldlM
    (addObject contextId objectSpaceId pkg group) objects

/-- The roots a revision declares, revision.rs L62-66. -/
def parseRoots (rm : RevisionManifest) : Res (List (RevisionRole × ExGuid)) :=
  rm.rootDeclare.mapM fun r => (RevisionRole.parse r.rootId).map fun role => (role, r.objectId)

/-- The revision a manifest is based on, revision.rs L41-52. -/
def baseOf (pkg : Package) (si : StorageIndex) (rm : RevisionManifest) : Res (Option ExGuid) :=
  match rm.baseRevId.asOption with
  | none => .ok none
  | some mappingId =>
    (orErr .malformedOneStore (pkg.resolveRevisionManifestId si mappingId)).map some

/-- `Revision::parse`, revision.rs L24-74: returns the base revision and the updated objects and
roots. The `revision_cache` (L54-59) is left out: nothing in /repo ever inserts into it, so the
lookup always misses. -/
def parse (contextId objectSpaceId : ExGuid) (si : StorageIndex) (pkg : Package)
    (revisionManifestId : ExGuid) (objects : Objects) (roots : Roots) :
    Res (Option ExGuid × Objects × Roots) := do
  let rm ← orErr .malformedOneStore (pkg.findRevisionManifest revisionManifestId)
  let base ← baseOf pkg si rm
  let declared ← parseRoots rm
  let objects ← rm.groupReferences.foldlM (parseGroup contextId objectSpaceId pkg) objects
  return (base, objects, roots.extend declared)

end Revision

/-! ### Object spaces (/repo/src/onestore/object_space.rs) -/

/-- `ObjectSpace`, object_space.rs L23-28. -/
structure ObjectSpace where
  id : ExGuid
  context : ExGuid
  roots : Roots
  objects : Objects
  deriving Repr

namespace ObjectSpace

/-- `ObjectSpace::get_object`, object_space.rs L31-33. -/
def getObject (s : ObjectSpace) (id : ExGuid) : Option Object := s.objects.get? id

/-- `ObjectSpace::content_root`, object_space.rs L35-37. -/
def contentRoot (s : ObjectSpace) : Option ExGuid := s.roots.get? .defaultContent

/-- `ObjectSpace::metadata_root`, object_space.rs L39-41. -/
def metadataRoot (s : ObjectSpace) : Option ExGuid := s.roots.get? .metadata

/-- The `while let Some(..) = rev_id` loop, object_space.rs L85-98, with a bound on the number of
revisions followed. -/
def followRevisions (contextId objectSpaceId : ExGuid) (si : StorageIndex) (pkg : Package) :
    Nat → Option ExGuid → Objects → Roots → Res (Objects × Roots)
  | _, none, objects, roots => .ok (objects, roots)
  | 0, some _, _, _ => .error .fuel
  | n + 1, some rev, objects, roots =>
    match Revision.parse contextId objectSpaceId si pkg rev objects roots with
    | .error e => .error e
    | .ok (base, objects, roots) =>
      followRevisions contextId objectSpaceId si pkg n base objects roots

/-- The revision the loop starts with, object_space.rs L58-61. -/
def firstRevision (ord : Order) (si : StorageIndex) (pkg : Package) (mapping : CellMapping) :
    Option ExGuid :=
  (pkg.resolveCellRevisionManifestId si mapping.id).or
    (si.findRevisionMappingBySerial ord mapping.serial)

/-- `ObjectSpace::parse`, object_space.rs L43-108, following at most `fuel` revisions. -/
def parseFuel (fuel : Nat) (ord : Order) (mapping : CellMapping) (si : StorageIndex)
    (pkg : Package) : Res (CellId × ObjectSpace) :=
  let cellId := mapping.cellId
  match firstRevision ord si pkg mapping with
  | none =>
    if ((pkg.findCellRevisionId mapping.id).map (·.isNil)).getD false then
      .ok (cellId, ⟨cellId.snd, cellId.fst, [], []⟩)
    else .error .malformedOneStore
  | some rev =>
    match followRevisions cellId.fst cellId.snd si pkg fuel (some rev) [] [] with
    | .error e => .error e
    | .ok (objects, roots) => .ok (cellId, ⟨cellId.snd, cellId.fst, roots, objects⟩)

/-- `ObjectSpace::parse`, object_space.rs L43-108. The code's loop is unbounded; the bound is the
number of revision manifests, which is only exceeded when the loop never ends (theorem
`C23_bound_is_exact`). -/
def parse (ord : Order) (mapping : CellMapping) (si : StorageIndex) (pkg : Package) :
    Res (CellId × ObjectSpace) :=
  parseFuel (pkg.revisionManifests.length + 1) ord mapping si pkg

end ObjectSpace

/-! ### The store (/repo/src/onestore/mod.rs) -/

/-- `OneStore`, mod.rs L22-27. -/
structure Store where
  schema : Guid
  header : StoreHeader
  dataRoot : ObjectSpace
  objectSpaces : Map CellId ObjectSpace
  deriving Repr

namespace Store

/-- `OneStore::object_space`, mod.rs L38-40. -/
def objectSpace (s : Store) (id : CellId) : Option ObjectSpace := s.objectSpaces.get? id

/-- `{{1A5A319C-C26B-41AA-B9C5-9BD8C44E07D4}, 1}`, mod.rs L139. -/
def headerRoot : ExGuid :=
  ⟨⟨0x1A, 0x5A, 0x31, 0x9C, 0xC2, 0x6B, 0x41, 0xAA, 0xB9, 0xC5, 0x9B, 0xD8, 0xC4, 0x4E, 0x07, 0xD4⟩, 1⟩

/-- `{{84DEFAB9-AAA3-4A0D-A3A8-520C77AC7073}, 2}`, mod.rs L147. -/
def dataRootId : ExGuid :=
  ⟨⟨0x84, 0xDE, 0xFA, 0xB9, 0xAA, 0xA3, 0x4A, 0x0D, 0xA3, 0xA8, 0x52, 0x0C, 0x77, 0xAC, 0x70, 0x73⟩, 2⟩

/-- `find_header_cell_id`, mod.rs L136-142. -/
def findHeaderCellId (m : StorageManifest) : Res CellId :=
  orErr .malformedOneStore (m.roots.get? headerRoot)

/-- `find_data_root_cell_id`, mod.rs L144-150. -/
def findDataRootCellId (m : StorageManifest) : Res CellId :=
  orErr .malformedOneStore (m.roots.get? dataRootId)

/-- `parse_object_space`, mod.rs L122-134. -/
def parseObjectSpace (ord : Order) (cellId : CellId) (si : StorageIndex) (pkg : Package) :
    Res (CellId × ObjectSpace) :=
  match si.cellMappings.get? cellId with
  | none => .error .malformedOneStore
  | some mapping => ObjectSpace.parse ord mapping si pkg

/-- The body of the loop over the cell mappings, mod.rs L100-112. `done` holds the header cell and
the data root cell (`parsed_object_spaces`). -/
def addSpace (ord : Order) (si : StorageIndex) (pkg : Package) (done : List CellId)
    (spaces : Map CellId ObjectSpace) (mapping : CellMapping) : Res (Map CellId ObjectSpace) :=
  if mapping.id.isNil then .ok spaces else
  if mapping.cellId ∈ done then .ok spaces else
  match parseObjectSpace ord mapping.cellId si pkg with
  | .error e => .error e
  | .ok (id, space) => .ok (spaces.insert id space)

/-- The storage index used, mod.rs L47-51. -/
def storageIndexOf (ord : Order) (p : Packaging) : Option StorageIndex :=
  (p.package.findStorageIndexById p.storageIndex).or (p.package.findStorageIndex ord)

/-- `parse_store`, mod.rs L43-120 (the loop over the cell mappings is iteration site 4). -/
def parse (ord : Order) (p : Packaging) : Res Store := do
  let si ← orErr .malformedOneStore (storageIndexOf ord p)
  let manifest ← orErr .malformedOneStore (p.package.findStorageManifest ord)
  let headerCellId ← findHeaderCellId manifest
  let headerMappingId ← orErr .malformedOneStore (si.findCellMappingId headerCellId)
  let headerObjects ← p.package.findObjects ord headerMappingId si
  let headerCell ← orErr .malformedOneStore headerObjects.head?
  let header ← StoreHeader.parse headerCell
  let dataRootCellId ← findDataRootCellId manifest
  let dataRoot ← parseObjectSpace ord dataRootCellId si p.package
  let spaces ← (si.cellMappings.values ord 4).foldlM
    (addSpace ord si p.package [headerCellId, dataRootCellId]) []
  return ⟨manifest.id, header, dataRoot.2, spaces⟩

end Store

end OneNote
