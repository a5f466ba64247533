/-
Data elements, the data element package and the OneNote packaging structure.

Models /repo/src/fsshttpb/data_element/*.rs and /repo/src/fsshttpb/packaging.rs.
-/
import Verif.Model.Data
import Verif.Model.Map

namespace OneNote

/-! ### Storage index (/repo/src/fsshttpb/data_element/storage_index.rs) -/

/-- `StorageIndexManifestMapping`, storage_index.rs L48-51. -/
structure ManifestMapping where
  mappingId : ExGuid
  serial : SerialNumber
  deriving DecidableEq, Repr

/-- `StorageIndexCellMapping`, storage_index.rs L56-60. -/
structure CellMapping where
  cellId : CellId
  id : ExGuid
  serial : SerialNumber
  deriving DecidableEq, Repr

/-- `StorageIndexRevisionMapping`, storage_index.rs L65-68. -/
structure RevisionMapping where
  revisionMapping : ExGuid
  serial : SerialNumber
  deriving DecidableEq, Repr

/-- `StorageIndex`, storage_index.rs L18-22. -/
structure StorageIndex where
  manifestMappings : List ManifestMapping
  cellMappings : Map CellId CellMapping
  revisionMappings : Map ExGuid RevisionMapping
  deriving DecidableEq, Repr

namespace StorageIndex

def empty : StorageIndex := ⟨[], [], []⟩

/-- `find_cell_mapping_id`, storage_index.rs L25-27. -/
def findCellMappingId (si : StorageIndex) (cell : CellId) : Option ExGuid :=
  (si.cellMappings.get? cell).map (·.id)

/-- `find_revision_mapping_id`, storage_index.rs L29-33. -/
def findRevisionMappingId (si : StorageIndex) (id : ExGuid) : Option ExGuid :=
  (si.revisionMappings.get? id).map (·.revisionMapping)

/-- `find_revision_mapping_by_serial`, storage_index.rs L35-42: the first match
in the map's iteration order (site 0). -/
def findRevisionMappingBySerial (ord : Order) (si : StorageIndex) (serial : SerialNumber) :
    Option ExGuid :=
  ((si.revisionMappings.values ord 0).find? (fun m => decide (m.serial = serial))).map
    (·.revisionMapping)

/-- One iteration of the loop of `parse_storage_index`, storage_index.rs
L81-102, with the three mapping parsers L114-150. -/
def parseItem (si : StorageIndex) : P StorageIndex := do
  let h ← ObjectHeader.parse16
  match h.objectType with
  | .storageIndexManifestMapping =>
    let mappingId ← ExGuid.parse
    let serial ← SerialNumber.parse
    return { si with manifestMappings := si.manifestMappings ++ [⟨mappingId, serial⟩] }
  | .storageIndexCellMapping =>
    let cellId ← CellId.parse
    let id ← ExGuid.parse
    let serial ← SerialNumber.parse
    return { si with cellMappings := si.cellMappings.insert cellId ⟨cellId, id, serial⟩ }
  | .storageIndexRevisionMapping =>
    let id ← ExGuid.parse
    let revisionMapping ← ExGuid.parse
    let serial ← SerialNumber.parse
    return { si with revisionMappings := si.revisionMappings.insert id ⟨revisionMapping, serial⟩ }
  | _ => P.fail .malformedFssHttpB

/-- `DataElement::parse_storage_index`, storage_index.rs L71-112. -/
def parse : P StorageIndex := untilEnd8 .dataElement parseItem empty

end StorageIndex

/-! ### Storage manifest (/repo/src/fsshttpb/data_element/storage_manifest.rs) -/

/-- `StorageManifest`, storage_manifest.rs L17-20. -/
structure StorageManifest where
  id : Guid
  roots : Map ExGuid CellId
  deriving DecidableEq, Repr

namespace StorageManifest

/-- One iteration of the loop, storage_manifest.rs L35-40. -/
def parseItem (roots : Map ExGuid CellId) : P (Map ExGuid CellId) := do
  ObjectHeader.tryParse16 .storageManifestRoot
  let rootManifest ← ExGuid.parse
  let cell ← CellId.parse
  return roots.insert rootManifest cell

/-- `DataElement::parse_storage_manifest`, storage_manifest.rs L23-46. -/
def parse : P StorageManifest := do
  ObjectHeader.tryParse16 .storageManifest
  let id ← Guid.parse
  let roots ← untilEnd8 .dataElement parseItem []
  return ⟨id, roots⟩

end StorageManifest

/-! ### Cell manifest (/repo/src/fsshttpb/data_element/cell_manifest.rs) -/

/-- `DataElement::parse_cell_manifest`, cell_manifest.rs L14-22. -/
def CellManifest.parse : P ExGuid := do
  ObjectHeader.tryParse16 .cellManifest
  let id ← ExGuid.parse
  ObjectHeader.tryParseEnd8 .dataElement
  return id

/-! ### Revision manifest (/repo/src/fsshttpb/data_element/revision_manifest.rs) -/

/-- `RevisionManifestRootDeclare`, revision_manifest.rs L23-26. -/
structure RootDeclare where
  rootId : ExGuid
  objectId : ExGuid
  deriving DecidableEq, Repr

/-- `RevisionManifest`, revision_manifest.rs L14-19. -/
structure RevisionManifest where
  revId : ExGuid
  baseRevId : ExGuid
  rootDeclare : List RootDeclare
  groupReferences : List ExGuid
  deriving DecidableEq, Repr

namespace RevisionManifest

/-- One iteration of the loop, revision_manifest.rs L52-67 (and L29-34). -/
def parseItem (m : RevisionManifest) : P RevisionManifest := do
  let h ← ObjectHeader.parse16
  match h.objectType with
  | .revisionManifestRoot =>
    let rootId ← ExGuid.parse
    let objectId ← ExGuid.parse
    return { m with rootDeclare := m.rootDeclare ++ [⟨rootId, objectId⟩] }
  | .revisionManifestGroupReference =>
    let g ← ExGuid.parse
    return { m with groupReferences := m.groupReferences ++ [g] }
  | _ => P.fail .malformedFssHttpB

/-- `DataElement::parse_revision_manifest`, revision_manifest.rs L38-80. -/
def parse : P RevisionManifest := do
  ObjectHeader.tryParse16 .revisionManifest
  let revId ← ExGuid.parse
  let baseRevId ← ExGuid.parse
  untilEnd8 .dataElement parseItem ⟨revId, baseRevId, [], []⟩

end RevisionManifest

/-! ### Data element fragment (/repo/src/fsshttpb/data_element/data_element_fragment.rs) -/

/-- `DataElementFragment` and its chunk reference, data_element_fragment.rs L16-28. -/
structure Fragment where
  id : ExGuid
  size : Nat
  offset : Nat
  length : Nat
  data : Bytes
  deriving DecidableEq, Repr

/-- `DataElement::parse_data_element_fragment`, data_element_fragment.rs
L36-55. No end header is read. -/
def Fragment.parse : P Fragment := do
  ObjectHeader.tryParse .dataElementFragment
  let id ← ExGuid.parse
  let size ← CompactU64.parse
  let offset ← CompactU64.parse
  let length ← CompactU64.parse
  let data ← readN size
  return ⟨id, size, offset, length, data⟩

/-! ### Object data blob (/repo/src/fsshttpb/data_element/object_data_blob.rs) -/

/-- `DataElement::parse_object_data_blob`, object_data_blob.rs L29-37. -/
def ObjectDataBlob.parse : P Bytes := do
  ObjectHeader.tryParse .objectDataBlob
  let data ← BinaryItem.parse
  ObjectHeader.tryParseEnd8 .dataElement
  return data

/-! ### Object group (/repo/src/fsshttpb/data_element/object_group.rs) -/

/-- `ObjectGroupDeclaration`, object_group.rs L32-47. -/
inductive Declaration where
  | object (objectId : ExGuid) (partitionId dataSize objectReferenceCount cellReferenceCount : Nat)
  | blob (objectId blobId : ExGuid) (partitionId objectReferenceCount cellReferenceCount : Nat)
  deriving DecidableEq, Repr

/-- `ObjectGroupDeclaration::partition_id`, object_group.rs L50-55. -/
def Declaration.partitionId : Declaration → Nat
  | .object _ p _ _ _ => p
  | .blob _ _ p _ _ => p

/-- `ObjectGroupDeclaration::object_id`, object_group.rs L57-62. -/
def Declaration.objectId : Declaration → ExGuid
  | .object i _ _ _ _ => i
  | .blob i _ _ _ _ => i

/-- `ObjectChangeFrequency`, object_group.rs L78-84. -/
inductive ChangeFrequency where
  | unknown | frequent | infrequent | independent | custom
  deriving DecidableEq, Repr

/-- `ObjectChangeFrequency::parse`, object_group.rs L87-105. -/
def ChangeFrequency.parse : Nat → Option ChangeFrequency
  | 0 => some .unknown
  | 1 => some .frequent
  | 2 => some .infrequent
  | 3 => some .independent
  | 4 => some .custom
  | _ => none

/-- `ObjectGroupData`, object_group.rs L109-140. -/
inductive GroupData where
  | object (group : List ExGuid) (cells : List CellId) (data : Bytes)
  | excluded (group : List ExGuid) (cells : List CellId) (size : Nat)
  | blobReference (objects : List ExGuid) (cells : List CellId) (blob : ExGuid)
  deriving DecidableEq, Repr

/-- `ObjectGroup`, object_group.rs L19-23. -/
structure ObjectGroup where
  declarations : List Declaration
  metadata : List ChangeFrequency
  objects : List GroupData
  deriving DecidableEq, Repr

namespace ObjectGroup

/-- One iteration of the declarations loop, object_group.rs L228-266. -/
def parseDeclaration (ds : List Declaration) : P (List Declaration) := do
  let h ← ObjectHeader.parse
  match h.objectType with
  | .objectGroupObject =>
    let objectId ← ExGuid.parse
    let partitionId ← CompactU64.parse
    let dataSize ← CompactU64.parse
    let objectReferenceCount ← CompactU64.parse
    let cellReferenceCount ← CompactU64.parse
    return ds ++ [.object objectId partitionId dataSize objectReferenceCount cellReferenceCount]
  | .objectGroupDataBlob =>
    let objectId ← ExGuid.parse
    let blobId ← ExGuid.parse
    let partitionId ← CompactU64.parse
    let objectReferenceCount ← CompactU64.parse
    let cellReferenceCount ← CompactU64.parse
    return ds ++ [.blob objectId blobId partitionId objectReferenceCount cellReferenceCount]
  | _ => P.fail .malformedFssHttpB

/-- `DataElement::parse_object_group_declarations`, object_group.rs L218-272. -/
def parseDeclarations : P (List Declaration) := do
  ObjectHeader.tryParse .objectGroupDeclaration
  untilEnd8 .objectGroupDeclaration parseDeclaration []

/-- One iteration of the metadata loop, object_group.rs L282-287. -/
def parseMetadataItem (ms : List ChangeFrequency) : P (List ChangeFrequency) := do
  ObjectHeader.tryParse32 .objectGroupMetadata
  let frequency ← CompactU64.parse
  let f ← P.ofOption .malformedFssHttpB (ChangeFrequency.parse frequency)
  return ms ++ [f]

/-- `DataElement::parse_object_group_metadata`, object_group.rs L274-293. -/
def parseMetadata : P (List ChangeFrequency) :=
  untilEnd8 .objectGroupMetadataBlock parseMetadataItem []

/-- One iteration of the data loop, object_group.rs L303-336. -/
def parseDataItem (os : List GroupData) : P (List GroupData) := do
  let h ← ObjectHeader.parse
  match h.objectType with
  | .objectGroupDataExcluded =>
    let group ← ExGuid.parseArray
    let cells ← CellId.parseArray
    let size ← CompactU64.parse
    return os ++ [.excluded group cells size]
  | .objectGroupDataObject =>
    let group ← ExGuid.parseArray
    let cells ← CellId.parseArray
    let data ← BinaryItem.parse
    return os ++ [.object group cells data]
  | .objectGroupBlobReference =>
    let references ← ExGuid.parseArray
    let cells ← CellId.parseArray
    let blob ← ExGuid.parse
    return os ++ [.blobReference references cells blob]
  | _ => P.fail .malformedFssHttpB

/-- `DataElement::parse_object_group_data`, object_group.rs L295-342. -/
def parseData : P (List GroupData) := untilEnd8 .objectGroupData parseDataItem []

/-- The optional metadata block of `parse_object_group`, object_group.rs L183-206. -/
def parseMetadataOpt : P (List ChangeFrequency) := do
  let h ← ObjectHeader.parse
  match h.objectType with
  | .objectGroupMetadataBlock =>
    let metadata ← parseMetadata
    ObjectHeader.tryParse .objectGroupData
    return metadata
  | .objectGroupData => return []
  | _ => P.fail .malformedFssHttpB

/-- `DataElement::parse_object_group`, object_group.rs L180-216. -/
def parse : P ObjectGroup := do
  let declarations ← parseDeclarations
  let metadata ← parseMetadataOpt
  let objects ← parseData
  ObjectHeader.tryParseEnd8 .dataElement
  return ⟨declarations, metadata, objects⟩

end ObjectGroup

/-! ### Data element package (/repo/src/fsshttpb/data_element/mod.rs) -/

/-- `DataElementPackage`, data_element/mod.rs L31-39. -/
structure Package where
  storageIndexes : Map ExGuid StorageIndex
  storageManifests : Map ExGuid StorageManifest
  cellManifests : Map ExGuid ExGuid
  revisionManifests : Map ExGuid RevisionManifest
  objectGroups : Map ExGuid ObjectGroup
  fragments : Map ExGuid Fragment
  blobs : Map ExGuid Bytes
  deriving DecidableEq, Repr

namespace Package

/-- data_element/mod.rs L49-57. -/
def empty : Package := ⟨[], [], [], [], [], [], []⟩

/-- `DataElement::parse`, data_element/mod.rs L176-228. -/
def parseElement (pkg : Package) : P Package := do
  ObjectHeader.tryParse16 .dataElement
  let id ← ExGuid.parse
  let _serial ← SerialNumber.parse
  let elementType ← CompactU64.parse
  match elementType with
  | 0x01 => do
    let x ← StorageIndex.parse
    return { pkg with storageIndexes := pkg.storageIndexes.insert id x }
  | 0x02 => do
    let x ← StorageManifest.parse
    return { pkg with storageManifests := pkg.storageManifests.insert id x }
  | 0x03 => do
    let x ← CellManifest.parse
    return { pkg with cellManifests := pkg.cellManifests.insert id x }
  | 0x04 => do
    let x ← RevisionManifest.parse
    return { pkg with revisionManifests := pkg.revisionManifests.insert id x }
  | 0x05 => do
    let x ← ObjectGroup.parse
    return { pkg with objectGroups := pkg.objectGroups.insert id x }
  | 0x06 => do
    let x ← Fragment.parse
    return { pkg with fragments := pkg.fragments.insert id x }
  | 0x0A => do
    let x ← ObjectDataBlob.parse
    return { pkg with blobs := pkg.blobs.insert id x }
  | _ => P.fail .malformedFssHttpB

/-- `DataElementPackage::parse`, data_element/mod.rs L42-70. -/
def parse : P Package := do
  ObjectHeader.tryParse16 .dataElementPackage
  let pad ← getU8
  if pad ≠ 0 then P.fail .malformedFssHttpB else
  untilEnd8 .dataElementPackage parseElement empty

/-- `find_blob`, data_element/mod.rs L110-112. -/
def findBlob (pkg : Package) (id : ExGuid) : Option Bytes := pkg.blobs.get? id

/-- `find_storage_index`, data_element/mod.rs L115-117 (iteration site 1). -/
def findStorageIndex (ord : Order) (pkg : Package) : Option StorageIndex :=
  (pkg.storageIndexes.values ord 1).head?

/-- `find_storage_index_by_id`, data_element/mod.rs L120-122. -/
def findStorageIndexById (pkg : Package) (id : ExGuid) : Option StorageIndex :=
  pkg.storageIndexes.get? id

/-- `find_storage_manifest`, data_element/mod.rs L125-127 (iteration site 2). -/
def findStorageManifest (ord : Order) (pkg : Package) : Option StorageManifest :=
  (pkg.storageManifests.values ord 2).head?

/-- `resolve_revision_manifest_id`, data_element/mod.rs L130-138. -/
def resolveRevisionManifestId (pkg : Package) (si : StorageIndex) (id : ExGuid) : Option ExGuid :=
  (si.findRevisionMappingId id).or
    (if pkg.revisionManifests.contains id then some id else none)

/-- `find_cell_revision_id`, data_element/mod.rs L141-143. -/
def findCellRevisionId (pkg : Package) (id : ExGuid) : Option ExGuid := pkg.cellManifests.get? id

/-- `resolve_cell_revision_manifest_id`, data_element/mod.rs L146-154. -/
def resolveCellRevisionManifestId (pkg : Package) (si : StorageIndex) (cellManifestId : ExGuid) :
    Option ExGuid :=
  ((pkg.findCellRevisionId cellManifestId).bind (pkg.resolveRevisionManifestId si)).or
    (pkg.resolveRevisionManifestId si cellManifestId)

/-- `find_revision_manifest`, data_element/mod.rs L157-159. -/
def findRevisionManifest (pkg : Package) (id : ExGuid) : Option RevisionManifest :=
  pkg.revisionManifests.get? id

/-- `find_object_group`, data_element/mod.rs L162-164. -/
def findObjectGroup (pkg : Package) (id : ExGuid) : Option ObjectGroup := pkg.objectGroups.get? id

/-- `find_objects`, data_element/mod.rs L73-107 (iteration site 3 for the cell
mappings, site 0 for the revision mappings). -/
def findObjects (ord : Order) (pkg : Package) (cell : ExGuid) (si : StorageIndex) :
    Res (List ObjectGroup) := do
  let fallback : Option ExGuid :=
    ((si.cellMappings.values ord 3).find? (fun m => decide (m.id = cell))).bind
      (fun m => si.findRevisionMappingBySerial ord m.serial)
  match (pkg.resolveCellRevisionManifestId si cell).or fallback with
  | none => .error .malformedFssHttpB
  | some rmid =>
    match pkg.findRevisionManifest rmid with
    | none => .error .malformedFssHttpB
    | some rm =>
      rm.groupReferences.mapM fun r =>
        match pkg.findObjectGroup r with
        | none => .error .malformedFssHttpB
        | some g => .ok g

end Package

/-! ### Packaging (/repo/src/fsshttpb/packaging.rs) -/

/-- `OneStorePackaging`, packaging.rs L16-24. -/
structure Packaging where
  fileType : Guid
  file : Guid
  legacyFileVersion : Guid
  fileFormat : Guid
  storageIndex : ExGuid
  cellSchema : Guid
  package : Package
  deriving DecidableEq, Repr

namespace Packaging

/-- `{109ADD3F-911B-49F5-A5D0-1791EDC8AED8}`, packaging.rs L35. -/
def revisionStoreFormat : Guid :=
  ⟨0x10, 0x9A, 0xDD, 0x3F, 0x91, 0x1B, 0x49, 0xF5, 0xA5, 0xD0, 0x17, 0x91, 0xED, 0xC8, 0xAE, 0xD8⟩

/-- `{638DE92F-A6D4-4BC1-9A36-B3FC2511A5B7}`, packaging.rs L36. -/
def packageStoreFormat : Guid :=
  ⟨0x63, 0x8D, 0xE9, 0x2F, 0xA6, 0xD4, 0x4B, 0xC1, 0x9A, 0x36, 0xB3, 0xFC, 0x25, 0x11, 0xA5, 0xB7⟩

/-- `parse_legacy`, packaging.rs L135-164. -/
def parseLegacy (fileType file legacyFileVersion fileFormat : Guid) : P Packaging := do
  let pad ← getU32
  if pad ≠ 0 then P.fail .malformedFssHttpB else
  ObjectHeader.tryParse32 .oneNotePackaging
  let storageIndex ← ExGuid.parse
  let cellSchema ← Guid.parse
  let package ← Package.parse
  ObjectHeader.tryParseEnd16 .oneNotePackaging
  return ⟨fileType, file, legacyFileVersion, fileFormat, storageIndex, cellSchema, package⟩

/-- `parse_fcr64x32`, packaging.rs L166-171: `(stp, cb)`. -/
def parseFcr64x32 : P (Nat × Nat) := do
  let stp ← getU64
  let cb ← getU32
  return (stp, cb)

/-- One version field check, packaging.rs L71-97 (four times). -/
def parseVersion : P Unit := do
  let v ← getU32
  if v ≠ 0x2A ∧ v ≠ 0x1B then P.fail .malformedFssHttpB else pure ()

/-- The fixed part of the revision store header up to and including the
transaction log reference, packaging.rs L71-113. -/
def parseStoreHeader : P (Nat × Nat) := do
  parseVersion
  parseVersion
  parseVersion
  parseVersion
  let _ ← getU64
  let _ ← getU64
  let _ ← getU32
  let _ ← getU32
  let _ ← getU64
  let _ ← getU64
  let _ ← getU32
  let _ ← getU8
  let _ ← getU8
  let _ ← getU8
  let _ ← getU8
  let _ ← Guid.parse
  let _ ← getU32
  let _ ← parseFcr64x32
  parseFcr64x32

/-- `FileChunkReference64x32::end`, packaging.rs L181-185 (`checked_add` on `u64`). -/
def fcrEnd (fcr : Nat × Nat) : Res Nat :=
  if fcr.1 + fcr.2 < 2 ^ 64 then .ok (fcr.1 + fcr.2) else .error .malformedOneStore

/-- Seeking past the transaction log, packaging.rs L115-125. `start` is
`reader.remaining()` at the beginning of the file. `offset > usize::MAX` never
holds on 64-bit targets. -/
def seekTransactionLog (start : Nat) (log : Nat × Nat) : P Unit := do
  let rem ← remaining
  let read := start - rem
  let e ← P.ofRes (fcrEnd log)
  if e < read then P.fail .malformedOneStore else
  advance (e - read)

/-- The container embedded in a revision store: the last lines of
`parse_packaging`, packaging.rs L127-132. The embedded format GUID is not
checked. -/
def parseEmbedded : P Packaging := do
  let fileType ← Guid.parse
  let file ← Guid.parse
  let legacyFileVersion ← Guid.parse
  let fileFormat ← Guid.parse
  parseLegacy fileType file legacyFileVersion fileFormat

/-- `parse_packaging`, packaging.rs L63-133. -/
def parsePackaging (start : Nat) : P Packaging := do
  let log ← parseStoreHeader
  seekTransactionLog start log
  parseEmbedded

/-- `OneStorePackaging::parse`, packaging.rs L27-61. -/
def parse : P Packaging := do
  let start ← remaining
  let fileType ← Guid.parse
  let file ← Guid.parse
  let legacyFileVersion ← Guid.parse
  let fileFormat ← Guid.parse
  if fileFormat = packageStoreFormat then
    parseLegacy fileType file legacyFileVersion fileFormat
  else if fileFormat ≠ revisionStoreFormat then P.fail .malformedOneStore
  else if !legacyFileVersion.isNil then
    parseLegacy fileType file legacyFileVersion fileFormat
  else parsePackaging start

end Packaging

end OneNote
