/-
The same code compiled for a target whose `usize` has `w` bits (32 on wasm32 and
32-bit processors).

Only the places listed here depend on the size of `usize`: everything else in
/repo/src that uses `usize` counts bytes or elements that are in memory. The
functions are those of `Container.lean` and `References.lean` with the
conversions to `usize` written out.
-/
import Verif.Model.Section

namespace OneNote.Narrow

/-- `size as usize` for a `u64`: the low `w` bits. -/
def toUsize (w size : Nat) : Nat := size % 2 ^ w

/-- `BinaryItem::parse`, /repo/src/fsshttpb/data/binary_item.rs L13-18. -/
def binaryItem (w : Nat) : P Bytes := do
  let size ← CompactU64.parse
  readN (toUsize w size)

/-- `DataElement::parse_data_element_fragment`,
/repo/src/fsshttpb/data_element/data_element_fragment.rs L36-55. -/
def fragment (w : Nat) : P Fragment := do
  ObjectHeader.tryParse .dataElementFragment
  let id ← ExGuid.parse
  let size ← CompactU64.parse
  let offset ← CompactU64.parse
  let length ← CompactU64.parse
  let data ← readN (toUsize w size)
  return ⟨id, size, offset, length, data⟩

/-- `DataElement::parse_object_data_blob`, /repo/src/fsshttpb/data_element/object_data_blob.rs
L29-37. -/
def objectDataBlob (w : Nat) : P Bytes := do
  ObjectHeader.tryParse .objectDataBlob
  let data ← binaryItem w
  ObjectHeader.tryParseEnd8 .dataElement
  return data

/-- One iteration of the data loop, /repo/src/fsshttpb/data_element/object_group.rs L303-336. -/
def dataItem (w : Nat) (os : List GroupData) : P (List GroupData) := do
  let h ← ObjectHeader.parse
  match h.objectType with
  | .objectGroupDataExcluded =>
    let group ← ExGuid.parseArray
    let cells ← CellId.parseArray
    let size ← CompactU64.parse
    return os ++ [.excluded group cells size]
  | .objectGroupDataObject =>
    let group ← ExGuid.parseArray
    let cells ← CellId.parseArray
    let data ← binaryItem w
    return os ++ [.object group cells data]
  | .objectGroupBlobReference =>
    let references ← ExGuid.parseArray
    let cells ← CellId.parseArray
    let blob ← ExGuid.parse
    return os ++ [.blobReference references cells blob]
  | _ => P.fail .malformedFssHttpB

/-- `DataElement::parse_object_group_data`, object_group.rs L295-342. -/
def groupData (w : Nat) : P (List GroupData) := untilEnd8 .objectGroupData (dataItem w) []

/-- `DataElement::parse_object_group`, object_group.rs L180-216. -/
def objectGroup (w : Nat) : P ObjectGroup := do
  let declarations ← ObjectGroup.parseDeclarations
  let metadata ← ObjectGroup.parseMetadataOpt
  let objects ← groupData w
  ObjectHeader.tryParseEnd8 .dataElement
  return ⟨declarations, metadata, objects⟩

/-- `DataElement::parse`, /repo/src/fsshttpb/data_element/mod.rs L176-228. -/
def element (w : Nat) (pkg : Package) : P Package := do
  ObjectHeader.tryParse16 .dataElement
  let id ← ExGuid.parse
  let _serial ← SerialNumber.parse
  let elementType ← CompactU64.parse
  match elementType with
  | 0x01 => do
    let x ← StorageIndex.parse
    return { pkg with storageIndexes := pkg.storageIndexes.insert id x }
  | 0x02 => do
    let x ← StorageManifest.parse
    return { pkg with storageManifests := pkg.storageManifests.insert id x }
  | 0x03 => do
    let x ← CellManifest.parse
    return { pkg with cellManifests := pkg.cellManifests.insert id x }
  | 0x04 => do
    let x ← RevisionManifest.parse
    return { pkg with revisionManifests := pkg.revisionManifests.insert id x }
  | 0x05 => do
    let x ← objectGroup w
    return { pkg with objectGroups := pkg.objectGroups.insert id x }
  | 0x06 => do
    let x ← fragment w
    return { pkg with fragments := pkg.fragments.insert id x }
  | 0x0A => do
    let x ← objectDataBlob w
    return { pkg with blobs := pkg.blobs.insert id x }
  | _ => P.fail .malformedFssHttpB

/-- `DataElementPackage::parse`, data_element/mod.rs L42-70. -/
def package (w : Nat) : P Package := do
  ObjectHeader.tryParse16 .dataElementPackage
  let pad ← getU8
  if pad ≠ 0 then P.fail .malformedFssHttpB else
  untilEnd8 .dataElementPackage (element w) Package.empty

/-- `parse_legacy`, /repo/src/fsshttpb/packaging.rs L135-164. -/
def legacy (w : Nat) (fileType file legacyFileVersion fileFormat : Guid) : P Packaging := do
  let pad ← getU32
  if pad ≠ 0 then P.fail .malformedFssHttpB else
  ObjectHeader.tryParse32 .oneNotePackaging
  let storageIndex ← ExGuid.parse
  let cellSchema ← Guid.parse
  let package ← package w
  ObjectHeader.tryParseEnd16 .oneNotePackaging
  return ⟨fileType, file, legacyFileVersion, fileFormat, storageIndex, cellSchema, package⟩

/-- Seeking past the transaction log, packaging.rs L115-125, with the comparison with
`usize::MAX`. -/
def seekTransactionLog (w start : Nat) (log : Nat × Nat) : P Unit := do
  let rem ← remaining
  let read := start - rem
  let e ← P.ofRes (Packaging.fcrEnd log)
  if e < read then P.fail .malformedOneStore else
  if e - read > 2 ^ w - 1 then P.fail .malformedOneStore else
  advance (toUsize w (e - read))

/-- The last lines of `parse_packaging`, packaging.rs L127-132. -/
def embedded (w : Nat) : P Packaging := do
  let fileType ← Guid.parse
  let file ← Guid.parse
  let legacyFileVersion ← Guid.parse
  let fileFormat ← Guid.parse
  legacy w fileType file legacyFileVersion fileFormat

/-- `parse_packaging`, packaging.rs L63-133. -/
def packaging (w start : Nat) : P Packaging := do
  let log ← Packaging.parseStoreHeader
  seekTransactionLog w start log
  embedded w

/-- `OneStorePackaging::parse`, packaging.rs L27-61. -/
def parse (w : Nat) : P Packaging := do
  let start ← remaining
  let fileType ← Guid.parse
  let file ← Guid.parse
  let legacyFileVersion ← Guid.parse
  let fileFormat ← Guid.parse
  if fileFormat = Packaging.packageStoreFormat then
    legacy w fileType file legacyFileVersion fileFormat
  else if fileFormat ≠ Packaging.revisionStoreFormat then P.fail .malformedOneStore
  else if !legacyFileVersion.isNil then
    legacy w fileType file legacyFileVersion fileFormat
  else packaging w start

/-- `OneStorePackaging::parse` and `parse_store`, /repo/src/onenote/mod.rs L62-63, L108-109,
L131-132. `parse_store` does not convert numbers to `usize`. -/
def readStore (w : Nat) (ord : Order) (data : Bytes) : Res Store := do
  let packaging ← (parse w).run data
  Store.parse ord packaging

/-- `Parser::parse_section_buffer`, mod.rs L107-119. Simplification: the references of the objects are
counted with numbers without a limit, as in `References.lean`; `objectReference` below is what differs
from that. -/
def parseSectionBuffer (w fuel : Nat) (ord : Order) (data : Bytes) (fileName : Text) :
    Res Section := do
  let store ← readStore w ord data
  if store.schema ≠ sectionSchema then .error .notASectionFile else
  parseSectionStore fuel store fileName

/-- `ObjectReference::get_offset`, /repo/src/one/property/object_reference.rs L67-86: the sum of
`usize` numbers wraps around in release builds. -/
def objectOffset (w : Nat) (t : PropertyType) (o : Object) : Res Nat :=
  match ObjectReference.getOffset t o with
  | .error e => .error e
  | .ok n => .ok (toUsize w n)

/-- `ObjectReference::parse`, object_reference.rs L16-34. -/
def objectReference (w : Nat) (t : PropertyType) (o : Object) : Res (Option ExGuid) :=
  match o.props.get t with
  | none => .ok none
  | some .objectId =>
    match objectOffset w t o with
    | .error e => .error e
    | .ok index =>
      match o.props.objectIds[index]? with
      | none => .error .malformedOneNoteFile
      | some id => .ok (o.mapping.getObject index id)
  | some _ => .error .malformedOneNoteFile

/-- `ObjectReference::parse_vec`, object_reference.rs L36-65. -/
def objectReferences (w : Nat) (t : PropertyType) (o : Object) : Res (Option (List ExGuid)) :=
  match o.props.get t with
  | none => .ok none
  | some (.objectIds count) =>
    match objectOffset w t o with
    | .error e => .error e
    | .ok offset =>
      .ok (some (((o.props.objectIds.drop offset).take count).zipIdx.filterMap fun e =>
        o.mapping.getObject (e.2 + offset) e.1))
  | some _ => .error .malformedOneNoteFile

/-- `ObjectSpaceReference::get_offset`, /repo/src/one/property/object_space_reference.rs L48-67. -/
def spaceOffset (w : Nat) (t : PropertyType) (o : Object) : Res Nat :=
  match ObjectSpaceReference.getOffset t o with
  | .error e => .error e
  | .ok n => .ok (toUsize w n)

/-- `ObjectSpaceReference::parse_vec`, object_space_reference.rs L16-46. -/
def spaceReferences (w : Nat) (t : PropertyType) (o : Object) : Res (Option (List CellId)) :=
  match o.props.get t with
  | none => .ok none
  | some (.objectSpaceIds count) =>
    match spaceOffset w t o with
    | .error e => .error e
    | .ok offset =>
      .ok (some (((o.props.objectSpaceIds.drop offset).take count).zipIdx.filterMap fun e =>
        o.mapping.getObjectSpace e.2 e.1))
  | some _ => .error .malformedOneNoteFile

end OneNote.Narrow
