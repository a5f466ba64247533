/-
Basic FSSHTTPB data types.

Models /repo/src/shared/guid.rs and /repo/src/fsshttpb/data/*.rs.
-/
import Verif.Model.Basic

namespace OneNote

/-- `Guid(Uuid)`, /repo/src/shared/guid.rs L16. The fields are the 16 bytes of
the canonical (big-endian, printed) form, `Uuid::as_bytes`. -/
structure Guid where
  b0 : UInt8
  b1 : UInt8
  b2 : UInt8
  b3 : UInt8
  b4 : UInt8
  b5 : UInt8
  b6 : UInt8
  b7 : UInt8
  b8 : UInt8
  b9 : UInt8
  b10 : UInt8
  b11 : UInt8
  b12 : UInt8
  b13 : UInt8
  b14 : UInt8
  b15 : UInt8
  deriving DecidableEq, Repr, Inhabited

namespace Guid

/-- `Guid::nil`, /repo/src/shared/guid.rs L53-55. -/
def nil : Guid := ⟨0, 0, 0, 0, 0, 0, 0, 0, 0, 0, 0, 0, 0, 0, 0, 0⟩

/-- `Guid::is_nil`, /repo/src/shared/guid.rs L57-59. -/
def isNil (g : Guid) : Bool := decide (g = nil)

/-- `(v >> k) as u8` of /repo/src/shared/guid.rs L29-47. -/
def byteAt (v k : Nat) : UInt8 := UInt8.ofNat (v >>> k)

/-- `Guid::parse`, /repo/src/shared/guid.rs L23-51. -/
def parse : P Guid := do
  let v ← getLE 16
  pure ⟨byteAt v 24, byteAt v 16, byteAt v 8, byteAt v 0,
    byteAt v 40, byteAt v 32,
    byteAt v 56, byteAt v 48,
    byteAt v 64, byteAt v 72, byteAt v 80, byteAt v 88,
    byteAt v 96, byteAt v 104, byteAt v 112, byteAt v 120⟩

end Guid

namespace CompactU64

/-- `CompactU64::parse`, /repo/src/fsshttpb/data/compact_u64.rs L23-117. The
result is the `u64` value. -/
def parse : P Nat := do
  let first ← peekU8
  if first = 0 then
    advance 1
    pure 0
  else if first &&& 1 ≠ 0 then return (← getU8) >>> 1
  else if first &&& 2 ≠ 0 then return (← getU16) >>> 2
  else if first &&& 4 ≠ 0 then return (← getLE 3) >>> 3
  else if first &&& 8 ≠ 0 then return (← getLE 4) >>> 4
  else if first &&& 16 ≠ 0 then return (← getLE 5) >>> 5
  else if first &&& 32 ≠ 0 then return (← getLE 6) >>> 6
  else if first &&& 64 ≠ 0 then return (← getLE 7) >>> 7
  else if first &&& 128 ≠ 0 then
    advance 1
    getU64
  else P.fail .malformedFssHttpB

end CompactU64

/-- `ExGuid`, /repo/src/fsshttpb/data/exguid.rs L13-16. -/
structure ExGuid where
  guid : Guid
  value : Nat
  deriving DecidableEq, Repr, Inhabited

namespace ExGuid

/-- The null `ExGuid`, /repo/src/fsshttpb/data/exguid.rs L36-39. -/
def nil : ExGuid := ⟨Guid.nil, 0⟩

/-- `ExGuid::is_nil`, /repo/src/fsshttpb/data/exguid.rs L19-21. -/
def isNil (e : ExGuid) : Bool := e.guid.isNil && decide (e.value = 0)

/-- `ExGuid::as_option`, /repo/src/fsshttpb/data/exguid.rs L23-25. -/
def asOption (e : ExGuid) : Option ExGuid := if e.isNil then none else some e

/-- `ExGuid::parse`, /repo/src/fsshttpb/data/exguid.rs L31-84. The bits joined
with `|` do not overlap, `|||` is bitwise or. -/
def parse : P ExGuid := do
  let data ← getU8
  if data = 0 then
    return nil
  if data &&& 0b111 = 4 then
    let guid ← Guid.parse
    return ⟨guid, data >>> 3⟩
  if data &&& 0b111111 = 32 then
    let value := ((← getU8) <<< 2) ||| (data >>> 6)
    let guid ← Guid.parse
    return ⟨guid, value⟩
  if data &&& 0b1111111 = 64 then
    let value := ((← getU16) <<< 1) ||| (data >>> 7)
    let guid ← Guid.parse
    return ⟨guid, value⟩
  if data = 128 then
    let value ← getU32
    let guid ← Guid.parse
    return ⟨guid, value⟩
  P.fail .malformedData

/-- `ExGuid::parse_array`, /repo/src/fsshttpb/data/exguid.rs L91-100. -/
def parseArray : P (List ExGuid) := do
  let count ← CompactU64.parse
  replicateP parse count

end ExGuid

/-- `CellId`, /repo/src/fsshttpb/data/cell_id.rs L13. -/
structure CellId where
  fst : ExGuid
  snd : ExGuid
  deriving DecidableEq, Repr, Inhabited

namespace CellId

/-- `CellId::parse`, /repo/src/fsshttpb/data/cell_id.rs L16-21. -/
def parse : P CellId := do
  let first ← ExGuid.parse
  let second ← ExGuid.parse
  return ⟨first, second⟩

/-- `CellId::parse_array`, /repo/src/fsshttpb/data/cell_id.rs L23-32. -/
def parseArray : P (List CellId) := do
  let count ← CompactU64.parse
  replicateP parse count

end CellId

/-- `SerialNumber`, /repo/src/fsshttpb/data/serial_number.rs L12-15. -/
structure SerialNumber where
  guid : Guid
  serial : Nat
  deriving DecidableEq, Repr, Inhabited

/-- `SerialNumber::parse`, /repo/src/fsshttpb/data/serial_number.rs L18-34. -/
def SerialNumber.parse : P SerialNumber := do
  let serialType ← getU8
  if serialType = 0 then
    return ⟨Guid.nil, 0⟩
  let guid ← Guid.parse
  let serial ← getU64
  return ⟨guid, serial⟩

/-- `BinaryItem::parse`, /repo/src/fsshttpb/data/binary_item.rs L13-18
(`size as usize` is the identity on 64-bit targets). -/
def BinaryItem.parse : P Bytes := do
  let size ← CompactU64.parse
  readN size

/-- `ObjectType`, /repo/src/fsshttpb/data/object_types.rs L15-44. -/
inductive ObjectType where
  | cellManifest
  | dataElement
  | dataElementFragment
  | dataElementPackage
  | objectDataBlob
  | objectGroupBlobReference
  | objectGroupData
  | objectGroupDataBlob
  | objectGroupDataExcluded
  | objectGroupDataObject
  | objectGroupDeclaration
  | objectGroupMetadata
  | objectGroupMetadataBlock
  | objectGroupObject
  | oneNotePackaging
  | revisionManifest
  | revisionManifestGroupReference
  | revisionManifestRoot
  | storageIndexCellMapping
  | storageIndexManifestMapping
  | storageIndexRevisionMapping
  | storageManifest
  | storageManifestRoot
  deriving DecidableEq, Repr, Inhabited

namespace ObjectType

/-- Discriminants, /repo/src/fsshttpb/data/object_types.rs L15-44. All fit in a
`u8`, so `to_u8` (/repo/src/fsshttpb/data/stream_object.rs L201) is total. -/
def code : ObjectType → Nat
  | cellManifest => 0x0B
  | dataElement => 0x01
  | dataElementFragment => 0x6A
  | dataElementPackage => 0x15
  | objectDataBlob => 0x02
  | objectGroupBlobReference => 0x1C
  | objectGroupData => 0x1E
  | objectGroupDataBlob => 0x05
  | objectGroupDataExcluded => 0x03
  | objectGroupDataObject => 0x16
  | objectGroupDeclaration => 0x1D
  | objectGroupMetadata => 0x78
  | objectGroupMetadataBlock => 0x79
  | objectGroupObject => 0x18
  | oneNotePackaging => 0x7A
  | revisionManifest => 0x1A
  | revisionManifestGroupReference => 0x19
  | revisionManifestRoot => 0x0A
  | storageIndexCellMapping => 0x0E
  | storageIndexManifestMapping => 0x11
  | storageIndexRevisionMapping => 0x0D
  | storageManifest => 0x0C
  | storageManifestRoot => 0x07

/-- `ObjectType::from_u8/u16/u32` (derive `Primitive`,
/repo/src/fsshttpb/data/object_types.rs L14). -/
def ofCode : Nat → Option ObjectType
  | 0x0B => some cellManifest
  | 0x01 => some dataElement
  | 0x6A => some dataElementFragment
  | 0x15 => some dataElementPackage
  | 0x02 => some objectDataBlob
  | 0x1C => some objectGroupBlobReference
  | 0x1E => some objectGroupData
  | 0x05 => some objectGroupDataBlob
  | 0x03 => some objectGroupDataExcluded
  | 0x16 => some objectGroupDataObject
  | 0x1D => some objectGroupDeclaration
  | 0x78 => some objectGroupMetadata
  | 0x79 => some objectGroupMetadataBlock
  | 0x18 => some objectGroupObject
  | 0x7A => some oneNotePackaging
  | 0x1A => some revisionManifest
  | 0x19 => some revisionManifestGroupReference
  | 0x0A => some revisionManifestRoot
  | 0x0E => some storageIndexCellMapping
  | 0x11 => some storageIndexManifestMapping
  | 0x0D => some storageIndexRevisionMapping
  | 0x0C => some storageManifest
  | 0x07 => some storageManifestRoot
  | _ => none

end ObjectType

/-- `ObjectHeader`, /repo/src/fsshttpb/data/stream_object.rs L14-18. -/
structure ObjectHeader where
  compound : Bool
  objectType : ObjectType
  length : Nat
  deriving DecidableEq, Repr

namespace ObjectHeader

/-- `ObjectHeader::parse_16`, /repo/src/fsshttpb/data/stream_object.rs L48-80. -/
def parse16 : P ObjectHeader := do
  let data ← getU16
  if data &&& 0b11 ≠ 0x0 then P.fail .malformedFssHttpB else
  let compound := decide (data &&& 0x4 = 0x4)
  let objectType ← P.ofOption .malformedFssHttpB (ObjectType.ofCode ((data >>> 3) &&& 0x3f))
  return ⟨compound, objectType, data >>> 9⟩

/-- `ObjectHeader::parse_32`, /repo/src/fsshttpb/data/stream_object.rs L91-127. -/
def parse32 : P ObjectHeader := do
  let data ← getU32
  if data &&& 0b11 ≠ 0x2 then P.fail .malformedFssHttpB else
  let compound := decide (data &&& 0x4 = 0x4)
  let objectType ← P.ofOption .malformedFssHttpB (ObjectType.ofCode ((data >>> 3) &&& 0x3fff))
  if data >>> 17 = 0x7fff then
    let length ← CompactU64.parse
    return ⟨compound, objectType, length⟩
  else
    return ⟨compound, objectType, data >>> 17⟩

/-- `ObjectHeader::parse`, /repo/src/fsshttpb/data/stream_object.rs L26-37. -/
def parse : P ObjectHeader := do
  let headerType ← peekU8
  if headerType &&& 0b11 = 0x0 then parse16
  else if headerType &&& 0b11 = 0x2 then parse32
  else P.fail .malformedFssHttpB

/-- `ObjectHeader::try_parse_start`, /repo/src/fsshttpb/data/stream_object.rs L208-221. -/
def tryParseStart (ty : ObjectType) (p : P ObjectHeader) : P Unit := do
  let h ← p
  if h.objectType = ty then pure () else P.fail .malformedFssHttpB

/-- `ObjectHeader::try_parse`, /repo/src/fsshttpb/data/stream_object.rs L21-23. -/
def tryParse (ty : ObjectType) : P Unit := tryParseStart ty parse
/-- `ObjectHeader::try_parse_16`, /repo/src/fsshttpb/data/stream_object.rs L39-41. -/
def tryParse16 (ty : ObjectType) : P Unit := tryParseStart ty parse16
/-- `ObjectHeader::try_parse_32`, /repo/src/fsshttpb/data/stream_object.rs L82-84. -/
def tryParse32 (ty : ObjectType) : P Unit := tryParseStart ty parse32

/-- `ObjectHeader::parse_end_16`, /repo/src/fsshttpb/data/stream_object.rs L138-162. -/
def parseEnd16 : P ObjectType := do
  let data ← getU16
  if data &&& 0b11 ≠ 0x3 then P.fail .malformedFssHttpB else
  P.ofOption .malformedFssHttpB (ObjectType.ofCode (data >>> 2))

/-- `ObjectHeader::parse_end_8`, /repo/src/fsshttpb/data/stream_object.rs L173-197. -/
def parseEnd8 : P ObjectType := do
  let data ← getU8
  if data &&& 0b11 ≠ 0x1 then P.fail .malformedFssHttpB else
  P.ofOption .malformedFssHttpB (ObjectType.ofCode (data >>> 2))

/-- `ObjectHeader::try_parse_end`, /repo/src/fsshttpb/data/stream_object.rs L223-236. -/
def tryParseEnd (ty : ObjectType) (p : P ObjectType) : P Unit := do
  let t ← p
  if t = ty then pure () else P.fail .malformedFssHttpB

/-- `ObjectHeader::try_parse_end_16`, /repo/src/fsshttpb/data/stream_object.rs L129-131. -/
def tryParseEnd16 (ty : ObjectType) : P Unit := tryParseEnd ty parseEnd16
/-- `ObjectHeader::try_parse_end_8`, /repo/src/fsshttpb/data/stream_object.rs L164-166. -/
def tryParseEnd8 (ty : ObjectType) : P Unit := tryParseEnd ty parseEnd8

/-- `ObjectHeader::has_end_8`, /repo/src/fsshttpb/data/stream_object.rs L199-206. -/
def hasEnd8 (ty : ObjectType) : P Bool := do
  let data ← peekU8
  return decide (data &&& 0b11 = 0x1) && decide (data >>> 2 = ty.code)

end ObjectHeader

/-- The loop shape used by all FSSHTTPB element parsers:
`loop { if has_end_8(ty)? { break }; body }`, for example
/repo/src/fsshttpb/data_element/mod.rs L59-65. The Rust loop has no iteration
bound; `fuel` bounds the model's recursion. -/
def loopUntilEnd8 (ty : ObjectType) (body : σ → P σ) : Nat → σ → P σ
  | 0, _ => P.fail .fuel
  | fuel + 1, acc => do
    if (← ObjectHeader.hasEnd8 ty) then pure acc
    else
      let acc ← body acc
      loopUntilEnd8 ty body fuel acc

/-- The loop above followed by `try_parse_end_8(ty)?`, with a fuel that always
suffices (one more than the number of unread bytes; see `Props/C07.lean`). -/
def untilEnd8 (ty : ObjectType) (body : σ → P σ) (init : σ) : P σ := do
  let n ← remaining
  let acc ← loopUntilEnd8 ty body (n + 1) init
  ObjectHeader.tryParseEnd8 ty
  pure acc

end OneNote
