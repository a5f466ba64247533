/-
Property sets and the streams in front of them.

Models /repo/src/onestore/types/*.rs.
-/
import Verif.Model.Basic
import Verif.Model.Map
import Verif.Model.PropertyType

namespace OneNote

/-- `ids.map(|id| f(id, reader)).collect::<Result<Vec<_>>>()?`: run `f` on each element in turn. -/
def mapP {α β : Type} (f : α → P β) : List α → P (List β)
  | [] => pure []
  | a :: as => do
    let b ← f a
    let bs ← mapP f as
    pure (b :: bs)

/-- `CompactId`, /repo/src/onestore/types/compact_id.rs L10-13. -/
structure CompactId where
  n : Nat
  guidIndex : Nat
  deriving DecidableEq, Repr, Inhabited

/-- `CompactId::parse`, /repo/src/onestore/types/compact_id.rs L16-23. -/
def CompactId.parse : P CompactId := do
  let data ← getU32
  pure ⟨data &&& 0xFF, data >>> 8⟩

/-- `JcId` (a `u32`) and `JcId::parse`, /repo/src/onestore/types/jcid.rs L11-16. -/
def JcId.parse : P Nat := getU32

/-- `ObjectStreamHeader`, /repo/src/onestore/types/object_stream_header.rs L10-14. -/
structure ObjectStreamHeader where
  count : Nat
  extendedStreamsPresent : Bool
  osidStreamNotPresent : Bool
  deriving DecidableEq, Repr

/-- `ObjectStreamHeader::parse`, /repo/src/onestore/types/object_stream_header.rs L17-29. -/
def ObjectStreamHeader.parse : P ObjectStreamHeader := do
  let data ← getU32
  pure ⟨data &&& 0xFFFFFF, decide ((data >>> 30) &&& 0x1 ≠ 0), decide (data >>> 31 ≠ 0)⟩

/-- `PropertyId::id`, /repo/src/onestore/types/property.rs L192-194. A `PropertyId` is a `u32`. -/
def PropertyId.id (w : Nat) : Nat := w &&& 0x3ffffff

/-- `PropertyId::prop_type`, /repo/src/onestore/types/property.rs L196-198. -/
def PropertyId.propType (w : Nat) : Nat := w >>> 26 &&& 0x1f

/-- `PropertyId::bool`, /repo/src/onestore/types/property.rs L200-202. -/
def PropertyId.bool (w : Nat) : Bool := decide (w >>> 31 = 1)

/-- `PropertyId::parse`, /repo/src/onestore/types/property.rs L204-206. -/
def PropertyId.parse : P Nat := getU32

/-- `PropertyValue`, /repo/src/onestore/types/property.rs L9-25. A nested property set
(`PropertySet` below) is written out as its map from property id to (index, value). -/
inductive PropertyValue where
  | empty
  | bool (v : Bool)
  | u8 (v : Nat)
  | u16 (v : Nat)
  | u32 (v : Nat)
  | u64 (v : Nat)
  | vec (data : Bytes)
  | objectId
  | objectIds (count : Nat)
  | objectSpaceId
  | objectSpaceIds (count : Nat)
  | contextId
  | contextIds (count : Nat)
  | propertyValues (id : Nat) (sets : List (List (Nat × (Nat × PropertyValue))))
  | propertySet (set : List (Nat × (Nat × PropertyValue)))
  deriving Repr, Inhabited

/-- `PropertySet { values: HashMap<u32, (usize, PropertyValue)> }`,
/repo/src/onestore/types/prop_set.rs L12-14. -/
abbrev PropertySet := Map Nat (Nat × PropertyValue)

/-- `PropertyValue::parse` with `parse_vec` and `parse_property_values`,
/repo/src/onestore/types/property.rs L116-172; `set` is the parser for nested property sets. -/
def PropertyValue.parseWith (set : P PropertySet) (id : Nat) : P PropertyValue :=
  match PropertyId.propType id with
  | 0x1 => pure .empty
  | 0x2 => pure (.bool (PropertyId.bool id))
  | 0x3 => do let v ← getU8; pure (.u8 v)
  | 0x4 => do let v ← getU16; pure (.u16 v)
  | 0x5 => do let v ← getU32; pure (.u32 v)
  | 0x6 => do let v ← getU64; pure (.u64 v)
  | 0x7 => do
    let size ← getU32
    let data ← readN size
    pure (.vec data)
  | 0x8 => pure .objectId
  | 0x9 => do let v ← getU32; pure (.objectIds v)
  | 0xA => pure .objectSpaceId
  | 0xB => do let v ← getU32; pure (.objectSpaceIds v)
  | 0xC => pure .contextId
  | 0xD => do let v ← getU32; pure (.contextIds v)
  | 0x10 => do
    let size ← getU32
    let id ← PropertyId.parse
    let sets ← replicateP set size
    pure (.propertyValues id sets)
  | 0x11 => do let s ← set; pure (.propertySet s)
  | _ => P.fail .malformedOneStore

/-- One entry of the map built in /repo/src/onestore/types/prop_set.rs L24-28. -/
def PropertySet.parseEntry (set : P PropertySet) (e : Nat × Nat) : P (Nat × (Nat × PropertyValue)) := do
  let v ← PropertyValue.parseWith set e.1
  pure (PropertyId.id e.1, (e.2, v))

/-- The body of `PropertySet::parse`, /repo/src/onestore/types/prop_set.rs L17-31, given the
parser for nested sets. -/
def PropertySet.parseWith (set : P PropertySet) : P PropertySet := do
  let count ← getU16
  let ids ← replicateP PropertyId.parse count
  let entries ← mapP (PropertySet.parseEntry set) ids.zipIdx
  pure (Map.ofList entries)

/-- `PropertySet::parse` with a bound on the nesting depth. -/
def PropertySet.parseFuel : Nat → P PropertySet
  | 0 => P.fail .fuel
  | n + 1 => PropertySet.parseWith (PropertySet.parseFuel n)

/-- `PropertySet::parse`, /repo/src/onestore/types/prop_set.rs L17-31. The recursion through
nested sets is unbounded in the code; here its depth is bounded by the number of unread bytes,
which is never reached because every nested set starts with two bytes of its own
(`PropertySet.parseFuel_irrel`). -/
def PropertySet.parse : P PropertySet := fun s => PropertySet.parseFuel (s.length + 1) s

/-- `PropertySet::get`, /repo/src/onestore/types/prop_set.rs L33-35 (argument: a `PropertyId`). -/
def PropertySet.get (ps : PropertySet) (id : Nat) : Option PropertyValue :=
  (Map.get? ps (PropertyId.id id)).map Prod.snd

/-- `PropertySet::index`, /repo/src/onestore/types/prop_set.rs L37-39. -/
def PropertySet.index (ps : PropertySet) (id : Nat) : Option Nat :=
  (Map.get? ps (PropertyId.id id)).map Prod.fst

/-- `ObjectPropSet`, /repo/src/onestore/types/object_prop_set.rs L15-20. -/
structure ObjectPropSet where
  objectIds : List CompactId
  objectSpaceIds : List CompactId
  contextIds : List CompactId
  properties : PropertySet
  deriving Repr

/-- `ObjectPropSet::parse`, /repo/src/onestore/types/object_prop_set.rs L41-73. -/
def ObjectPropSet.parse : P ObjectPropSet := do
  let header ← ObjectStreamHeader.parse
  let objectIds ← replicateP CompactId.parse header.count
  let streams ← (if !header.osidStreamNotPresent then do
      let header ← ObjectStreamHeader.parse
      let osids ← replicateP CompactId.parse header.count
      if header.extendedStreamsPresent then do
        let header ← ObjectStreamHeader.parse
        let ctx ← replicateP CompactId.parse header.count
        pure (osids, ctx)
      else pure (osids, [])
    else pure ([], []) : P (List CompactId × List CompactId))
  let properties ← PropertySet.parse
  pure ⟨objectIds, streams.1, streams.2, properties⟩

/-- `ObjectPropSet::get`, /repo/src/onestore/types/object_prop_set.rs L75-77. -/
def ObjectPropSet.get (ps : ObjectPropSet) (t : PropertyType) : Option PropertyValue :=
  ps.properties.get t.code

end OneNote
