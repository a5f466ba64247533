/-
[MS-ONESTORE] 2.6: how property sets and the identifier streams in front of
them are written. Nothing here mentions the model's parsers.
-/
import Verif.Model.PropSet
import Verif.Spec.Encode

namespace OneNote.Spec

/-- [MS-ONESTORE] 2.6.6: a property id word: 26 bits of identifier, 5 bits of type, and the top
bit, which is the value of a boolean property. -/
def idWord (key type : Nat) (top : Bool) : Nat := key + 2 ^ 26 * type + 2 ^ 31 * top.toNat

/-- The property set holding the properties `es` (identifier and value) in this order: each value
is kept with its position; a later value for the same identifier replaces an earlier one. -/
def setOf (es : List (Nat × PropertyValue)) : PropertySet :=
  Map.ofList (es.zipIdx.map fun e => (e.1.1, (e.2, e.1.2)))

mutual
/-- `ValueEnc type top v bs`: a property of type code `type` whose id word has top bit `top` and
whose data bytes are `bs` has the value `v` ([MS-ONESTORE] 2.6.6 to 2.6.9). -/
inductive ValueEnc : Nat → Bool → PropertyValue → Bytes → Prop where
  | empty (top : Bool) : ValueEnc 0x1 top .empty []
  | bool (top : Bool) : ValueEnc 0x2 top (.bool top) []
  | u8 (top : Bool) (v : Nat) (h : v < 2 ^ 8) : ValueEnc 0x3 top (.u8 v) (leBytes 1 v)
  | u16 (top : Bool) (v : Nat) (h : v < 2 ^ 16) : ValueEnc 0x4 top (.u16 v) (leBytes 2 v)
  | u32 (top : Bool) (v : Nat) (h : v < 2 ^ 32) : ValueEnc 0x5 top (.u32 v) (leBytes 4 v)
  | u64 (top : Bool) (v : Nat) (h : v < 2 ^ 64) : ValueEnc 0x6 top (.u64 v) (leBytes 8 v)
  | vec (top : Bool) (data : Bytes) (h : data.length < 2 ^ 32) :
      ValueEnc 0x7 top (.vec data) (leBytes 4 data.length ++ data)
  | objectId (top : Bool) : ValueEnc 0x8 top .objectId []
  | objectIds (top : Bool) (n : Nat) (h : n < 2 ^ 32) :
      ValueEnc 0x9 top (.objectIds n) (leBytes 4 n)
  | objectSpaceId (top : Bool) : ValueEnc 0xA top .objectSpaceId []
  | objectSpaceIds (top : Bool) (n : Nat) (h : n < 2 ^ 32) :
      ValueEnc 0xB top (.objectSpaceIds n) (leBytes 4 n)
  | contextId (top : Bool) : ValueEnc 0xC top .contextId []
  | contextIds (top : Bool) (n : Nat) (h : n < 2 ^ 32) :
      ValueEnc 0xD top (.contextIds n) (leBytes 4 n)
  | propertyValues (top : Bool) (id : Nat) (sets : List PropertySet) (bs : Bytes)
      (hid : id < 2 ^ 32) (hl : sets.length < 2 ^ 32) (h : SetsEnc sets bs) :
      ValueEnc 0x10 top (.propertyValues id sets) (leBytes 4 sets.length ++ (leBytes 4 id ++ bs))
  | propertySet (top : Bool) (es : List (Nat × PropertyValue)) (bs : Bytes) (h : SetEnc es bs) :
      ValueEnc 0x11 top (.propertySet (setOf es)) bs

/-- A property set: a 16-bit count, all id words, then all values. -/
inductive SetEnc : List (Nat × PropertyValue) → Bytes → Prop where
  | mk (es : List (Nat × PropertyValue)) (words body : Bytes) (hl : es.length < 2 ^ 16)
      (h : EntriesEnc es words body) : SetEnc es (leBytes 2 es.length ++ (words ++ body))

/-- Id words and values of the properties of a set. -/
inductive EntriesEnc : List (Nat × PropertyValue) → Bytes → Bytes → Prop where
  | nil : EntriesEnc [] [] []
  | cons (key type : Nat) (top : Bool) (v : PropertyValue) (bs : Bytes)
      (es : List (Nat × PropertyValue)) (words body : Bytes)
      (hk : key < 2 ^ 26) (hv : ValueEnc type top v bs) (h : EntriesEnc es words body) :
      EntriesEnc ((key, v) :: es) (leBytes 4 (idWord key type top) ++ words) (bs ++ body)

/-- Property sets one after the other. -/
inductive SetsEnc : List PropertySet → Bytes → Prop where
  | nil : SetsEnc [] []
  | cons (es : List (Nat × PropertyValue)) (bs : Bytes) (sets : List PropertySet) (bs' : Bytes)
      (h : SetEnc es bs) (hs : SetsEnc sets bs') : SetsEnc (setOf es :: sets) (bs ++ bs')
end

/-- [MS-ONESTORE] 2.2.2: a compact id: 8 bits `n`, 24 bits GUID index. -/
def compactId (c : CompactId) : Bytes := leBytes 4 (c.n + 2 ^ 8 * c.guidIndex)

/-- The compact id's fields fit. -/
def CompactIdOk (c : CompactId) : Prop := c.n < 2 ^ 8 ∧ c.guidIndex < 2 ^ 24

/-- A list of compact ids, one after the other. -/
def compactIds (l : List CompactId) : Bytes := (l.map compactId).flatten

/-- [MS-ONESTORE] 2.6.5: a stream header: 24 bits of count, 6 reserved bits, bit 30 "another
stream group follows", bit 31 "there is no object space stream". -/
def streamHeader (count reserved : Nat) (extended noOsids : Bool) : Bytes :=
  leBytes 4 (count + 2 ^ 24 * reserved + 2 ^ 30 * extended.toNat + 2 ^ 31 * noOsids.toNat)

/-- [MS-ONESTORE] 2.6.1: an object's property streams. `ObjectPropSetEnc oids osids ctx es bs`. -/
inductive ObjectPropSetEnc (oids : List CompactId) :
    List CompactId → List CompactId → List (Nat × PropertyValue) → Bytes → Prop where
  /-- Only an object id stream. -/
  | oids (r : Nat) (ext : Bool) (es : List (Nat × PropertyValue)) (bs : Bytes)
      (hr : r < 2 ^ 6) (h : SetEnc es bs) :
      ObjectPropSetEnc oids [] [] es
        (streamHeader oids.length r ext true ++ (compactIds oids ++ bs))
  /-- Object ids and object space ids. -/
  | osids (r r' : Nat) (ext no' : Bool) (osids : List CompactId)
      (es : List (Nat × PropertyValue)) (bs : Bytes)
      (hr : r < 2 ^ 6) (hr' : r' < 2 ^ 6) (h : SetEnc es bs) :
      ObjectPropSetEnc oids osids [] es
        (streamHeader oids.length r ext false ++ (compactIds oids ++
          (streamHeader osids.length r' false no' ++ (compactIds osids ++ bs))))
  /-- Object ids, object space ids and context ids. -/
  | contexts (r r' r'' : Nat) (ext no' ext'' no'' : Bool) (osids ctx : List CompactId)
      (es : List (Nat × PropertyValue)) (bs : Bytes)
      (hr : r < 2 ^ 6) (hr' : r' < 2 ^ 6) (hr'' : r'' < 2 ^ 6) (h : SetEnc es bs) :
      ObjectPropSetEnc oids osids ctx es
        (streamHeader oids.length r ext false ++ (compactIds oids ++
          (streamHeader osids.length r' true no' ++ (compactIds osids ++
            (streamHeader ctx.length r'' ext'' no'' ++ (compactIds ctx ++ bs))))))

end OneNote.Spec
