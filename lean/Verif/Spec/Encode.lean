/-
Wire formats, written down independently of the parsers: [MS-FSSHTTPB] 2.2.1
and the .NET/Microsoft GUID layout. Nothing here mentions the model's parsers.
-/
import Verif.Model.Data

namespace OneNote.Spec

/-- The `n` low bytes of `v`, least significant first. -/
def leBytes : Nat → Nat → Bytes
  | 0, _ => []
  | n + 1, v => UInt8.ofNat (v % 256) :: leBytes n (v / 256)

/-- Microsoft's mixed-endian GUID layout: the first field (4 bytes) and the
second and third fields (2 bytes each) are stored little-endian, the last eight
bytes in printed order. -/
def guid (g : Guid) : Bytes :=
  [g.b3, g.b2, g.b1, g.b0, g.b5, g.b4, g.b7, g.b6,
   g.b8, g.b9, g.b10, g.b11, g.b12, g.b13, g.b14, g.b15]

/-- [MS-FSSHTTPB] 2.2.1.1: the legal encodings of a compact unsigned 64-bit
integer. `Compact v bs`: the bytes `bs` denote `v`.

* one zero byte denotes 0;
* `k` bytes (1 ≤ k ≤ 7) hold a little-endian number whose lowest `k` bits are
  `10…0` (a one followed by `k - 1` zeroes towards bit 0) and whose remaining
  `7 * k` bits are the value;
* a byte `0x80` followed by 8 little-endian bytes holds any 64-bit value. -/
inductive Compact : Nat → Bytes → Prop where
  | zero : Compact 0 [0]
  | small (k v : Nat) (hk : 1 ≤ k ∧ k ≤ 7) (hv : v < 2 ^ (7 * k)) :
      Compact v (leBytes k (v * 2 ^ k + 2 ^ (k - 1)))
  | wide (v : Nat) (hv : v < 2 ^ 64) : Compact v (0x80 :: leBytes 8 v)

/-- A writer: the shortest encoding (except that 0 is the zero byte). -/
def compact (v : Nat) : Bytes :=
  if v = 0 then [0]
  else if v < 2 ^ 7 then leBytes 1 (v * 2 ^ 1 + 2 ^ 0)
  else if v < 2 ^ 14 then leBytes 2 (v * 2 ^ 2 + 2 ^ 1)
  else if v < 2 ^ 21 then leBytes 3 (v * 2 ^ 3 + 2 ^ 2)
  else if v < 2 ^ 28 then leBytes 4 (v * 2 ^ 4 + 2 ^ 3)
  else if v < 2 ^ 35 then leBytes 5 (v * 2 ^ 5 + 2 ^ 4)
  else if v < 2 ^ 42 then leBytes 6 (v * 2 ^ 6 + 2 ^ 5)
  else if v < 2 ^ 49 then leBytes 7 (v * 2 ^ 7 + 2 ^ 6)
  else 0x80 :: leBytes 8 v

/-- [MS-FSSHTTPB] 2.2.1.7: the legal encodings of an extended GUID. The type
bits come first: `0`, `100`₂ + 5-bit value, `100000`₂ + 10-bit value,
`1000000`₂ + 17-bit value, `10000000`₂ + 32-bit value; then the GUID. -/
inductive ExGuidEnc : ExGuid → Bytes → Prop where
  | null : ExGuidEnc ⟨Guid.nil, 0⟩ [0]
  | bits5 (g : Guid) (v : Nat) (hv : v < 2 ^ 5) :
      ExGuidEnc ⟨g, v⟩ (leBytes 1 (4 + 2 ^ 3 * v) ++ guid g)
  | bits10 (g : Guid) (v : Nat) (hv : v < 2 ^ 10) :
      ExGuidEnc ⟨g, v⟩ (leBytes 2 (32 + 2 ^ 6 * v) ++ guid g)
  | bits17 (g : Guid) (v : Nat) (hv : v < 2 ^ 17) :
      ExGuidEnc ⟨g, v⟩ (leBytes 3 (64 + 2 ^ 7 * v) ++ guid g)
  | bits32 (g : Guid) (v : Nat) (hv : v < 2 ^ 32) :
      ExGuidEnc ⟨g, v⟩ (leBytes 5 (128 + 2 ^ 8 * v) ++ guid g)

/-- A writer for extended GUIDs: shortest form. -/
def exGuid (e : ExGuid) : Bytes :=
  if e.guid = Guid.nil ∧ e.value = 0 then [0]
  else if e.value < 2 ^ 5 then leBytes 1 (4 + 2 ^ 3 * e.value) ++ guid e.guid
  else if e.value < 2 ^ 10 then leBytes 2 (32 + 2 ^ 6 * e.value) ++ guid e.guid
  else if e.value < 2 ^ 17 then leBytes 3 (64 + 2 ^ 7 * e.value) ++ guid e.guid
  else leBytes 5 (128 + 2 ^ 8 * e.value) ++ guid e.guid

/-- [MS-FSSHTTPB] 2.2.1.5.1 and 2.2.1.5.2 (and [MS-ONESTORE] 2.8.1 for the
packaging object): the numeric stream object types. -/
def typeCode : ObjectType → Nat
  | .dataElement => 0x01
  | .objectDataBlob => 0x02
  | .objectGroupDataExcluded => 0x03
  | .objectGroupDataBlob => 0x05
  | .storageManifestRoot => 0x07
  | .revisionManifestRoot => 0x0A
  | .cellManifest => 0x0B
  | .storageManifest => 0x0C
  | .storageIndexRevisionMapping => 0x0D
  | .storageIndexCellMapping => 0x0E
  | .storageIndexManifestMapping => 0x11
  | .dataElementPackage => 0x15
  | .objectGroupDataObject => 0x16
  | .objectGroupObject => 0x18
  | .revisionManifestGroupReference => 0x19
  | .revisionManifest => 0x1A
  | .objectGroupBlobReference => 0x1C
  | .objectGroupDeclaration => 0x1D
  | .objectGroupData => 0x1E
  | .dataElementFragment => 0x6A
  | .objectGroupMetadata => 0x78
  | .objectGroupMetadataBlock => 0x79
  | .oneNotePackaging => 0x7A

/-- [MS-FSSHTTPB] 2.2.1.5.1: 16-bit stream object start header: 2 zero bits,
the compound bit, 6 bits of type, 7 bits of length. -/
def header16 (compound : Bool) (type length : Nat) : Bytes :=
  leBytes 2 (0 + 4 * compound.toNat + 8 * type + 2 ^ 9 * length)

/-- [MS-FSSHTTPB] 2.2.1.5.2: 32-bit stream object start header: the bits `10`,
the compound bit, 14 bits of type, 15 bits of length. The length `0x7fff` says
that the length follows as a compact integer.
`Header32 compound type length bs`: the bytes `bs` are such a header. -/
inductive Header32 (compound : Bool) (type : Nat) : Nat → Bytes → Prop where
  | short (length : Nat) (hl : length < 0x7fff) :
      Header32 compound type length
        (leBytes 4 (2 + 4 * compound.toNat + 8 * type + 2 ^ 17 * length))
  | long (length : Nat) (cs : Bytes) (hc : Compact length cs) :
      Header32 compound type length
        (leBytes 4 (2 + 4 * compound.toNat + 8 * type + 2 ^ 17 * 0x7fff) ++ cs)

/-- A 32-bit header writer. -/
def header32 (compound : Bool) (type length : Nat) : Bytes :=
  if length < 0x7fff then
    leBytes 4 (2 + 4 * compound.toNat + 8 * type + 2 ^ 17 * length)
  else
    leBytes 4 (2 + 4 * compound.toNat + 8 * type + 2 ^ 17 * 0x7fff) ++ compact length

/-- [MS-FSSHTTPB] 2.2.1.5.3: 8-bit stream object end. -/
def end8 (type : Nat) : Bytes := leBytes 1 (1 + 4 * type)

/-- [MS-FSSHTTPB] 2.2.1.5.4: 16-bit stream object end. -/
def end16 (type : Nat) : Bytes := leBytes 2 (3 + 4 * type)

end OneNote.Spec
