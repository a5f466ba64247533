/-
Typed access to an object's properties.

Models /repo/src/one/property/*.rs (object references are in References.lean).
-/
import Verif.Model.References
import Verif.Model.Text
import Verif.Model.NoteTagShape

namespace OneNote

/-- An `f32`: its 32-bit pattern. -/
abbrev F32 := Nat

/-- `value as i32` of a `u32`. -/
def toI32 (v : Nat) : Int := if v < 2 ^ 31 then (v : Int) else (v : Int) - 2 ^ 32

/-- `Res` version of `opt.ok_or(MalformedOneNoteFileData)?`. -/
def required (o : Option α) : Res α :=
  match o with
  | some a => .ok a
  | none => .error .malformedOneNoteFile

namespace PropertyValue

/-- `PropertyValue::to_bool`, /repo/src/onestore/types/property.rs L28-34. -/
def toBool : PropertyValue → Option Bool
  | .bool v => some v
  | _ => none
/-- `PropertyValue::to_u8`, /repo/src/onestore/types/property.rs L36-42. -/
def toU8 : PropertyValue → Option Nat
  | .u8 v => some v
  | _ => none
/-- `PropertyValue::to_u16`, /repo/src/onestore/types/property.rs L44-50. -/
def toU16 : PropertyValue → Option Nat
  | .u16 v => some v
  | _ => none
/-- `PropertyValue::to_u32`, /repo/src/onestore/types/property.rs L52-58. -/
def toU32 : PropertyValue → Option Nat
  | .u32 v => some v
  | _ => none
/-- `PropertyValue::to_u64`, /repo/src/onestore/types/property.rs L60-66. -/
def toU64 : PropertyValue → Option Nat
  | .u64 v => some v
  | _ => none
/-- `PropertyValue::to_vec`, /repo/src/onestore/types/property.rs L68-74. -/
def toVec : PropertyValue → Option Bytes
  | .vec v => some v
  | _ => none

end PropertyValue

/-- The common shape of every property reader: a missing property is `None`, a property stored
with another type is `MalformedOneNoteFileData`. For example
/repo/src/one/property/simple.rs L10-17. -/
def propAs (to : PropertyValue → Option α) (t : PropertyType) (o : Object) : Res (Option α) :=
  match o.props.get t with
  | none => .ok none
  | some v =>
    match to v with
    | some a => .ok (some a)
    | none => .error .malformedOneNoteFile

namespace Simple

/-- `parse_bool`, /repo/src/one/property/simple.rs L9-18. -/
def parseBool (t : PropertyType) (o : Object) : Res (Option Bool) := propAs PropertyValue.toBool t o
/-- `parse_u8`, /repo/src/one/property/simple.rs L20-29. -/
def parseU8 (t : PropertyType) (o : Object) : Res (Option Nat) := propAs PropertyValue.toU8 t o
/-- `parse_u16`, /repo/src/one/property/simple.rs L31-40. -/
def parseU16 (t : PropertyType) (o : Object) : Res (Option Nat) := propAs PropertyValue.toU16 t o
/-- `parse_u32`, /repo/src/one/property/simple.rs L42-51. -/
def parseU32 (t : PropertyType) (o : Object) : Res (Option Nat) := propAs PropertyValue.toU32 t o
/-- `parse_f32`, /repo/src/one/property/simple.rs L68-77 (the bit pattern is unchanged). -/
def parseF32 (t : PropertyType) (o : Object) : Res (Option F32) := propAs PropertyValue.toU32 t o
/-- `parse_vec`, /repo/src/one/property/simple.rs L79-88. -/
def parseVec (t : PropertyType) (o : Object) : Res (Option Bytes) := propAs PropertyValue.toVec t o

/-- `parse_vec_u16`, /repo/src/one/property/simple.rs L90-103. -/
def parseVecU16 (t : PropertyType) (o : Object) : Res (Option (List Nat)) := do
  let data ← propAs PropertyValue.toVec t o
  pure (data.map chunks2)

/-- `parse_vec_u32`, /repo/src/one/property/simple.rs L105-119. -/
def parseVecU32 (t : PropertyType) (o : Object) : Res (Option (List Nat)) := do
  let data ← propAs PropertyValue.toVec t o
  pure (data.map chunks4)

/-- `parse_ascii`, /repo/src/one/property/simple.rs L121-132. -/
def parseAscii (t : PropertyType) (o : Object) : Res (Option Text) := do
  let data ← propAs PropertyValue.toVec t o
  pure (data.map decodeLatin1)

/-- `parse_string`, /repo/src/one/property/simple.rs L134-147. -/
def parseString (t : PropertyType) (o : Object) : Res (Option Text) := do
  match ← propAs PropertyValue.toVec t o with
  | none => pure none
  | some data =>
    match utf16ToString data with
    | .ok text => pure (some text)
    | .error _ => .error .malformedOneNoteFile

/-- `parse_guid`, /repo/src/one/property/simple.rs L149-158. -/
def parseGuid (t : PropertyType) (o : Object) : Res (Option Guid) := do
  match ← propAs PropertyValue.toVec t o with
  | none => pure none
  | some data =>
    let g ← P.run Guid.parse data
    pure (some g)

end Simple

/-- Byte `i` of `value.to_le_bytes()`. -/
def leByte (value i : Nat) : Nat := value >>> (8 * i) &&& 0xFF

/-- `Color`, /repo/src/one/property/color.rs L11-16. -/
structure Color where
  alpha : Nat
  r : Nat
  g : Nat
  b : Nat
  deriving DecidableEq, Repr, Inhabited

/-- The value part of `Color::parse`, /repo/src/one/property/color.rs L49-56. -/
def Color.ofValue (value : Nat) : Color :=
  { alpha := 255 - leByte value 3
    r := leByte value 0
    g := leByte value 1
    b := leByte value 2 }

/-- `Color::parse`, /repo/src/one/property/color.rs L41-57. -/
def Color.parse (t : PropertyType) (o : Object) : Res (Option Color) := do
  let value ← propAs PropertyValue.toU32 t o
  pure (value.map Color.ofValue)

/-- `ColorRef`, /repo/src/one/property/color_ref.rs L11-24. -/
inductive ColorRef where
  | auto
  | manual (r g b : Nat)
  deriving DecidableEq, Repr, Inhabited

/-- The value part of `ColorRef::parse`, /repo/src/one/property/color_ref.rs L35-50. -/
def ColorRef.ofValue (value : Nat) : Res ColorRef :=
  match leByte value 3 with
  | 0xFF => .ok .auto
  | 0x00 => .ok (.manual (leByte value 0) (leByte value 1) (leByte value 2))
  | _ => .error .malformedOneNoteFile

/-- `opt.map(f).transpose()?` for a fallible conversion. -/
def optM (f : α → Res β) : Option α → Res (Option β)
  | none => .ok none
  | some a =>
    match f a with
    | .ok b => .ok (some b)
    | .error e => .error e

/-- `ColorRef::parse`, /repo/src/one/property/color_ref.rs L27-53. -/
def ColorRef.parse (t : PropertyType) (o : Object) : Res (Option ColorRef) := do
  let value ← propAs PropertyValue.toU32 t o
  optM ColorRef.ofValue value

/-- `OutlineIndentDistance`, /repo/src/one/property/outline_indent_distance.rs L7. -/
abbrev OutlineIndentDistance := List F32

/-- The reader part of `OutlineIndentDistance::parse`, outline_indent_distance.rs L26-32
(`Reader::get_f32`, /repo/src/reader.rs L70-74). -/
def OutlineIndentDistance.reader : P (List F32) := do
  let count ← getU8
  advance 3
  replicateP getU32 count

/-- `OutlineIndentDistance::parse`, outline_indent_distance.rs L18-35. -/
def OutlineIndentDistance.parse (o : Object) : Res (Option OutlineIndentDistance) := do
  match ← propAs PropertyValue.toVec .rgOutlineIndentDistance o with
  | none => pure none
  | some value =>
    let distances ← P.run OutlineIndentDistance.reader value
    pure (some distances)

/-- `PageSize`, /repo/src/one/property/page_size.rs L11-29. -/
inductive PageSize where
  | auto | us | ansiLetter | ansiTabloid | usLegal | isoA3 | isoA4 | isoA5 | isoA6
  | jisB4 | jisB5 | jisB6 | japanesePostcard | indexCard | billfold | custom
  deriving DecidableEq, Repr, Inhabited

/-- The value part of `PageSize::parse`, /repo/src/one/property/page_size.rs L40-63. -/
def PageSize.ofValue : Nat → Res PageSize
  | 0 => .ok .auto
  | 1 => .ok .us
  | 2 => .ok .ansiLetter
  | 3 => .ok .ansiTabloid
  | 4 => .ok .usLegal
  | 5 => .ok .isoA3
  | 6 => .ok .isoA4
  | 7 => .ok .isoA5
  | 8 => .ok .isoA6
  | 9 => .ok .jisB4
  | 10 => .ok .jisB5
  | 11 => .ok .jisB6
  | 12 => .ok .japanesePostcard
  | 13 => .ok .indexCard
  | 14 => .ok .billfold
  | 15 => .ok .custom
  | _ => .error .malformedOneNoteFile

/-- `PageSize::parse`, /repo/src/one/property/page_size.rs L32-66. -/
def PageSize.parse (t : PropertyType) (o : Object) : Res (Option PageSize) := do
  let value ← propAs PropertyValue.toU8 t o
  optM PageSize.ofValue value

/-- `ActionItemStatus`, /repo/src/one/property/note_tag.rs L11-15. -/
structure ActionItemStatus where
  completed : Bool
  disabled : Bool
  taskTag : Bool
  deriving DecidableEq, Repr, Inhabited

/-- `(value >> i) & 0x1 != 0`. -/
def bitSet (value i : Nat) : Bool := decide (value >>> i &&& 0x1 ≠ 0)

/-- The value part of `ActionItemStatus::parse`, /repo/src/one/property/note_tag.rs L43-51. -/
def ActionItemStatus.ofValue (value : Nat) : ActionItemStatus :=
  { completed := bitSet value 0
    disabled := bitSet value 1
    taskTag := bitSet value 2 }

/-- `ActionItemStatus::parse`, /repo/src/one/property/note_tag.rs L35-52. -/
def ActionItemStatus.parse (o : Object) : Res (Option ActionItemStatus) := do
  let value ← propAs PropertyValue.toU16 .actionItemStatus o
  pure (value.map ActionItemStatus.ofValue)

/-- `ActionItemType`, /repo/src/one/property/note_tag.rs L62-71. -/
inductive ActionItemType where
  | numeric (n : Nat)
  | dueToday | dueTomorrow | dueThisWeek | dueNextWeek | noDueDate | customDueDate | unknown
  deriving DecidableEq, Repr, Inhabited

/-- The value part of `ActionItemType::parse`, /repo/src/one/property/note_tag.rs L82-91. -/
def ActionItemType.ofValue (value : Nat) : ActionItemType :=
  if value ≤ 99 then .numeric value
  else
    match value with
    | 100 => .dueToday
    | 101 => .dueTomorrow
    | 102 => .dueThisWeek
    | 103 => .dueNextWeek
    | 104 => .noDueDate
    | 105 => .customDueDate
    | _ => .unknown

/-- `ActionItemType::parse`, /repo/src/one/property/note_tag.rs L74-94. -/
def ActionItemType.parse (o : Object) : Res (Option ActionItemType) := do
  let value ← propAs PropertyValue.toU16 .actionItemType o
  pure (value.map ActionItemType.ofValue)

/-- `NoteTagPropertyStatus`, /repo/src/one/property/note_tag_property_status.rs L11-22. -/
structure NoteTagPropertyStatus where
  hasLabel : Bool
  hasFontColor : Bool
  hasHighlightColor : Bool
  hasIcon : Bool
  dueToday : Bool
  dueTomorrow : Bool
  dueThisWeek : Bool
  dueNextWeek : Bool
  dueLater : Bool
  dueCustom : Bool
  deriving DecidableEq, Repr, Inhabited

/-- The value part of `NoteTagPropertyStatus::parse`, note_tag_property_status.rs L85-96. -/
def NoteTagPropertyStatus.ofValue (value : Nat) : NoteTagPropertyStatus :=
  { hasLabel := bitSet value 0
    hasFontColor := bitSet value 1
    hasHighlightColor := bitSet value 2
    hasIcon := bitSet value 3
    dueToday := bitSet value 6
    dueTomorrow := bitSet value 7
    dueThisWeek := bitSet value 8
    dueNextWeek := bitSet value 9
    dueLater := bitSet value 10
    dueCustom := bitSet value 11 }

/-- `NoteTagPropertyStatus::parse`, note_tag_property_status.rs L77-99. -/
def NoteTagPropertyStatus.parse (o : Object) : Res (Option NoteTagPropertyStatus) := do
  let value ← propAs PropertyValue.toU32 .noteTagPropertyStatus o
  pure (value.map NoteTagPropertyStatus.ofValue)

/-- `Charset`, /repo/src/one/property/charset.rs L12-32. -/
inductive Charset where
  | ansi | default | symbol | mac | shiftJis | hangul | johab | gb2312 | chineseBig5 | greek
  | turkish | vietnamese | hebrew | arabic | baltic | russian | thai | eastEurope | oem
  deriving DecidableEq, Repr, Inhabited

/-- The value part of `Charset::parse`, /repo/src/one/property/charset.rs L43-69. -/
def Charset.ofValue : Nat → Res Charset
  | 0 => .ok .ansi
  | 1 => .ok .default
  | 2 => .ok .symbol
  | 77 => .ok .mac
  | 128 => .ok .shiftJis
  | 129 => .ok .hangul
  | 130 => .ok .johab
  | 134 => .ok .gb2312
  | 136 => .ok .chineseBig5
  | 161 => .ok .greek
  | 162 => .ok .turkish
  | 163 => .ok .vietnamese
  | 177 => .ok .hebrew
  | 178 => .ok .arabic
  | 186 => .ok .baltic
  | 204 => .ok .russian
  | 222 => .ok .thai
  | 238 => .ok .eastEurope
  | 255 => .ok .oem
  | _ => .error .malformedOneNoteFile

/-- `Charset::parse`, /repo/src/one/property/charset.rs L35-72. -/
def Charset.parse (t : PropertyType) (o : Object) : Res (Option Charset) := do
  let value ← propAs PropertyValue.toU8 t o
  optM Charset.ofValue value

/-- `FileType`, /repo/src/one/property/file_type.rs L11-20. -/
inductive FileType where
  | unknown | audio | video
  deriving DecidableEq, Repr, Inhabited

/-- The value part of `FileType::parse`, /repo/src/one/property/file_type.rs L31-40. -/
def FileType.ofValue : Nat → Res FileType
  | 1 => .ok .audio
  | 2 => .ok .video
  | _ => .error .malformedOneNoteFile

/-- `FileType::parse`, /repo/src/one/property/file_type.rs L23-43. -/
def FileType.parse (o : Object) : Res FileType := do
  match ← propAs PropertyValue.toU32 .iRecordMedia o with
  | none => pure .unknown
  | some value => FileType.ofValue value

/-- `ParagraphAlignment`, /repo/src/one/property/paragraph_alignment.rs L12-18. -/
inductive ParagraphAlignment where
  | unknown | left | center | right
  deriving DecidableEq, Repr, Inhabited

/-- The value part of `ParagraphAlignment::parse`, paragraph_alignment.rs L29-34. -/
def ParagraphAlignment.ofValue : Nat → ParagraphAlignment
  | 0 => .left
  | 1 => .center
  | 2 => .right
  | _ => .unknown

/-- `ParagraphAlignment::parse`, /repo/src/one/property/paragraph_alignment.rs L21-35. -/
def ParagraphAlignment.parse (o : Object) : Res (Option ParagraphAlignment) := do
  let value ← propAs PropertyValue.toU8 .paragraphAlignment o
  pure (value.map ParagraphAlignment.ofValue)

/-- `Time::parse`, /repo/src/one/property/time.rs L14-27. A `Time` is its `u32`. -/
def Time.parse (t : PropertyType) (o : Object) : Res (Option Nat) := propAs PropertyValue.toU32 t o

/-- `Timestamp::parse`, /repo/src/one/property/time.rs L40-53. A `Timestamp` is its `u64`. -/
def Timestamp.parse (t : PropertyType) (o : Object) : Res (Option Nat) :=
  propAs PropertyValue.toU64 t o

/-- `InkDimension`, /repo/src/one/property/ink_dimensions.rs L9-13. -/
structure InkDimension where
  id : Guid
  limitLower : Int
  limitUpper : Int
  deriving DecidableEq, Repr, Inhabited

/-- The reader part of `InkDimension::parse_entry`, /repo/src/one/property/ink_dimensions.rs L30-39. -/
def InkDimension.entry : P InkDimension := do
  let id ← Guid.parse
  let lower ← getU32
  let upper ← getU32
  pure ⟨id, toI32 lower, toI32 upper⟩

/-- `data.chunks_exact(n)` given how many chunks there are. -/
def chunksOf (n : Nat) : (k : Nat) → Bytes → List Bytes
  | 0, _ => []
  | k + 1, data => data.take n :: chunksOf n k (data.drop n)

/-- `InkDimension::parse`, /repo/src/one/property/ink_dimensions.rs L16-27. -/
def InkDimension.parse (t : PropertyType) (o : Object) : Res (List InkDimension) := do
  match ← propAs PropertyValue.toVec t o with
  | none => pure []
  | some data => (chunksOf 32 (data.length / 32) data).mapM (P.run InkDimension.entry)

/-- `HorizontalAlignment`, /repo/src/one/property/layout_alignment.rs L67-74. -/
inductive HorizontalAlignment where
  | unknown | left | center | right | biDiNormal | biDiReverse
  deriving DecidableEq, Repr, Inhabited

/-- `HorizontalAlignment::parse`, /repo/src/one/property/layout_alignment.rs L77-90. -/
def HorizontalAlignment.parse : Nat → Res HorizontalAlignment
  | 0 => .ok .unknown
  | 1 => .ok .left
  | 2 => .ok .center
  | 3 => .ok .right
  | 4 => .ok .biDiNormal
  | 5 => .ok .biDiReverse
  | _ => .error .malformedOneNoteFile

/-- `HorizontalAlignmentMargin`, /repo/src/one/property/layout_alignment.rs L94-97. -/
inductive HorizontalAlignmentMargin where
  | right | left
  deriving DecidableEq, Repr, Inhabited

/-- `HorizontalAlignmentMargin::parse`, /repo/src/one/property/layout_alignment.rs L100-109. -/
def HorizontalAlignmentMargin.parse : Nat → Res HorizontalAlignmentMargin
  | 0 => .ok .right
  | 1 => .ok .left
  | _ => .error .malformedOneNoteFile

/-- `VerticalAlignment` (L113-116) and `VerticalAlignmentMargin` (L132-135),
/repo/src/one/property/layout_alignment.rs: the same two cases. -/
inductive VerticalAlignment where
  | bottom | top
  deriving DecidableEq, Repr, Inhabited

/-- `VerticalAlignment::parse` L119-128 and `VerticalAlignmentMargin::parse` L138-147,
/repo/src/one/property/layout_alignment.rs. -/
def VerticalAlignment.parse : Nat → Res VerticalAlignment
  | 0 => .ok .bottom
  | 1 => .ok .top
  | _ => .error .malformedOneNoteFile

/-- `LayoutAlignment`, /repo/src/one/property/layout_alignment.rs L11-16. -/
structure LayoutAlignment where
  horizontal : HorizontalAlignment
  marginHorizontal : HorizontalAlignmentMargin
  vertical : VerticalAlignment
  marginVertical : VerticalAlignment
  deriving DecidableEq, Repr, Inhabited

/-- The value part of `LayoutAlignment::parse`, /repo/src/one/property/layout_alignment.rs L48-62. -/
def LayoutAlignment.ofValue (value : Nat) : Res (Option LayoutAlignment) :=
  if value >>> 31 &&& 0x1 ≠ 0 then .ok none
  else do
    let horizontal ← HorizontalAlignment.parse (value &&& 0x7)
    let marginHorizontal ← HorizontalAlignmentMargin.parse (value >>> 3 &&& 0x1)
    let vertical ← VerticalAlignment.parse (value >>> 16 &&& 0x1)
    let marginVertical ← VerticalAlignment.parse (value >>> 19 &&& 0x1)
    pure (some ⟨horizontal, marginHorizontal, vertical, marginVertical⟩)

/-- `LayoutAlignment::parse`, /repo/src/one/property/layout_alignment.rs L37-63. -/
def LayoutAlignment.parse (t : PropertyType) (o : Object) : Res (Option LayoutAlignment) := do
  match ← propAs PropertyValue.toU32 t o with
  | none => pure none
  | some value => LayoutAlignment.ofValue value

/-- `Author::parse`, /repo/src/one/property/author.rs L18-20. -/
def Author.parse (o : Object) : Res (Option Text) := Simple.parseString .author o

end OneNote
