/-
The arithmetic of /repo/src in a build with overflow checks (`cargo build` and `cargo test` have them
by default): an addition, subtraction, multiplication, negation or shift whose result does not fit its
type panics. Elsewhere in the model numbers have no limit.

These are all functions with such an operation on integers whose operands come from the input. `w` is
the number of bits of `usize`. The other functions only compare, cast, mask, shift by constants, call
`checked_add` or `checked_sub`, or compute with `f32`, which never panics.
-/
import Verif.Model.Section
import Verif.Model.MultiByte

namespace OneNote.Checked

/-- The result of an operation on unsigned numbers of `w` bits. -/
def fit (w n : Nat) : Res Nat := if n < 2 ^ w then .ok n else .error .panic

/-- `a - b` for unsigned numbers. -/
def sub (a b : Nat) : Res Nat := if b ≤ a then .ok (a - b) else .error .panic

/-- `a << n` for a `u64`: the shift must be smaller than 64; bits moved past the top are lost. -/
def shiftLeft (a n : Nat) : Res Nat := if n < 64 then .ok ((a <<< n) % 2 ^ 64) else .error .panic

/-- `v as i64` for a `u64`. -/
def toI64 (v : Nat) : Int := if v < 2 ^ 63 then (v : Int) else (v : Int) - 2 ^ 64

/-- `-v` for an `i64`. -/
def neg (v : Int) : Res Int := if v = -(2 ^ 63) then .error .panic else .ok (-v)

/-! ### Ink numbers (/repo/src/shared/multi_byte.rs) -/

/-- The loop of `decode_uint`, multi_byte.rs L62-85, and what follows it (L87-93). -/
def decodeUintLoop (w : Nat) : Bytes → Nat → Nat → Res (Nat × Nat)
  | [], value, count => if count = 0 then .error .malformedOneNoteFile else .ok (value, count)
  | byte :: rest, value, count =>
    if count = 10 then .error .malformedOneNoteFile
    else do
      let shift ← fit w (count * 7)
      if shift ≥ 64 then .error .malformedOneNoteFile
      else do
        let bits ← shiftLeft (byte.toNat &&& 0x7F) shift
        let next ← fit w (count + 1)
        if byte.toNat &&& 0x80 = 0x80 then decodeUintLoop w rest (value ||| bits) next
        else .ok (value ||| bits, next)

/-- `decode_uint`, multi_byte.rs L58-94. -/
def decodeUint (w : Nat) (data : Bytes) : Res (Nat × Nat) := decodeUintLoop w data 0 0

/-- The loop of `decode`, multi_byte.rs L37-53. `checked_add` gives an error, not a panic. -/
def decodeLoop (w : Nat) (input : Bytes) : (length index : Nat) → Res (List Nat)
  | 0, _ => .ok []
  | n + 1, index =>
    if index ≥ input.length then .error .malformedOneNoteFile
    else
      match decodeUint w (input.drop index) with
      | .error e => .error e
      | .ok (value, offset) =>
        if 2 ^ w ≤ index + offset then .error .malformedOneNoteFile
        else
          match decodeLoop w input n (index + offset) with
          | .error e => .error e
          | .ok values => .ok (value :: values)

/-- `decode`, multi_byte.rs L26-56. -/
def decode (w : Nat) (input : Bytes) : Res (List Nat) :=
  match decodeUint w input with
  | .error e => .error e
  | .ok (length, offset) => decodeLoop w input (length >>> 1) offset

/-- The closure of `decode_signed`, multi_byte.rs L14-22. -/
def signed (value : Nat) : Res Int :=
  if value &&& 0x1 = 0x1 then neg (toI64 (value >>> 1)) else .ok (toI64 (value >>> 1))

/-- `decode_signed`, multi_byte.rs L10-24. -/
def decodeSigned (w : Nat) (input : Bytes) : Res (List Int) :=
  match decode w input with
  | .error e => .error e
  | .ok values => values.mapM signed

/-! ### Colours -/

/-- The value part of `Color::parse`, /repo/src/one/property/color.rs L49-56: `255 - bytes[3]`. -/
def color (value : Nat) : Res Color := do
  let alpha ← sub 255 (leByte value 3)
  return { alpha, r := leByte value 0, g := leByte value 1, b := leByte value 2 }

/-! ### References -/

mutual
/-- One summand of `count_references`, object_reference.rs L76-84 and object_space_reference.rs
L57-65. -/
def references (w perObject perSpace : Nat) : PropertyValue → Res Nat
  | .objectId => .ok perObject
  | .objectIds c => .ok (perObject * c)
  | .objectSpaceId => .ok perSpace
  | .objectSpaceIds c => .ok (perSpace * c)
  | .propertyValues _ sets => referencesSets w perObject perSpace sets
  | _ => .ok 0

/-- `sets.iter().map(|set| count_references(set.values())).sum()`. The numbers are added from the
other end; some partial sum is too large in one direction exactly if the sum is, as in the other. -/
def referencesSets (w perObject perSpace : Nat) :
    List (List (Nat × (Nat × PropertyValue))) → Res Nat
  | [] => .ok 0
  | s :: ss => do
    let a ← referencesSet w perObject perSpace s
    let b ← referencesSets w perObject perSpace ss
    fit w (a + b)

/-- `count_references(set.values())`. -/
def referencesSet (w perObject perSpace : Nat) : List (Nat × (Nat × PropertyValue)) → Res Nat
  | [] => .ok 0
  | (_, _, v) :: s => do
    let a ← references w perObject perSpace v
    let b ← referencesSet w perObject perSpace s
    fit w (a + b)
end

/-- `count_references`, object_reference.rs L74-86 and object_space_reference.rs L55-67. -/
def countRefs (w perObject perSpace : Nat) : List PropertyValue → Res Nat
  | [] => .ok 0
  | v :: vs => do
    let a ← references w perObject perSpace v
    let b ← countRefs w perObject perSpace vs
    fit w (a + b)

/-- `ObjectReference::get_offset`, object_reference.rs L67-72, and `ObjectSpaceReference::get_offset`,
object_space_reference.rs L48-53. -/
def getOffset (w perObject perSpace : Nat) (t : PropertyType) (o : Object) : Res Nat :=
  match predecessors t o with
  | .error e => .error e
  | .ok ps => countRefs w perObject perSpace ps

/-- `ObjectReference::parse`, object_reference.rs L16-34. -/
def objectReference (w : Nat) (t : PropertyType) (o : Object) : Res (Option ExGuid) :=
  match o.props.get t with
  | none => .ok none
  | some .objectId =>
    match getOffset w 1 0 t o with
    | .error e => .error e
    | .ok index =>
      match o.props.objectIds[index]? with
      | none => .error .malformedOneNoteFile
      | some id => .ok (o.mapping.getObject index id)
  | some _ => .error .malformedOneNoteFile

/-- The closure of `ObjectReference::parse_vec`, object_reference.rs L61: `index + offset`. -/
def resolveAll (w offset : Nat) (o : Object) : List (CompactId × Nat) → Res (List ExGuid)
  | [] => .ok []
  | e :: es => do
    let i ← fit w (e.2 + offset)
    let rest ← resolveAll w offset o es
    return (o.mapping.getObject i e.1).toList ++ rest

/-- `ObjectReference::parse_vec`, object_reference.rs L36-65. -/
def objectReferences (w : Nat) (t : PropertyType) (o : Object) : Res (Option (List ExGuid)) :=
  match o.props.get t with
  | none => .ok none
  | some (.objectIds count) =>
    match getOffset w 1 0 t o with
    | .error e => .error e
    | .ok offset =>
      match resolveAll w offset o ((o.props.objectIds.drop offset).take count).zipIdx with
      | .error e => .error e
      | .ok ids => .ok (some ids)
  | some _ => .error .malformedOneNoteFile

/-- `ObjectSpaceReference::parse_vec`, object_space_reference.rs L16-46. -/
def spaceReferences (w : Nat) (t : PropertyType) (o : Object) : Res (Option (List CellId)) :=
  match o.props.get t with
  | none => .ok none
  | some (.objectSpaceIds count) =>
    match getOffset w 0 1 t o with
    | .error e => .error e
    | .ok offset =>
      .ok (some (((o.props.objectSpaceIds.drop offset).take count).zipIdx.filterMap fun e =>
        o.mapping.getObjectSpace e.2 e.1))
  | some _ => .error .malformedOneNoteFile

/-- `parse_object`, note_tag_container.rs L74-116 and text_run_data.rs L30-75. -/
def nestedObject (w : Nat) (t : PropertyType) (o : Object) (id : Nat) (props : PropertySet) :
    Res Object := do
  let off ← getOffset w 1 0 t o
  let off' ← getOffset w 0 1 t o
  let count ← countRefs w 1 0 props.values
  let count' ← countRefs w 0 1 props.values
  return {
    contextId := o.contextId
    jcId := id
    props := {
      objectIds := (o.props.objectIds.drop off).take count
      objectSpaceIds := (o.props.objectIds.drop off').take count'
      contextIds := []
      properties := props }
    fileData := none
    mapping := o.mapping }

/-! ### Objects -/

/-- The comparison of `Object::parse`, /repo/src/onestore/object.rs L126:
`context_ids().len() + object_space_ids().len() != referenced_cells.len()`. -/
def cellsDiffer (w : Nat) (props : ObjectPropSet) (cells : List CellId) : Res Bool := do
  let n ← fit w (props.contextIds.length + props.objectSpaceIds.length)
  return decide (n ≠ cells.length)

/-! ### Drawings -/

/-- `&data[start..start + len]`. -/
def slice {α : Type} (w : Nat) (data : List α) (start len : Nat) : Res (List α) := do
  let stop ← fit w (start + len)
  if stop ≤ data.length then .ok ((data.drop start).take len) else .error .panic

/-- `parse_ink_path`, /repo/src/onenote/ink.rs L261-306. -/
def parseInkPath (w : Nat) (data : List Int) (dims : List InkDimension) (scaleX scaleY : Option F32) :
    Res (List InkPoint) := do
  let idxX ← findDimension dims dimensionX
  let idxY ← findDimension dims dimensionY
  if dims.length = 0 then .error .panic else
  let offset := data.length / dims.length
  let startX ← fit w (offset * idxX)
  let startY ← fit w (offset * idxY)
  let x ← slice w data startX offset
  let y ← slice w data startY offset
  pure ((x.zip y).map fun p => ⟨.mul (scaleOf scaleX) (.ofInt p.1), .mul (scaleOf scaleY) (.ofInt p.2)⟩)

/-- The loop over the embedded objects, /repo/src/onenote/rich_text.rs L439-474. -/
def parseEmbeddedObjects (w : Nat) (space : ObjectSpace) (refs : List ExGuid) :
    Nat → Nat → List (Option Nat × EmbeddedInkData) → Res (List (Option EmbeddedObject))
  | _, _, [] => .ok []
  | i, withoutRef, (none, data) :: rest => do
    let o ← (if refs.isEmpty then pure none else do
      let k ← sub i withoutRef
      let id ← index refs k
      let container ← parseEmbeddedInkData space id data
      pure (some (.ink container)))
    let os ← parseEmbeddedObjects w space refs (i + 1) withoutRef rest
    pure (o :: os)
  | i, withoutRef, (some type, data) :: rest =>
    if type = inkEndOfLineBlob then do
      let n ← fit w (withoutRef + 1)
      let os ← parseEmbeddedObjects w space refs (i + 1) n rest
      pure (some .inkLineBreak :: os)
    else if type = inkSpaceBlob then do
      let n ← fit w (withoutRef + 1)
      let s ← parseEmbeddedInkSpace data
      let os ← parseEmbeddedObjects w space refs (i + 1) n rest
      pure (some (.inkSpace s) :: os)
    else .error .malformedOneNoteFile

/-! ### The container (/repo/src/fsshttpb/packaging.rs) -/

/-- Seeking past the transaction log, packaging.rs L115-125: `start - reader.remaining() as u64`. -/
def seekTransactionLog (start : Nat) (log : Nat × Nat) : P Unit := do
  let rem ← remaining
  let read ← P.ofRes (sub start rem)
  let e ← P.ofRes (Packaging.fcrEnd log)
  if e < read then P.fail .malformedOneStore else
  advance (e - read)

/-- `parse_packaging`, packaging.rs L63-133. -/
def parsePackaging (start : Nat) : P Packaging := do
  let log ← Packaging.parseStoreHeader
  seekTransactionLog start log
  Packaging.parseEmbedded

/-- `OneStorePackaging::parse`, packaging.rs L27-61. -/
def parse : P Packaging := do
  let start ← remaining
  let fileType ← Guid.parse
  let file ← Guid.parse
  let legacyFileVersion ← Guid.parse
  let fileFormat ← Guid.parse
  if fileFormat = Packaging.packageStoreFormat then
    Packaging.parseLegacy fileType file legacyFileVersion fileFormat
  else if fileFormat ≠ Packaging.revisionStoreFormat then P.fail .malformedOneStore
  else if !legacyFileVersion.isNil then
    Packaging.parseLegacy fileType file legacyFileVersion fileFormat
  else parsePackaging start

end OneNote.Checked
