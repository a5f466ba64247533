/-
Multi-byte integers of ink data.

Models /repo/src/shared/multi_byte.rs.
-/
import Verif.Model.Basic

namespace OneNote
namespace MultiByte

/-- The loop of `decode_uint`, /repo/src/shared/multi_byte.rs L62-85, and what follows it (L87-93).
`(byte & 0x7F) << shift` is a `u64` shift: bits moved past the top are lost. -/
def decodeUintLoop : Bytes → Nat → Nat → Res (Nat × Nat)
  | [], value, count => if count = 0 then .error .malformedOneNoteFile else .ok (value, count)
  | byte :: rest, value, count =>
    if count = 10 then .error .malformedOneNoteFile
    else if count * 7 ≥ 64 then .error .malformedOneNoteFile
    else
      let value := value ||| ((byte.toNat &&& 0x7F) <<< (count * 7)) % 2 ^ 64
      if byte.toNat &&& 0x80 = 0x80 then decodeUintLoop rest value (count + 1)
      else .ok (value, count + 1)

/-- `decode_uint`, /repo/src/shared/multi_byte.rs L58-94: the value and the number of bytes used. -/
def decodeUint (data : Bytes) : Res (Nat × Nat) := decodeUintLoop data 0 0

/-- The loop of `decode`, /repo/src/shared/multi_byte.rs L37-53 (`length` more numbers to read). The
`checked_add` of L45 cannot fail: `index + offset` is at most the input length. -/
def decodeLoop (input : Bytes) : (length index : Nat) → Res (List Nat)
  | 0, _ => .ok []
  | n + 1, index =>
    if index ≥ input.length then .error .malformedOneNoteFile
    else
      match decodeUint (input.drop index) with
      | .error e => .error e
      | .ok (value, offset) =>
        match decodeLoop input n (index + offset) with
        | .error e => .error e
        | .ok values => .ok (value :: values)

/-- `decode`, /repo/src/shared/multi_byte.rs L26-56. -/
def decode (input : Bytes) : Res (List Nat) :=
  match decodeUint input with
  | .error e => .error e
  | .ok (length, offset) => decodeLoop input (length >>> 1) offset

/-- The closure of `decode_signed`, /repo/src/shared/multi_byte.rs L14-22. `(value >> 1) as i64` is
never negative, so the cast changes nothing. -/
def signed (value : Nat) : Int :=
  if value &&& 0x1 = 0x1 then -((value >>> 1 : Nat) : Int) else ((value >>> 1 : Nat) : Int)

/-- `decode_signed`, /repo/src/shared/multi_byte.rs L10-24. -/
def decodeSigned (input : Bytes) : Res (List Int) :=
  match decode input with
  | .error e => .error e
  | .ok values => .ok (values.map signed)

end MultiByte
end OneNote
