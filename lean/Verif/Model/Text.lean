/-
Text decoding.

Models /repo/src/utils.rs and the decoders of the standard library and of the `widestring` and
`encoding_rs` crates that it and /repo/src/one/property/simple.rs rely on.
-/
import Verif.Model.Basic

namespace OneNote

/-- A Rust `String`: a sequence of Unicode scalar values. -/
abbrev Text := List Char

/-- `data.chunks_exact(2).map(|v| u16::from_le_bytes([v[0], v[1]]))`: an odd last byte is dropped.
/repo/src/utils.rs L10-13, /repo/src/one/property/simple.rs L97-100. -/
def chunks2 : Bytes → List Nat
  | a :: b :: rest => leNat [a, b] :: chunks2 rest
  | _ => []

/-- `data.chunks_exact(4).map(|v| u32::from_le_bytes([v[0], v[1], v[2], v[3]]))`.
/repo/src/one/property/simple.rs L113-116, and the same with `f32::from_le_bytes` in
/repo/src/one/property_set/table_node.rs L52-53. -/
def chunks4 : Bytes → List Nat
  | a :: b :: c :: d :: rest => leNat [a, b, c, d] :: chunks4 rest
  | _ => []

/-- A UTF-16 code unit that stands for itself. -/
def isPlainUnit (u : Nat) : Bool := decide (u < 0xD800) || decide (0xDFFF < u)

/-- A leading (high) surrogate. -/
def isHighSurrogate (u : Nat) : Bool := decide (0xD800 ≤ u) && decide (u ≤ 0xDBFF)

/-- A trailing (low) surrogate. -/
def isLowSurrogate (u : Nat) : Bool := decide (0xDC00 ≤ u) && decide (u ≤ 0xDFFF)

/-- The character encoded by a surrogate pair. -/
def pairChar (h l : Nat) : Char := Char.ofNat (0x10000 + (h - 0xD800) * 0x400 + (l - 0xDC00))

/-- Strict UTF-16 decoding (`U16Str::to_string` of the `widestring` crate, which is
`String::from_utf16`): an unpaired surrogate is an error. -/
def decodeUtf16 : List Nat → Option Text
  | [] => some []
  | [u] => if isPlainUnit u then some [Char.ofNat u] else none
  | u :: v :: rest =>
    if isPlainUnit u then (decodeUtf16 (v :: rest)).map (Char.ofNat u :: ·)
    else if isHighSurrogate u && isLowSurrogate v then
      (decodeUtf16 rest).map (pairChar u v :: ·)
    else none

/-- `char::REPLACEMENT_CHARACTER`. -/
def replacementChar : Char := Char.ofNat 0xFFFD

/-- Lossy UTF-16 decoding, `decode_utf16(..).map(|r| r.unwrap_or(REPLACEMENT_CHARACTER))`:
/repo/src/one/property_set/number_list_node.rs L67-69. An unpaired surrogate yields one replacement
character; decoding goes on with the next code unit. -/
def decodeUtf16Lossy : List Nat → Text
  | [] => []
  | [u] => if isPlainUnit u then [Char.ofNat u] else [replacementChar]
  | u :: v :: rest =>
    if isPlainUnit u then Char.ofNat u :: decodeUtf16Lossy (v :: rest)
    else if isHighSurrogate u && isLowSurrogate v then pairChar u v :: decodeUtf16Lossy rest
    else replacementChar :: decodeUtf16Lossy (v :: rest)

/-- `U16CString::from_vec_truncate`: everything before the first NUL.
/repo/src/utils.rs L15. -/
def truncateNul (us : List Nat) : List Nat := us.takeWhile (fun u => decide (u ≠ 0))

/-- `Utf16ToString::utf16_to_string`, /repo/src/utils.rs L8-23. -/
def utf16ToString (data : Bytes) : Res Text :=
  match decodeUtf16 (truncateNul (chunks2 data)) with
  | some t => .ok t
  | none => .error .malformedOneNote

/-- `encoding_rs::mem::decode_latin1(data).to_string()`,
/repo/src/one/property/simple.rs L129: every byte is the character of that number. -/
def decodeLatin1 (data : Bytes) : Text := data.map fun b => Char.ofNat b.toNat

end OneNote
