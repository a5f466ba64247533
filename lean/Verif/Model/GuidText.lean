/-
The text form of GUIDs.

Models the rest of /repo/src/shared/guid.rs and /repo/src/macros.rs. The parsing and printing itself
is done by the crate `uuid` (version 1), whose documented behaviour is written down here.
-/
import Verif.Model.Container
import Verif.Model.Section

namespace OneNote

namespace Guid

/-- The value of a hexadecimal digit, upper or lower case (`uuid`, the table `HEX_TABLE` of its
parser). -/
def digitValue (c : Char) : Option Nat :=
  if '0' ≤ c ∧ c ≤ '9' then some (c.toNat - 48)
  else if 'A' ≤ c ∧ c ≤ 'F' then some (c.toNat - 55)
  else if 'a' ≤ c ∧ c ≤ 'f' then some (c.toNat - 87)
  else none

/-- The bytes written as two digits each. -/
def hexBytes : Text → Option Bytes
  | [] => some []
  | [_] => none
  | a :: b :: rest =>
    match digitValue a, digitValue b, hexBytes rest with
    | some x, some y, some bs => some (UInt8.ofNat (x * 16 + y) :: bs)
    | _, _, _ => none

/-- `Uuid::from_bytes`. -/
def ofBytes : Bytes → Option Guid
  | [b0, b1, b2, b3, b4, b5, b6, b7, b8, b9, b10, b11, b12, b13, b14, b15] =>
    some ⟨b0, b1, b2, b3, b4, b5, b6, b7, b8, b9, b10, b11, b12, b13, b14, b15⟩
  | _ => none

/-- The form of 32 digits (`uuid`, `parse_simple`). -/
def parseSimple (s : Text) : Option Guid := (hexBytes s).bind ofBytes

/-- The form of 32 digits in groups of 8, 4, 4, 4 and 12 (`uuid`, `parse_hyphenated`). -/
def parseHyphenated (s : Text) : Option Guid :=
  if s.length = 36 ∧ s[8]? = some '-' ∧ s[13]? = some '-' ∧ s[18]? = some '-' ∧ s[23]? = some '-' then
    parseSimple (s.take 8 ++ (s.drop 9).take 4 ++ (s.drop 14).take 4 ++ (s.drop 19).take 4 ++ s.drop 24)
  else none

/-- `Uuid::parse_str` (`uuid`, `try_parse`): the form is chosen by the length. The crate counts bytes
and the model characters: a text with characters of more bytes is refused by both, as none of its forms
has such characters. -/
def tryParse (s : Text) : Option Guid :=
  if s.length = 32 then parseSimple s
  else if s.length = 36 then parseHyphenated s
  else if s.length = 38 ∧ s.head? = some '{' ∧ s.getLast? = some '}' then
    parseHyphenated (s.drop 1).dropLast
  else if s.length = 45 ∧ s.take 9 = ['u', 'r', 'n', ':', 'u', 'u', 'i', 'd', ':'] then
    parseHyphenated (s.drop 9)
  else none

/-- `Guid::from_str`, /repo/src/shared/guid.rs L19-21. -/
def fromStr (s : Text) : Res Guid := orErr .invalidUuid (tryParse s)

/-- `guid!("...")`, /repo/src/macros.rs L1-5: `unwrap` panics on an error. -/
def literal (s : Text) : Res Guid :=
  match fromStr s with
  | .ok g => .ok g
  | .error _ => .error .panic

/-- An upper case digit. -/
def digit (n : Nat) : Char := if n < 10 then Char.ofNat (48 + n) else Char.ofNat (55 + n)

/-- A byte as two upper case digits. -/
def hexByte (b : UInt8) : Text := [digit (b.toNat / 16), digit (b.toNat % 16)]

/-- `Display for Guid`, /repo/src/shared/guid.rs L62-66: `{:X}` of a `Uuid` is the form with hyphens
in upper case. -/
def display (g : Guid) : Text :=
  '{' :: ([g.b0, g.b1, g.b2, g.b3].flatMap hexByte ++ '-' :: ([g.b4, g.b5].flatMap hexByte ++
    '-' :: ([g.b6, g.b7].flatMap hexByte ++ '-' :: ([g.b8, g.b9].flatMap hexByte ++
    '-' :: ([g.b10, g.b11, g.b12, g.b13, g.b14, g.b15].flatMap hexByte ++ ['}'])))))

end Guid

end OneNote
