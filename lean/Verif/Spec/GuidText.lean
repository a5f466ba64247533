/-
GUIDs as texts (RFC 9562, section 4, and [MS-DTYP] 2.3.4.3).
-/
import Verif.Model.Text
import Verif.Spec.Encode

namespace OneNote.Spec.GuidText

/-- The hexadecimal digits of a number, upper case. -/
def digits : List Char := ['0', '1', '2', '3', '4', '5', '6', '7', '8', '9', 'A', 'B', 'C', 'D', 'E', 'F']

/-- A number in `n` hexadecimal digits. -/
def hex : Nat → Nat → Text
  | 0, _ => []
  | n + 1, v => hex n (v / 16) ++ [digits.getD (v % 16) '0']

/-- The number that is stored in these bytes with the lowest byte first. -/
def number : Bytes → Nat
  | [] => 0
  | b :: bs => b.toNat + 256 * number bs

/-- The text of the GUID that is stored in a file as these 16 bytes: a number of four bytes, two numbers
of two bytes and eight single bytes ([MS-DTYP] 2.3.4.2). -/
def textOf (f : Bytes) : Text :=
  ['{'] ++ hex 8 (number (f.take 4)) ++ ['-'] ++ hex 4 (number ((f.drop 4).take 2)) ++ ['-'] ++
    hex 4 (number ((f.drop 6).take 2)) ++ ['-'] ++
    ((f.drop 8).take 2).flatMap (fun b => hex 2 b.toNat) ++ ['-'] ++
    (f.drop 10).flatMap (fun b => hex 2 b.toNat) ++ ['}']

/-- The digit in upper case. -/
def upper (c : Char) : Char :=
  if c = 'a' then 'A' else if c = 'b' then 'B' else if c = 'c' then 'C' else if c = 'd' then 'D' else
  if c = 'e' then 'E' else if c = 'f' then 'F' else c

/-- The 32 digits of the GUID. -/
def plain (g : Guid) : Text :=
  [g.b0, g.b1, g.b2, g.b3, g.b4, g.b5, g.b6, g.b7, g.b8, g.b9, g.b10, g.b11, g.b12, g.b13, g.b14,
    g.b15].flatMap fun b => hex 2 b.toNat

/-- The 32 digits in groups of 8, 4, 4, 4 and 12. -/
def grouped (t : Text) : Text :=
  t.take 8 ++ ['-'] ++ (t.drop 8).take 4 ++ ['-'] ++ (t.drop 12).take 4 ++ ['-'] ++ (t.drop 16).take 4 ++
    ['-'] ++ t.drop 20

/-- The text denotes the GUID: its digits, in upper or lower case, as they are, in groups, in groups
in braces or in groups as a URN. -/
inductive Denotes (g : Guid) : Text → Prop where
  | simple {t : Text} : t.map upper = plain g → Denotes g t
  | groups {t : Text} : t.map upper = plain g → Denotes g (grouped t)
  | braced {t : Text} : t.map upper = plain g → Denotes g (['{'] ++ grouped t ++ ['}'])
  | urn {t : Text} : t.map upper = plain g →
      Denotes g (['u', 'r', 'n', ':', 'u', 'u', 'i', 'd', ':'] ++ grouped t)

end OneNote.Spec.GuidText
