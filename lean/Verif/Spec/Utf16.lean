/-
UTF-16, little-endian: the Unicode encoding form, written as an encoder. Independent of the model's
decoder.
-/
import Verif.Spec.Encode

namespace OneNote.Spec

/-- The code units of a character: itself below 0x10000, a surrogate pair from there. -/
def utf16Units (c : Char) : List Nat :=
  if c.toNat < 0x10000 then [c.toNat]
  else [0xD800 + (c.toNat - 0x10000) / 0x400, 0xDC00 + (c.toNat - 0x10000) % 0x400]

/-- The bytes of a sequence of code units. -/
def unitBytes (us : List Nat) : Bytes := us.flatMap (leBytes 2)

/-- The bytes of a text. -/
def utf16 (t : List Char) : Bytes := unitBytes (t.flatMap utf16Units)

/-- A stored string ends at the end of the data, where an odd last byte does not count, or at a NUL
code unit. -/
def EndsText (tail : Bytes) : Prop := tail.length ≤ 1 ∨ ∃ rest, tail = 0 :: 0 :: rest

/-- The character NUL. -/
def nul : Char := Char.ofNat 0

/-- A leading surrogate. -/
def Leading (u : Nat) : Prop := 0xD800 ≤ u ∧ u ≤ 0xDBFF

/-- A trailing surrogate. -/
def Trailing (u : Nat) : Prop := 0xDC00 ≤ u ∧ u ≤ 0xDFFF

end OneNote.Spec
