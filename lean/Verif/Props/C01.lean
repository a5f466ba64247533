/-
C01: Reading a compact 64-bit integer returns exactly the integer that was
encoded, in any of the legal widths, and consumes exactly the bytes of that
encoding.
-/
import Verif.Lemmas.Data

namespace OneNote

open Spec

/-- Every legal encoding of every value decodes to that value, whatever bytes follow, and exactly
the encoding is consumed. -/
theorem C01_compact_roundtrip (v : Nat) (bs rest : Bytes) (h : Compact v bs) :
    CompactU64.parse (bs ++ rest) = .ok (v, rest) :=
  compact_enc h rest

/-- Every `u64` has an encoding (so the theorem above covers all of them)... -/
theorem C01_compact_every_value (v : Nat) (hv : v < 2 ^ 64) : Compact v (compact v) :=
  compact_writer hv

/-- ... and conversely whatever is accepted is a legal encoding of the returned value, which is a
`u64`: nothing else is ever accepted. -/
theorem C01_compact_only_encodings (s rest : Bytes) (v : Nat)
    (h : CompactU64.parse s = .ok (v, rest)) :
    v < 2 ^ 64 ∧ ∃ bs, Compact v bs ∧ s = bs ++ rest := by
  obtain ⟨bs, hc, he⟩ := compact_inv h
  exact ⟨compact_lt hc, bs, hc, he⟩

/-- The three-byte encoding of 1000 (value bits `1111101000`, marker `100`). -/
example : CompactU64.parse ([0x44, 0x1F, 0x00] ++ [0xAA]) = .ok (1000, [0xAA]) :=
  C01_compact_roundtrip 1000 _ _ (Compact.small 3 1000 (by decide) (by decide))

/-- The same value in the nine-byte form. -/
example : CompactU64.parse ([0x80, 0xE8, 3, 0, 0, 0, 0, 0, 0] ++ [7]) = .ok (1000, [7]) :=
  C01_compact_roundtrip 1000 _ _ (Compact.wide 1000 (by decide))

example : Compact (2 ^ 64 - 1) (compact (2 ^ 64 - 1)) := C01_compact_every_value _ (by decide)

#print axioms C01_compact_roundtrip
#print axioms C01_compact_every_value
#print axioms C01_compact_only_encodings

end OneNote
