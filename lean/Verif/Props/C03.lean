/-
C03: GUID byte order: a bijection between 16-byte strings and GUIDs that
reverses the first 4, the next 2 and the next 2 bytes and keeps the last 8.
-/
import Verif.Lemmas.Data

namespace OneNote

open Spec

/-- Reading any string of at least 16 bytes gives the GUID whose printed bytes are the file bytes
with the first 4, next 2 and next 2 reversed; exactly 16 bytes are consumed. -/
theorem C03_guid_layout (f : Bytes) (rest : Bytes) (hf : f.length = 16) :
    ∃ g : Guid, Guid.parse (f ++ rest) = .ok (g, rest) ∧
      [g.b0, g.b1, g.b2, g.b3, g.b4, g.b5, g.b6, g.b7,
       g.b8, g.b9, g.b10, g.b11, g.b12, g.b13, g.b14, g.b15] =
        (f.take 4).reverse ++ ((f.drop 4).take 2).reverse ++ ((f.drop 6).take 2).reverse
          ++ f.drop 8 := by
  match f, hf with
  | [c0, c1, c2, c3, c4, c5, c6, c7, c8, c9, c10, c11, c12, c13, c14, c15], _ =>
    exact ⟨_, Guid.parse_cons16 c0 c1 c2 c3 c4 c5 c6 c7 c8 c9 c10 c11 c12 c13 c14 c15 rest, rfl⟩

/-- Two different 16-byte strings never denote the same GUID. -/
theorem C03_guid_injective (f f' : Bytes) (rest rest' : Bytes) (g : Guid)
    (h : Guid.parse (f ++ rest) = .ok (g, rest)) (h' : Guid.parse (f' ++ rest') = .ok (g, rest')) :
    f = f' := by
  have h1 := Guid.parse_inv h
  have h2 := Guid.parse_inv h'
  rw [List.append_cancel_right h1, List.append_cancel_right h2]

/-- Every GUID is denoted by some 16-byte string (the Microsoft layout of `Spec.guid`). -/
theorem C03_guid_surjective (g : Guid) (rest : Bytes) :
    Guid.parse (guid g ++ rest) = .ok (g, rest) :=
  Guid.parse_guid g rest

/-- Fewer than 16 bytes are reported as end of file. -/
theorem C03_guid_short (s : Bytes) (h : s.length < 16) : Guid.parse s = .error .eof :=
  Guid.parse_short h

/-- The GUID of `/repo/src/shared/guid.rs` L82: 00112233-4455-6677-8899-aabbccddeeff. -/
example : Guid.parse ([0x33, 0x22, 0x11, 0x00, 0x55, 0x44, 0x77, 0x66, 0x88, 0x99, 0xAA, 0xBB,
    0xCC, 0xDD, 0xEE, 0xFF] ++ [5]) =
    .ok (⟨0x00, 0x11, 0x22, 0x33, 0x44, 0x55, 0x66, 0x77, 0x88, 0x99, 0xAA, 0xBB, 0xCC, 0xDD,
      0xEE, 0xFF⟩, [5]) :=
  C03_guid_surjective ⟨0x00, 0x11, 0x22, 0x33, 0x44, 0x55, 0x66, 0x77, 0x88, 0x99, 0xAA, 0xBB, 0xCC,
    0xDD, 0xEE, 0xFF⟩ [5]

#print axioms C03_guid_layout
#print axioms C03_guid_injective
#print axioms C03_guid_surjective
#print axioms C03_guid_short

end OneNote
