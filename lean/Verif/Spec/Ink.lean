/-
Ink strokes: where the coordinates of a stroke are stored.
-/
import Verif.Model.Document
import Verif.Spec.Encode

namespace OneNote.Spec.Ink

/-- The GUID of the x dimension: {598A6A8F-52C0-4BA0-93AF-AF357411A561}. -/
def xId : Guid :=
  ⟨0x59, 0x8A, 0x6A, 0x8F, 0x52, 0xC0, 0x4B, 0xA0, 0x93, 0xAF, 0xAF, 0x35, 0x74, 0x11, 0xA5, 0x61⟩

/-- The GUID of the y dimension: {B53F9F75-04E0-4498-A7EE-C30DBB5A9011}. -/
def yId : Guid :=
  ⟨0xB5, 0x3F, 0x9F, 0x75, 0x04, 0xE0, 0x44, 0x98, 0xA7, 0xEE, 0xC3, 0x0D, 0xBB, 0x5A, 0x90, 0x11⟩

/-- The first dimension with the given GUID is number `i`. -/
def FirstAt (dims : List InkDimension) (id : Guid) (i : Nat) : Prop :=
  (∃ d, dims[i]? = some d ∧ d.id = id) ∧ ∀ j, j < i → ∀ d, dims[j]? = some d → d.id ≠ id

/-- A 32-bit two's complement number. -/
def i32 (v : Int) : Nat := if v < 0 then (2 ^ 32 + v).toNat else v.toNat

/-- A stored dimension: its GUID, its limits and eight more bytes. -/
def dimension (d : InkDimension) (rest : Bytes) : Bytes :=
  guid d.id ++ (leBytes 4 (i32 d.limitLower) ++ (leBytes 4 (i32 d.limitUpper) ++ rest))

/-- The scale of an axis, 1.0 when it is not stored. -/
def scale (stored : Option F32) : F32e := .bits (stored.getD 0x3F800000)

end OneNote.Spec.Ink
