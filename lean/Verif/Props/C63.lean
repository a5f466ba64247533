/-
C63: GUIDs and their texts.
-/
import Verif.Lemmas.GuidText
import Verif.Lemmas.Data

namespace OneNote

open Spec Spec.GuidText

private theorem hex_byte (m v : Nat) (b : UInt8) :
    hex (m + 2) (b.toNat + 256 * v) = hex m v ++ hex 2 b.toNat := by
  have hb := b.toNat_lt
  show (hex m ((b.toNat + 256 * v) / 16 / 16) ++ _) ++ _ = _ ++ ([_] ++ [_])
  rw [show (b.toNat + 256 * v) / 16 / 16 = v by omega, show (b.toNat + 256 * v) / 16 % 16 =
    b.toNat / 16 % 16 by omega, show (b.toNat + 256 * v) % 16 = b.toNat % 16 by omega, List.append_assoc]

private theorem hex_two (a b : UInt8) : hex 4 (number [a, b]) = hex 2 b.toNat ++ hex 2 a.toNat := by
  show hex (2 + 2) (a.toNat + 256 * (b.toNat + 256 * 0)) = _
  rw [hex_byte 2, Nat.mul_zero, Nat.add_zero]

private theorem hex_four (a b c d : UInt8) : hex 8 (number [a, b, c, d]) =
    hex 2 d.toNat ++ hex 2 c.toNat ++ hex 2 b.toNat ++ hex 2 a.toNat := by
  show hex (6 + 2) (a.toNat + 256 * (b.toNat + 256 * (c.toNat + 256 * (d.toNat + 256 * 0)))) = _
  rw [hex_byte 6, hex_byte 4, hex_byte 2, Nat.mul_zero, Nat.add_zero]

/-- A GUID is shown as the numbers that are stored for it. -/
theorem C63_shown (f rest : Bytes) (hf : f.length = 16) :
    ∃ g : Guid, Guid.parse (f ++ rest) = .ok (g, rest) ∧ g.display = textOf f := by
  match f, hf with
  | [c0, c1, c2, c3, c4, c5, c6, c7, c8, c9, c10, c11, c12, c13, c14, c15], _ =>
    refine ⟨_, Guid.parse_cons16 c0 c1 c2 c3 c4 c5 c6 c7 c8 c9 c10 c11 c12 c13 c14 c15 rest, ?_⟩
    rw [display_eq]
    show _ = ['{'] ++ hex 8 (number [c0, c1, c2, c3]) ++ ['-'] ++ hex 4 (number [c4, c5]) ++ ['-'] ++
      hex 4 (number [c6, c7]) ++ ['-'] ++ [c8, c9].flatMap (fun b => hex 2 b.toNat) ++ ['-'] ++
      [c10, c11, c12, c13, c14, c15].flatMap (fun b => hex 2 b.toNat) ++ ['}']
    rw [hex_two, hex_two, hex_four]
    rfl

/-- A text is read as a GUID exactly if it denotes it, in one of the four forms. -/
theorem C63_read_iff (s : Text) (g : Guid) : Guid.fromStr s = .ok g ↔ Denotes g s := fromStr_iff

/-- Every other text is reported as an invalid GUID. -/
theorem C63_refused (s : Text) (h : ∀ g, ¬ Denotes g s) : Guid.fromStr s = .error .invalidUuid := by
  unfold Guid.fromStr
  cases hr : Guid.tryParse s with
  | none => rfl
  | some g => exact absurd (fromStr_iff.1 (by unfold Guid.fromStr; rw [hr]; rfl)) (h g)

/-- What is shown is read back. -/
theorem C63_round_trip (g : Guid) : Guid.fromStr g.display = .ok g := by
  rw [fromStr_iff, display_eq]
  exact .braced (plain_upper g)

/-- Different GUIDs are shown differently. -/
theorem C63_distinct (g h : Guid) (e : g.display = h.display) : g = h := by
  have h1 := C63_round_trip g
  have h2 := C63_round_trip h
  rw [e, h2] at h1
  exact (Except.ok.inj h1).symm

/-- A literal in the source that is no GUID would be a panic. -/
theorem C63_literal (s : Text) : (∀ g, Guid.literal s = .ok g ↔ Denotes g s) ∧
    ((∀ g, ¬ Denotes g s) → Guid.literal s = .error .panic) := by
  refine ⟨fun g => ?_, fun h => ?_⟩
  · rw [← fromStr_iff]
    unfold Guid.literal
    cases Guid.fromStr s with
    | ok _ => exact Iff.rfl
    | error _ => exact ⟨nofun, nofun⟩
  · unfold Guid.literal
    rw [C63_refused s h]

/-- Every GUID that is written in the source is read, without a panic, as the one of the model. -/
theorem C63_constants :
    -- onenote/mod.rs L65, L111, L134
    Guid.literal "E4DBFD38-E5C7-408B-A8A1-0E7B421E1F5F".toList = .ok tocSchema ∧
    Guid.literal "1F937CB4-B26F-445F-B9F8-17E20160E461".toList = .ok sectionSchema ∧
    -- onenote/ink.rs L271, L278
    Guid.literal "598a6a8f-52c0-4ba0-93af-af357411a561".toList = .ok dimensionX ∧
    Guid.literal "b53f9f75-04e0-4498-a7ee-c30dbb5a9011".toList = .ok dimensionY ∧
    -- onestore/mod.rs L139, L147
    Guid.literal "1A5A319C-C26B-41AA-B9C5-9BD8C44E07D4".toList = .ok Store.headerRoot.guid ∧
    Guid.literal "84DEFAB9-AAA3-4A0D-A3A8-520C77AC7073".toList = .ok Store.dataRootId.guid ∧
    -- onestore/revision_role.rs L19
    Guid.literal "4A3717F8-1C14-49E7-9526-81D942DE1741".toList = .ok RevisionRole.roleGuid ∧
    -- fsshttpb/packaging.rs L35, L36
    Guid.literal "109ADD3F-911B-49F5-A5D0-1791EDC8AED8".toList = .ok Packaging.revisionStoreFormat ∧
    Guid.literal "638DE92F-A6D4-4BC1-9A36-B3FC2511A5B7".toList = .ok Packaging.packageStoreFormat := by
  decide +kernel

/-- The GUID of `/repo/src/shared/guid.rs` L82-94. -/
example : ∃ g : Guid, Guid.parse [0x33, 0x22, 0x11, 0x00, 0x55, 0x44, 0x77, 0x66, 0x88, 0x99, 0xAA, 0xBB,
      0xCC, 0xDD, 0xEE, 0xFF] = .ok (g, []) ∧ g.display = "{00112233-4455-6677-8899-AABBCCDDEEFF}".toList ∧
    Guid.fromStr "00112233-4455-6677-8899-aabbccddeeff".toList = .ok g ∧
    Guid.fromStr "urn:uuid:00112233-4455-6677-8899-aabbccddeeff".toList = .ok g ∧
    Guid.fromStr "00112233-4455-6677-8899_aabbccddeeff".toList = .error .invalidUuid := by
  refine ⟨⟨0x00, 0x11, 0x22, 0x33, 0x44, 0x55, 0x66, 0x77, 0x88, 0x99, 0xAA, 0xBB, 0xCC, 0xDD, 0xEE, 0xFF⟩,
    ?_⟩
  decide +kernel

#print axioms C63_shown
#print axioms C63_read_iff
#print axioms C63_refused
#print axioms C63_round_trip
#print axioms C63_distinct
#print axioms C63_literal
#print axioms C63_constants

end OneNote
