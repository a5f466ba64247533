/-
C80: 32-bit builds show the same as 64-bit builds. FALSE of the code: sizes are cut to 32 bits, so there
are files that only a 32-bit build reads, and references may be counted wrong.
-/
import Verif.Lemmas.Narrow
import Verif.Lemmas.Terminates
import Verif.Spec.SampleFile

namespace OneNote

open Spec

/-- **What holds for files**: a build with a `usize` of `w` bits reads every file that a 64-bit build
reads and that fits into its memory, with the same result. -/
theorem C80_store_partial (w : Nat) (ord : Order) (data : Bytes) (hd : data.length < 2 ^ w) (st : Store)
    (h : readStore ord data = .ok st) : Narrow.readStore w ord data = .ok st :=
  Narrow.agrees_store hd h

/-- The same for sections. (References are counted without a limit in both; what that leaves out is
`C80_references_partial`.) -/
theorem C80_section_partial (w fuel : Nat) (ord : Order) (data : Bytes) (name : Text)
    (hd : data.length < 2 ^ w) (s : Section) (h : parseSectionBuffer fuel ord data name = .ok s) :
    Narrow.parseSectionBuffer w fuel ord data name = .ok s := by
  unfold parseSectionBuffer at h
  obtain ⟨st, h1, h2⟩ := Res.bind_ok h
  unfold Narrow.parseSectionBuffer
  rw [Narrow.agrees_store hd h1]
  exact h2

/-- On 64-bit targets the conversions to `usize` change nothing, on all inputs. -/
theorem C80_sixty_four : Narrow.parse 64 = Packaging.parse ∧
    (∀ ord data, Narrow.readStore 64 ord data = readStore ord data) := by
  refine ⟨Narrow.parse_sixty_four, fun ord data => ?_⟩
  unfold Narrow.readStore readStore
  rw [Narrow.parse_sixty_four]

/-- **What holds for references**: if the properties in front of a property declare fewer than `2 ^ w`
references, then its references are the same in both builds. -/
theorem C80_references_partial (w : Nat) (t : PropertyType) (o : Object)
    (ho : ∀ n, ObjectReference.getOffset t o = .ok n → n < 2 ^ w)
    (hs : ∀ n, ObjectSpaceReference.getOffset t o = .ok n → n < 2 ^ w) :
    Narrow.objectReference w t o = ObjectReference.parse t o ∧
      Narrow.objectReferences w t o = ObjectReference.parseVec t o ∧
      Narrow.spaceReferences w t o = ObjectSpaceReference.parseVec t o := by
  have h1 : Narrow.objectOffset w t o = ObjectReference.getOffset t o := by
    unfold Narrow.objectOffset
    cases h : ObjectReference.getOffset t o with
    | error e => rfl
    | ok n => exact congrArg Except.ok (Nat.mod_eq_of_lt (ho n h))
  have h2 : Narrow.spaceOffset w t o = ObjectSpaceReference.getOffset t o := by
    unfold Narrow.spaceOffset
    cases h : ObjectSpaceReference.getOffset t o with
    | error e => rfl
    | ok n => exact congrArg Except.ok (Nat.mod_eq_of_lt (hs n h))
  refine ⟨?_, ?_, ?_⟩
  · unfold Narrow.objectReference ObjectReference.parse
    rw [h1]
    rfl
  · unfold Narrow.objectReferences ObjectReference.parseVec
    rw [h1]
    rfl
  · unfold Narrow.spaceReferences ObjectSpaceReference.parseVec
    rw [h2]
    rfl

/-! ### A file that only 32-bit builds read -/

/-- A section file whose last element is an attachment of three bytes. -/
private def whole : Bytes :=
  fileW (sx 3) sectionGuid (⟨sx 4, manifestOf sectionGuid⟩ ::
    (storeElements [.root contentRole (sx 1000), .root metadataRole (sx 1001)]
      (sectionObjects (some ['n']) 0) ++ [⟨sx 5, .blob [1, 2, 3]⟩]))

/-- The same file with `2 ^ 32 + 3` for the size of the attachment. -/
private def oversized : Bytes :=
  whole.take (whole.length - 8) ++ ([0x80, 3, 0, 0, 0, 1, 0, 0, 0] ++ whole.drop (whole.length - 7))

/-- **Refuted**: a file of fewer than 2000 bytes with a size of `2 ^ 32 + 3` in it is reported as
truncated by a 64-bit build, while a 32-bit build shows a section. -/
theorem C80_refuted : ∃ (data : Bytes) (s : Section), data.length < 2000 ∧
    parseSectionBuffer 3 Order.id data [] = .error .eof ∧
    Narrow.parseSectionBuffer 32 3 Order.id data [] = .ok s ∧ s.displayName = ['n'] := by
  have h1 : (match parseSectionBuffer 3 Order.id oversized [] with
    | .error .eof => true
    | _ => false) = true := by decide +kernel
  have h2 : (Narrow.parseSectionBuffer 32 3 Order.id oversized []).toOption.map Section.displayName =
      some ['n'] := by decide +kernel
  obtain ⟨s, hs, e⟩ := Option.map_eq_some_iff.1 h2
  refine ⟨oversized, s, by decide +kernel, ?_, toOption_some hs, e⟩
  generalize parseSectionBuffer 3 Order.id oversized [] = x at h1 ⊢
  split at h1
  · rfl
  · cases h1

/-- An object with two references, behind two lists that claim `2 ^ 31` references each. -/
private def crowded : Object where
  contextId := sx 1
  jcId := 5
  props := {
    objectIds := [⟨1, 0⟩, ⟨2, 0⟩]
    objectSpaceIds := []
    contextIds := []
    properties := setOf [(0x24000001, .objectIds (2 ^ 31)), (0x24000002, .objectIds (2 ^ 31)),
      (PropertyType.elementChildNodes.code % 2 ^ 26, .objectIds 1)] }
  fileData := none
  mapping := MappingTable.fromEntries [(⟨1, 0⟩, sx 8), (⟨2, 0⟩, sx 9)] []

/-- **Refuted for references**: the lists in front use up all identifiers, so a 64-bit build finds no
child. A 32-bit build counts `2 ^ 32` references as none and finds the first one of the other list. -/
theorem C80_references_refuted : ∃ (o : Object) (t : PropertyType) (id : ExGuid),
    ObjectReference.parseVec t o = .ok (some []) ∧
    Narrow.objectReferences 32 t o = .ok (some [id]) := by
  refine ⟨crowded, .elementChildNodes, sx 8, ?_, ?_⟩
  · decide +kernel
  · decide +kernel

/-- The unchanged file is read by both. -/
example : ∃ s, parseSectionBuffer 3 Order.id whole [] = .ok s ∧ s.displayName = ['n'] ∧
    whole.length < 2 ^ 32 ∧ Narrow.parseSectionBuffer 32 3 Order.id whole [] = .ok s := by
  have h : (parseSectionBuffer 3 Order.id whole []).toOption.map Section.displayName =
      some ['n'] := by decide +kernel
  obtain ⟨s, hs, e⟩ := Option.map_eq_some_iff.1 h
  have hl : whole.length < 2 ^ 32 := by decide +kernel
  exact ⟨s, toOption_some hs, e, hl, C80_section_partial 32 3 Order.id whole [] hl s (toOption_some hs)⟩

#print axioms C80_store_partial
#print axioms C80_section_partial
#print axioms C80_sixty_four
#print axioms C80_references_partial
#print axioms C80_refuted
#print axioms C80_references_refuted

end OneNote
