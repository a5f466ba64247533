/-
C31: Text decodes as UTF-16.
-/
import Verif.Model.Property
import Verif.Lemmas.Utf16

namespace OneNote

open Spec

/-- The decoder returns exactly the texts that are stored: a text without NUL comes out if and only
if the data is its UTF-16 encoding up to the end, an odd last byte, or a NUL. Everything else is an
error. -/
theorem C31_decode_iff (data : Bytes) :
    (∀ t : List Char, utf16ToString data = .ok t ↔
      nul ∉ t ∧ ∃ tail, data = utf16 t ++ tail ∧ EndsText tail) ∧
    ((¬ ∃ t : List Char, nul ∉ t ∧ ∃ tail, data = utf16 t ++ tail ∧ EndsText tail) →
      utf16ToString data = .error .malformedOneNote) := by
  have key : ∀ t : List Char, utf16ToString data = .ok t ↔
      nul ∉ t ∧ ∃ tail, data = utf16 t ++ tail ∧ EndsText tail := by
    intro t
    constructor
    · intro h
      unfold utf16ToString at h
      split at h
      · rename_i t' h'
        cases h
        have hs := truncateNul_split (chunks2 data)
        have hl : ∀ u ∈ truncateNul (chunks2 data), u < 0x10000 := fun u hu =>
          chunks2_lt data u ((List.takeWhile_prefix _).subset hu)
        have hinv := decodeUtf16_inv _ _ _ (Nat.le_refl _) hl h'
        refine ⟨fun hn => hs.1 (hinv ▸ (text_units_nul t).2 hn), ?_⟩
        obtain ⟨tail, hd, hlen⟩ := chunks2_split data
        rcases hs.2 with he | ⟨vs, he⟩
        · refine ⟨tail, ?_, .inl hlen⟩
          unfold utf16
          rw [← hinv, ← he, ← hd]
        · refine ⟨0 :: 0 :: (unitBytes vs ++ tail), ?_, .inr ⟨_, rfl⟩⟩
          unfold utf16
          rw [← hinv]
          conv => lhs; rw [hd, he]
          unfold unitBytes
          rw [List.flatMap_append, List.flatMap_cons, List.append_assoc, List.append_assoc]
          rfl
      · cases h
    · rintro ⟨hn, tail, rfl, he⟩
      unfold utf16ToString
      rw [truncate_text hn he, decodeUtf16_text]
  refine ⟨key, fun h => ?_⟩
  cases hr : utf16ToString data with
  | ok t => exact absurd ⟨t, (key t).1 hr⟩ h
  | error e =>
    unfold utf16ToString at hr
    split at hr
    · cases hr
    · cases hr; rfl

/-- A surrogate that is not part of a pair makes the string an error: a trailing surrogate without
a leading one, or a leading surrogate at the end or before a unit that is not a trailing one. -/
theorem C31_unpaired_surrogate (t : List Char) (ht : nul ∉ t) (u : Nat) (tail : Bytes)
    (h : (Trailing u) ∨ (Leading u ∧ (EndsText tail ∨
      ∃ v rest, v < 0x10000 ∧ ¬ Trailing v ∧ tail = leBytes 2 v ++ rest))) :
    utf16ToString (utf16 t ++ (leBytes 2 u ++ tail)) = .error .malformedOneNote := by
  have hu : u < 0x10000 ∧ u ≠ 0 ∧ isPlainUnit u = false := by
    have : u < 0x10000 ∧ u ≠ 0 ∧ ¬ (u < 0xD800 ∨ 0xDFFF < u) := by
      rcases h with h | ⟨h, -⟩
      · unfold Trailing at h; omega
      · unfold Leading at h; omega
    refine ⟨this.1, this.2.1, ?_⟩
    rw [Bool.eq_false_iff]; intro hp; exact this.2.2 ((plain_iff u).1 hp)
  unfold utf16ToString utf16
  rw [chunks2_units _ (text_units_lt t), chunks2_unit hu.1,
    truncateNul_append (fun h => ht ((text_units_nul t).1 h)), decodeUtf16_text_append]
  have e : truncateNul (u :: chunks2 tail) = u :: truncateNul (chunks2 tail) := by
    simp [truncateNul, hu.2.1]
  have hbad : decodeUtf16 (u :: truncateNul (chunks2 tail)) = none := by
    match hm : truncateNul (chunks2 tail) with
    | [] => simp [decodeUtf16, hu.2.2]
    | v :: vs =>
      rw [decodeUtf16]
      simp only [hu.2.2, Bool.false_eq_true, if_false]
      rw [if_neg]
      rw [Bool.and_eq_true, high_iff, low_iff]
      rintro ⟨hl, hv⟩
      rcases h with h | ⟨-, h | ⟨w, rest, hw, hnt, rfl⟩⟩
      · unfold Trailing at h; unfold Leading at hl; omega
      · rcases h with h | ⟨rest, rfl⟩
        · rw [chunks2_short h] at hm; simp [truncateNul] at hm
        · simp [chunks2, truncateNul, leNat] at hm
      · rw [chunks2_unit hw] at hm
        unfold truncateNul at hm
        rw [List.takeWhile_cons] at hm
        split at hm
        · cases hm; exact hnt hv
        · cases hm
  rw [e, hbad]
  rfl

/-- The same for a string property of an object: the stored text is what is read, and a property
whose data is not UTF-16 is an error. -/
theorem C31_string_property (id : PropertyType) (o : Object) (data : Bytes)
    (h : o.props.get id = some (.vec data)) :
    (∀ t : List Char, Simple.parseString id o = .ok (some t) ↔
      nul ∉ t ∧ ∃ tail, data = utf16 t ++ tail ∧ EndsText tail) ∧
    ((¬ ∃ t : List Char, nul ∉ t ∧ ∃ tail, data = utf16 t ++ tail ∧ EndsText tail) →
      Simple.parseString id o = .error .malformedOneNoteFile) := by
  have hk := C31_decode_iff data
  have e : Simple.parseString id o = match utf16ToString data with
      | .ok text => .ok (some text)
      | .error _ => .error .malformedOneNoteFile := by
    unfold Simple.parseString propAs
    rw [h]
    rfl
  rw [e]
  constructor
  · intro t
    rw [← hk.1 t]
    cases utf16ToString data with
    | ok t' =>
      simp only [Except.ok.injEq, Option.some.injEq]
    | error _ => simp
  · intro hn
    rw [hk.2 hn]

/-- "aé😀" with a NUL and two more bytes behind it. -/
example : utf16 ['a', 'é', '😀'] = [0x61, 0, 0xE9, 0, 0x3D, 0xD8, 0x00, 0xDE] ∧
    utf16ToString [0x61, 0, 0xE9, 0, 0x3D, 0xD8, 0x00, 0xDE, 0, 0, 0x62, 0] = .ok ['a', 'é', '😀'] :=
  ⟨by decide +kernel,
    ((C31_decode_iff _).1 _).2 ⟨by decide, [0, 0, 0x62, 0], by decide +kernel, .inr ⟨_, rfl⟩⟩⟩

/-- "a" and a leading surrogate that is followed by "b". -/
example : utf16ToString [0x61, 0, 0x3D, 0xD8, 0x62, 0] = .error .malformedOneNote :=
  C31_unpaired_surrogate ['a'] (by decide) 0xD83D [0x62, 0]
    (.inr ⟨by unfold Leading; omega, .inr ⟨0x62, [], by decide, by unfold Trailing; omega, rfl⟩⟩)

#print axioms C31_decode_iff
#print axioms C31_unpaired_surrogate
#print axioms C31_string_property

end OneNote
