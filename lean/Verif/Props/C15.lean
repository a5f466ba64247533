/-
C15: Property lookup.
-/
import Verif.Lemmas.Lookup
import Verif.Lemmas.PropSetGood

namespace OneNote

open Spec

/-- In the set with the properties `es`, asking for identifier word `w` finds value `v` at position
`i` exactly if `v` is the `i`-th property, its identifier is the low 26 bits of `w`, and no later
property has that identifier. -/
theorem C15_lookup_found (es : List (Nat × PropertyValue)) (w i : Nat) (v : PropertyValue) :
    ((setOf es).get w = some v ∧ (setOf es).index w = some i) ↔
      ∃ pre post, es = pre ++ (w % 2 ^ 26, v) :: post ∧ pre.length = i ∧
        ∀ e ∈ post, e.1 ≠ w % 2 ^ 26 := by
  unfold PropertySet.get PropertySet.index PropertyId.id
  rw [and_3ffffff]
  rw [← setOf_get?_some]
  cases h : Map.get? (setOf es) (w % 67108864) with
  | none => simp
  | some x =>
    obtain ⟨j, u⟩ := x
    simp [and_comm]

/-- Nothing is found exactly if no property has the identifier. -/
theorem C15_lookup_absent (es : List (Nat × PropertyValue)) (w : Nat) :
    ((setOf es).get w = none ↔ ∀ e ∈ es, e.1 ≠ w % 2 ^ 26) ∧
    ((setOf es).index w = none ↔ ∀ e ∈ es, e.1 ≠ w % 2 ^ 26) := by
  unfold PropertySet.get PropertySet.index PropertyId.id
  rw [and_3ffffff, ← setOf_get?_none]
  simp

/-- The same for an object read from bytes and a property asked for by its type: the type bits of
the asked word are ignored. -/
theorem C15_lookup_parsed (s rest : Bytes) (o : ObjectPropSet) (t : PropertyType)
    (h : ObjectPropSet.parse s = .ok (o, rest)) :
    ∃ es bs, ObjectPropSetEnc o.objectIds o.objectSpaceIds o.contextIds es bs ∧ s = bs ++ rest ∧
      ∀ v, o.get t = some v ↔ ∃ pre post, es = pre ++ (t.code % 2 ^ 26, v) :: post ∧
        ∀ e ∈ post, e.1 ≠ t.code % 2 ^ 26 := by
  obtain ⟨-, -, -, es, bs, hb, hs, he⟩ := objectPropSet_only _ _ _ h
  refine ⟨es, bs, hb, hs, fun v => ?_⟩
  unfold ObjectPropSet.get
  rw [he]
  constructor
  · intro hv
    cases hi : (setOf es).index t.code with
    | none =>
      have := ((C15_lookup_absent es t.code).1.trans (C15_lookup_absent es t.code).2.symm).mpr hi
      rw [this] at hv; cases hv
    | some i =>
      obtain ⟨pre, post, h1, -, h2⟩ := (C15_lookup_found es t.code i v).mp ⟨hv, hi⟩
      exact ⟨pre, post, h1, h2⟩
  · rintro ⟨pre, post, h1, h2⟩
    exact ((C15_lookup_found es t.code pre.length v).mpr ⟨pre, post, h1, rfl, h2⟩).1

/-- Two properties with the identifier of `NoteTags`; asking by `NoteTagStates` (other type bits)
finds the later one, at position 2. -/
example : (setOf [(0x3489, .u8 1), (5, .empty), (0x3489, .u16 2)]).get
    PropertyType.noteTagStates.code = some (.u16 2) ∧
    (setOf [(0x3489, .u8 1), (5, .empty), (0x3489, .u16 2)]).index
    PropertyType.noteTagStates.code = some 2 :=
  (C15_lookup_found _ _ _ _).mpr ⟨[(0x3489, .u8 1), (5, .empty)], [], rfl, rfl, by simp⟩

#print axioms C15_lookup_found
#print axioms C15_lookup_absent
#print axioms C15_lookup_parsed

end OneNote
