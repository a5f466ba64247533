/-
C14: Property sets round trip.
-/
import Verif.Lemmas.PropSetGood

namespace OneNote

open Spec

/-- Every legal serialisation of a property set, of any nesting depth, is parsed back to exactly
those properties, and exactly its bytes are consumed. -/
theorem C14_round_trip (es : List (Nat × PropertyValue)) (bs rest : Bytes) (h : SetEnc es bs) :
    PropertySet.parse (bs ++ rest) = .ok (setOf es, rest) :=
  reads_propertySet h rest

/-- Conversely whatever is accepted is a legal serialisation: nothing else is ever returned. -/
theorem C14_accepts_only (s rest : Bytes) (ps : PropertySet)
    (h : PropertySet.parse s = .ok (ps, rest)) :
    ∃ es bs, SetEnc es bs ∧ s = bs ++ rest ∧ ps = setOf es :=
  onlySets_parse s ps rest h

/-- A property type outside the table is an error whatever follows. -/
theorem C14_unknown_type (set : P PropertySet) (w : Nat) (s : Bytes)
    (h : w / 2 ^ 26 % 32 ∉ [1, 2, 3, 4, 5, 6, 7, 8, 9, 10, 11, 12, 13, 16, 17]) :
    PropertyValue.parseWith set w s = .error .malformedOneStore := by
  unfold PropertyValue.parseWith
  have e : PropertyId.propType w = w / 2 ^ 26 % 32 := by
    unfold PropertyId.propType; rw [shr_eq, and_1f]
  rw [e]
  simp only [List.mem_cons, List.not_mem_nil, or_false, not_or] at h
  generalize w / 2 ^ 26 % 32 = t at h
  split <;> first | rfl | (exfalso; omega)

/-- A set nested `n` levels deep: each level is a set property holding the next level. -/
def nestedSet : Nat → List (Nat × PropertyValue)
  | 0 => [(7, .u16 513)]
  | n + 1 => [(9, .propertySet (setOf (nestedSet n))), (10, .vec [1, 2, 3])]

/-- Legal serialisations exist for every nesting depth. -/
theorem nestedSet_enc : ∀ n, ∃ bs, SetEnc (nestedSet n) bs
  | 0 => ⟨_, .mk _ _ _ (by decide) (.cons 7 _ false _ _ _ _ _ (by decide)
      (.u16 _ 513 (by decide)) .nil)⟩
  | n + 1 => by
    obtain ⟨bs, h⟩ := nestedSet_enc n
    exact ⟨_, .mk _ _ _ (by simp [nestedSet]) (.cons 9 _ true _ _ _ _ _ (by decide)
      (.propertySet _ _ _ h) (.cons 10 _ false _ _ _ _ _ (by decide)
        (.vec _ [1, 2, 3] (by decide)) .nil))⟩

example (n : Nat) : ∃ bs, PropertySet.parse (bs ++ [0xEE]) = .ok (setOf (nestedSet n), [0xEE]) := by
  obtain ⟨bs, h⟩ := nestedSet_enc n
  exact ⟨bs, C14_round_trip _ _ _ h⟩

/-- An array of two property sets inside a property set, byte by byte. -/
example : PropertySet.parse
    ([2, 0,  0x99, 0x34, 0, 0x40,  0x04, 0x1C, 0, 0x88,
      2, 0, 0, 0,  0x11, 0x08, 0, 0x44,  1, 0, 5, 0, 0, 0x14, 4, 3, 2, 1,  0, 0] ++ [0xEE]) =
    .ok (setOf [(0x3499, .propertyValues 0x44000811 [setOf [(5, .u32 0x01020304)], setOf []]),
      (0x1C04, .bool true)], [0xEE]) :=
  C14_round_trip _ _ _ (.mk _ [0x99, 0x34, 0, 0x40, 0x04, 0x1C, 0, 0x88]
    [2, 0, 0, 0,  0x11, 0x08, 0, 0x44,  1, 0, 5, 0, 0, 0x14, 4, 3, 2, 1,  0, 0] (by decide)
    (.cons 0x3499 0x10 false _ _ _ _ _ (by decide)
      (.propertyValues _ 0x44000811 _ _ (by decide) (by decide)
        (.cons _ _ _ _ (.mk _ _ _ (by decide)
          (.cons 5 5 false _ _ _ _ _ (by decide) (.u32 _ 0x01020304 (by decide)) .nil))
          (.cons _ _ _ _ (.mk [] _ _ (by decide) .nil) .nil)))
      (.cons 0x1C04 2 true _ _ _ _ _ (by decide) (.bool _) .nil)))

#print axioms C14_round_trip
#print axioms C14_accepts_only
#print axioms C14_unknown_type

end OneNote
