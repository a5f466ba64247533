/-
C38: Layout alignment decodes to its fields.
-/
import Verif.Lemmas.Bits
import Verif.Spec.SampleObject
import Verif.Spec.Layout

namespace OneNote

open Spec

/-- Every 32-bit value is a layout word. -/
theorem C38_every_value (v : Nat) (h : v < 2 ^ 32) : ∃ w : LayoutWord, w.toNat = v := by
  refine ⟨⟨⟨v % 8, by omega⟩, ⟨v / 2 ^ 3 % 2, by omega⟩, ⟨v / 2 ^ 4 % 4096, by omega⟩,
    ⟨v / 2 ^ 16 % 2, by omega⟩, ⟨v / 2 ^ 17 % 4, by omega⟩, ⟨v / 2 ^ 19 % 2, by omega⟩,
    ⟨v / 2 ^ 20 % 2048, by omega⟩, ⟨v / 2 ^ 31, by omega⟩⟩, ?_⟩
  unfold LayoutWord.toNat
  simp only
  omega

/-- The decisions on the five fields that count. -/
private theorem layout_fields : ∀ (a : Fin 8) (b c d s : Fin 2),
    (if s.val ≠ 0 then Except.ok none
      else do
        let horizontal ← HorizontalAlignment.parse a.val
        let marginHorizontal ← HorizontalAlignmentMargin.parse b.val
        let vertical ← VerticalAlignment.parse c.val
        let marginVertical ← VerticalAlignment.parse d.val
        pure (some ⟨horizontal, marginHorizontal, vertical, marginVertical⟩) :
      Res (Option LayoutAlignment)) =
    match (if s = 1 then some none
      else (horizontals[a.val]?).map fun h => some
        (⟨h, if b = 0 then .right else .left, if c = 0 then .bottom else .top,
          if d = 0 then .bottom else .top⟩ : LayoutAlignment)) with
    | some a => .ok a
    | none => .error .malformedOneNoteFile := by decide

/-- A layout alignment property is read as the fields of its word, as no alignment when the word is
unset, and is an error when the horizontal code is unknown. -/
theorem C38_layout (id : PropertyType) (o : Object) (w : LayoutWord)
    (h : o.props.get id = some (.u32 w.toNat)) :
    LayoutAlignment.parse id o =
      match w.meaning with
      | some a => .ok a
      | none => .error .malformedOneNoteFile := by
  have e : LayoutAlignment.parse id o = LayoutAlignment.ofValue w.toNat := by
    unfold LayoutAlignment.parse
    rw [propAs_some (to := PropertyValue.toU32) h rfl]
    rfl
  rw [e]
  obtain ⟨a, b, u1, c, u2, d, u3, s⟩ := w
  have ha := a.isLt
  have hb := b.isLt
  have h1 := u1.isLt
  have hc := c.isLt
  have h2 := u2.isLt
  have hd := d.isLt
  have h3 := u3.isLt
  have hs := s.isLt
  have f0 : (LayoutWord.toNat ⟨a, b, u1, c, u2, d, u3, s⟩) &&& 0x7 = a := by
    rw [show 0x7 = 2 ^ 3 - 1 from rfl, Nat.and_two_pow_sub_one_eq_mod]
    simp only [LayoutWord.toNat]; omega
  have f1 : (LayoutWord.toNat ⟨a, b, u1, c, u2, d, u3, s⟩) >>> 3 &&& 0x1 = b := by
    rw [bit_eq]; simp only [LayoutWord.toNat]; omega
  have f2 : (LayoutWord.toNat ⟨a, b, u1, c, u2, d, u3, s⟩) >>> 16 &&& 0x1 = c := by
    rw [bit_eq]; simp only [LayoutWord.toNat]; omega
  have f3 : (LayoutWord.toNat ⟨a, b, u1, c, u2, d, u3, s⟩) >>> 19 &&& 0x1 = d := by
    rw [bit_eq]; simp only [LayoutWord.toNat]; omega
  have f4 : (LayoutWord.toNat ⟨a, b, u1, c, u2, d, u3, s⟩) >>> 31 &&& 0x1 = s := by
    rw [bit_eq]; simp only [LayoutWord.toNat]; omega
  unfold LayoutAlignment.ofValue LayoutWord.meaning
  rw [f0, f1, f2, f3, f4]
  exact layout_fields a b c d s

/-- Without the property there is no alignment; with another type it is an error. -/
theorem C38_missing_or_wrong_type (id : PropertyType) (o : Object) :
    (o.props.get id = none → LayoutAlignment.parse id o = .ok none) ∧
    (∀ v, o.props.get id = some v → (∀ n, v ≠ .u32 n) →
      LayoutAlignment.parse id o = .error .malformedOneNoteFile) := by
  constructor
  · intro h
    unfold LayoutAlignment.parse
    rw [propAs_missing h]
    rfl
  · intro v h hv
    unfold LayoutAlignment.parse
    rw [propAs_wrong h (by cases v <;> first | rfl | exact absurd rfl (hv _))]
    rfl

/-- Centred, margin on the left, at the top, margin at the bottom; then unset; then an unknown
code. -/
example :
    LayoutAlignment.parse .layoutAlignmentInParent (sampleObject 0 [(.layoutAlignmentInParent, .u32 0x1000A)])
      = .ok (some ⟨.center, .left, .top, .bottom⟩) ∧
    LayoutAlignment.parse .layoutAlignmentInParent (sampleObject 0 [(.layoutAlignmentInParent, .u32 0x80000002)]) = .ok none ∧
    LayoutAlignment.parse .layoutAlignmentInParent (sampleObject 0 [(.layoutAlignmentInParent, .u32 6)])
      = .error .malformedOneNoteFile :=
  ⟨C38_layout _ _ ⟨2, 1, 0, 1, 0, 0, 0, 0⟩ rfl, C38_layout _ _ ⟨2, 0, 0, 0, 0, 0, 0, 1⟩ rfl,
    C38_layout _ _ ⟨6, 0, 0, 0, 0, 0, 0, 0⟩ rfl⟩

#print axioms C38_every_value
#print axioms C38_layout
#print axioms C38_missing_or_wrong_type

end OneNote
