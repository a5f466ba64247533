/-
C37: Colours decode to their components.
-/
import Verif.Lemmas.Bits
import Verif.Spec.SampleObject

namespace OneNote

open Spec

/-- A colour property stored as the four bytes red, green, blue and transparency is read as those
components; the transparency byte counts down from opaque. Every 32-bit value is such four bytes. -/
theorem C37_color (id : PropertyType) (o : Object) (r g b a : UInt8)
    (h : o.props.get id = some (.u32 (leNat [r, g, b, a]))) :
    Color.parse id o
      = .ok (some { alpha := 255 - a.toNat, r := r.toNat, g := g.toNat, b := b.toNat }) := by
  have hb := leByte_leNat r g b a
  unfold Color.parse
  rw [propAs_some (to := PropertyValue.toU32) h rfl]
  show Except.ok (some (Color.ofValue _)) = _
  unfold Color.ofValue
  rw [hb.1, hb.2.1, hb.2.2.1, hb.2.2.2]

/-- A colour reference is automatic exactly when its last byte is 0xFF, is the stored red, green and
blue exactly when its last byte is 0, and is an error otherwise. -/
theorem C37_colorRef (id : PropertyType) (o : Object) (r g b m : UInt8)
    (h : o.props.get id = some (.u32 (leNat [r, g, b, m]))) :
    (ColorRef.parse id o = .ok (some .auto) ↔ m = 0xFF) ∧
    (∀ r' g' b', ColorRef.parse id o = .ok (some (.manual r' g' b')) ↔
      m = 0 ∧ r' = r.toNat ∧ g' = g.toNat ∧ b' = b.toNat) ∧
    (ColorRef.parse id o = .error .malformedOneNoteFile ↔ m ≠ 0xFF ∧ m ≠ 0) := by
  have hb := leByte_leNat r g b m
  have e : ColorRef.parse id o = optM ColorRef.ofValue (some (leNat [r, g, b, m])) := by
    unfold ColorRef.parse
    rw [propAs_some (to := PropertyValue.toU32) h rfl]
    rfl
  rw [e]
  have e2 : optM ColorRef.ofValue (some (leNat [r, g, b, m])) =
      if m = 0xFF then .ok (some .auto)
      else if m = 0 then .ok (some (.manual r.toNat g.toNat b.toNat))
      else .error .malformedOneNoteFile := by
    have m1 : m.toNat = 0xFF ↔ m = 0xFF := ⟨fun e => UInt8.toNat_inj.mp e, fun e => by rw [e]; rfl⟩
    have m0 : m.toNat = 0 ↔ m = 0 := ⟨fun e => UInt8.toNat_inj.mp e, fun e => by rw [e]; rfl⟩
    rw [optM, ColorRef.ofValue_eq, hb.1, hb.2.1, hb.2.2.1, hb.2.2.2]
    simp only [m1, m0]
    by_cases h1 : m = 0xFF
    · simp [h1]
    · by_cases h0 : m = 0
      · simp [h0]
      · simp [h1, h0]
  rw [e2]
  by_cases h1 : m = 0xFF
  · subst h1
    exact ⟨by simp, by simp, by simp⟩
  · by_cases h0 : m = 0
    · subst h0
      refine ⟨by simp, ?_, by simp⟩
      intro r' g' b'
      simp [eq_comm]
    · simp [h1, h0]

/-- A missing colour is no colour, and a colour stored with another type is an error. -/
theorem C37_missing_or_wrong_type (id : PropertyType) (o : Object) :
    (o.props.get id = none → Color.parse id o = .ok none ∧ ColorRef.parse id o = .ok none) ∧
    (∀ v, o.props.get id = some v → (∀ n, v ≠ .u32 n) →
      Color.parse id o = .error .malformedOneNoteFile ∧
        ColorRef.parse id o = .error .malformedOneNoteFile) := by
  constructor
  · intro h
    unfold Color.parse ColorRef.parse
    rw [propAs_missing h]
    exact ⟨rfl, rfl⟩
  · intro v h hv
    unfold Color.parse ColorRef.parse
    rw [propAs_wrong h (by cases v <;> first | rfl | exact absurd rfl (hv _))]
    exact ⟨rfl, rfl⟩

/-- Half-transparent orange, and the same bytes with the manual marker. -/
example : Color.parse .sectionColor (sampleObject 0 [(.sectionColor, .u32 (leNat [0xFF, 0x80, 0x10, 0x7F]))])
      = .ok (some { alpha := 128, r := 255, g := 128, b := 16 }) ∧
    ColorRef.parse .sectionColor (sampleObject 0 [(.sectionColor, .u32 (leNat [0xFF, 0x80, 0x10, 0]))])
      = .ok (some (.manual 255 128 16)) :=
  ⟨C37_color _ _ 0xFF 0x80 0x10 0x7F rfl, ((C37_colorRef _ _ 0xFF 0x80 0x10 0 rfl).2.1 _ _ _).2 (by decide)⟩

/-- A colour stored as a byte. -/
example : Color.parse .sectionColor (sampleObject 0 [(.sectionColor, .u8 3)]) = .error .malformedOneNoteFile :=
  ((C37_missing_or_wrong_type _ _).2 (.u8 3) rfl (by simp)).1

#print axioms C37_color
#print axioms C37_colorRef
#print axioms C37_missing_or_wrong_type

end OneNote
