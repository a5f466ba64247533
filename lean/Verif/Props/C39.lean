/-
C39: Note tag fields decode to their values.
-/
import Verif.Lemmas.Node
import Verif.Lemmas.NoteTag
import Verif.Spec.NoteTag
import Verif.Spec.SampleObject

namespace OneNote

open Spec

/-- A shape code decodes to the shape with that code, and a code beyond the table is an error. -/
theorem C39_shape (v : Nat) :
    (∀ s, NoteTagShape.parse v = .ok s ↔ v = shapeCode s) ∧
    (143 < v → NoteTagShape.parse v = .error .malformedOneNoteFile) ∧
    (v ≤ 143 → ∃ s, NoteTagShape.parse v = .ok s) := by
  have beyond : 143 < v → NoteTagShape.parse v = .error .malformedOneNoteFile := by
    intro h
    obtain ⟨w, rfl⟩ : ∃ w, v = w + 144 := ⟨v - 144, by omega⟩
    exact shape_beyond w
  have table : v ≤ 143 → ∃ s, NoteTagShape.parse v = .ok s ∧ shapeCode s = v := by
    intro h
    have := shape_table ⟨v, by omega⟩
    cases hp : NoteTagShape.parse v with
    | ok s =>
      simp only [hp, Except.toOption, Option.map_some, Option.some.injEq] at this
      exact ⟨s, rfl, this⟩
    | error e =>
      simp only [hp, Except.toOption, Option.map_none, reduceCtorEq] at this
  refine ⟨fun s => ⟨fun h => ?_, fun h => h ▸ shape_code s⟩, beyond, fun h => ?_⟩
  · by_cases hv : v ≤ 143
    · obtain ⟨s', hs, hc⟩ := table hv
      rw [hs] at h
      cases h
      exact hc.symm
    · rw [beyond (by omega)] at h
      cases h
  · obtain ⟨s, hs, _⟩ := table h
    exact ⟨s, hs⟩

/-- Different codes give different shapes. -/
theorem C39_shape_injective (v w : Nat) (s : NoteTagShape) (hv : NoteTagShape.parse v = .ok s)
    (hw : NoteTagShape.parse w = .ok s) : v = w := by
  rw [((C39_shape v).1 s).1 hv, ((C39_shape w).1 s).1 hw]

/-- A shape can be ticked exactly if its code is that of a check box or follow-up flag. -/
theorem C39_checkable (v : Nat) (s : NoteTagShape) (h : NoteTagShape.parse v = .ok s) :
    s.isCheckable = true ↔ v ∈ checkableCodes := by
  have := ((C39_shape v).1 s).1 h
  subst this
  exact shape_checkable s

/-- The item type property decodes to the item type with that code. -/
theorem C39_item_type (o : Object) (v : Nat) (h : o.props.get .actionItemType = some (.u16 v))
    (t : ActionItemType) : ActionItemType.parse o = .ok (some t) ↔ itemTypeCode t v := by
  have e : ActionItemType.parse o = .ok (some (ActionItemType.ofValue v)) := by
    unfold ActionItemType.parse
    rw [propAs_some (to := PropertyValue.toU16) h rfl]
    rfl
  rw [e]
  have e2 : ActionItemType.ofValue v = t ↔ itemTypeCode t v := by
    unfold ActionItemType.ofValue
    by_cases h99 : v ≤ 99
    · rw [if_pos h99]
      cases t <;> simp only [itemTypeCode, reduceCtorEq, false_iff, ActionItemType.numeric.injEq] <;>
        omega
    · rw [if_neg h99]
      have hv : v = 100 ∨ v = 101 ∨ v = 102 ∨ v = 103 ∨ v = 104 ∨ v = 105 ∨
          ∃ w, v = w + 106 := by
        by_cases h : v ≤ 105
        · omega
        · exact .inr (.inr (.inr (.inr (.inr (.inr ⟨v - 106, by omega⟩)))))
      rcases hv with rfl | rfl | rfl | rfl | rfl | rfl | ⟨w, rfl⟩ <;>
        cases t <;> simp [itemTypeCode] <;> omega
  simpa using e2

/-- The item status property decodes to the stored bits. -/
theorem C39_item_status (o : Object) (s : ActionItemStatus) (unused : Nat)
    (h : o.props.get .actionItemStatus = some (.u16 (itemStatusWord s unused))) :
    ActionItemStatus.parse o = .ok (some s) := by
  unfold ActionItemStatus.parse
  rw [propAs_some (to := PropertyValue.toU16) h rfl]
  show Except.ok (some (ActionItemStatus.ofValue _)) = _
  congr 2
  obtain ⟨a, b, c⟩ := s
  have nested : itemStatusWord ⟨a, b, c⟩ unused
      = a.toNat + 2 * (b.toNat + 2 * (c.toNat + 2 * unused)) := by
    simp only [itemStatusWord]; omega
  rw [nested]
  simp only [ActionItemStatus.ofValue, bitSet_zero, bitSet_succ]

/-- The definition status property decodes to the stored bits. -/
theorem C39_definition_status (o : Object) (s : NoteTagPropertyStatus) (u v : Bool)
    (rest : Nat)
    (h : o.props.get .noteTagPropertyStatus = some (.u32 (definitionStatusWord s u v rest))) :
    NoteTagPropertyStatus.parse o = .ok (some s) := by
  unfold NoteTagPropertyStatus.parse
  rw [propAs_some (to := PropertyValue.toU32) h rfl]
  show Except.ok (some (NoteTagPropertyStatus.ofValue _)) = _
  congr 2
  obtain ⟨a, b, c, d, e, f, g, i, j, k⟩ := s
  have nested : definitionStatusWord ⟨a, b, c, d, e, f, g, i, j, k⟩ u v rest =
      a.toNat + 2 * (b.toNat + 2 * (c.toNat + 2 * (d.toNat + 2 * (u.toNat + 2 * (v.toNat
        + 2 * (e.toNat + 2 * (f.toNat + 2 * (g.toNat + 2 * (i.toNat + 2 * (j.toNat
        + 2 * (k.toNat + 2 * rest))))))))))) := by
    simp only [definitionStatusWord]; omega
  rw [nested]
  simp only [NoteTagPropertyStatus.ofValue, bitSet_zero, bitSet_succ]

/-- A note tag definition that is read carries the shape, item type and status that its properties
store. -/
theorem C39_definition (o : Object) (d : NoteTagDefinition) (h : NoteTagDefinition.parse o = .ok d) :
    o.props.get .noteTagShape = some (.u16 (shapeCode d.shape)) ∧
    (∃ v, o.props.get .actionItemType = some (.u16 v) ∧ itemTypeCode d.actionItemType v) ∧
    NoteTagPropertyStatus.parse o = .ok (some d.status) ∧
    Simple.parseString .noteTagLabel o = .ok (some d.label) ∧
    ColorRef.parse .noteTagHighlightColor o = .ok d.highlightColor ∧
    ColorRef.parse .noteTagTextColor o = .ok d.textColor := by
  unfold NoteTagDefinition.parse at h
  obtain ⟨_, _, h⟩ := Res.bind_ok h
  obtain ⟨label, hlabel, h⟩ := Res.bind_ok h
  obtain ⟨label', hlabel', h⟩ := Res.bind_ok h
  obtain ⟨st, hst, h⟩ := Res.bind_ok h
  obtain ⟨st', hst', h⟩ := Res.bind_ok h
  obtain ⟨sh, hsh, h⟩ := Res.bind_ok h
  obtain ⟨sh', hsh', h⟩ := Res.bind_ok h
  obtain ⟨sh'', hsh'', h⟩ := Res.bind_ok h
  obtain ⟨hc, hhc, h⟩ := Res.bind_ok h
  obtain ⟨tc, htc, h⟩ := Res.bind_ok h
  obtain ⟨it, hit, h⟩ := Res.bind_ok h
  obtain ⟨it', hit', h⟩ := Res.bind_ok h
  cases h
  rw [required_ok hlabel'] at hlabel
  rw [required_ok hst'] at hst
  rw [required_ok hsh''] at hsh'
  rw [required_ok hit'] at hit
  refine ⟨?_, ?_, hst, hlabel, hhc, htc⟩
  · rcases optM_ok hsh' with ⟨_, h⟩ | ⟨a, b, ha, hb, hab⟩
    · cases h
    · cases hb
      subst ha
      rcases propAs_ok hsh with ⟨_, h⟩ | ⟨v, x, hv, hx, he⟩
      · cases h
      · cases he
        rw [hv, toU16_some hx, ((C39_shape _).1 _).1 hab]
  · have hit2 := hit
    unfold ActionItemType.parse at hit
    obtain ⟨y, hy, he⟩ := Res.bind_ok hit
    rcases propAs_ok hy with ⟨_, h⟩ | ⟨v, x, hv, hx, rfl⟩
    · subst h; cases he
    · rw [toU16_some hx] at hv
      exact ⟨x, hv, (C39_item_type o x hv _).1 hit2⟩

/-- A definition of a "question mark" tag that is due tomorrow. -/
private def question : Object :=
  sampleObject PropertySetId.noteTagSharedDefinitionContainer.asJcid
    [(.noteTagLabel, .vec [0x3F, 0, 0, 0]), (.noteTagShape, .u16 15),
      (.noteTagPropertyStatus, .u32 0x89), (.actionItemType, .u16 101)]

example : NoteTagDefinition.parse question = .ok
    { label := ['?'], shape := .questionMark, highlightColor := none, textColor := none
      actionItemType := .dueTomorrow
      status := ⟨true, false, false, true, false, true, false, false, false, false⟩ } := by
  decide +kernel

example : question.props.get .noteTagPropertyStatus = some (.u32 (definitionStatusWord
    ⟨true, false, false, true, false, true, false, false, false, false⟩ false false 0)) := rfl

example : NoteTagShape.parse 143 = .ok .sunflower ∧
    NoteTagShape.parse 144 = .error .malformedOneNoteFile :=
  ⟨((C39_shape 143).1 _).2 rfl, (C39_shape 144).2.1 (by decide)⟩

/-- A completed task tag. -/
example : ActionItemStatus.parse (sampleObject 0 [(.actionItemStatus, .u16 5)])
    = .ok (some ⟨true, false, true⟩) :=
  C39_item_status _ ⟨true, false, true⟩ 0 rfl

#print axioms C39_shape
#print axioms C39_shape_injective
#print axioms C39_checkable
#print axioms C39_item_type
#print axioms C39_item_status
#print axioms C39_definition_status
#print axioms C39_definition

end OneNote
