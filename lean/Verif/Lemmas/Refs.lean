/-
References and nested property sets: what the readers return, for every object.
-/
import Verif.Lemmas.References
import Verif.Lemmas.Fields

namespace OneNote

open Spec Spec.Fields

mutual
theorem references_counted (s : Stream) (v : PropertyValue) :
    PropertyValue.references s.obj s.spc v = idsCounted s v := by
  match v with
  | .empty | .bool _ | .u8 _ | .u16 _ | .u32 _ | .u64 _ | .vec _ | .contextId | .contextIds _
  | .propertySet _ =>
    simp [PropertyValue.references, idsCounted]
  | .objectId => simp [PropertyValue.references, idsCounted, Spec.Stream.obj]
  | .objectIds n => simp [PropertyValue.references, idsCounted, Stream.obj_mul]
  | .objectSpaceId => simp [PropertyValue.references, idsCounted, Spec.Stream.spc]
  | .objectSpaceIds n => simp [PropertyValue.references, idsCounted, Stream.spc_mul]
  | .propertyValues _ sets =>
    rw [PropertyValue.references, idsCounted]
    exact referencesSets_counted s sets

theorem referencesSets_counted (s : Stream) (x : List (List (Nat × (Nat × PropertyValue)))) :
    PropertyValue.referencesSets s.obj s.spc x = idsCountedSets s x := by
  match x with
  | [] => simp [PropertyValue.referencesSets, idsCountedSets]
  | a :: x =>
    rw [PropertyValue.referencesSets, idsCountedSets, referencesSet_counted s a,
      referencesSets_counted s x]

theorem referencesSet_counted (s : Stream) (x : List (Nat × (Nat × PropertyValue))) :
    PropertyValue.referencesSet s.obj s.spc x = idsCountedSet s x := by
  match x with
  | [] => simp [PropertyValue.referencesSet, idsCountedSet]
  | (_, _, v) :: x =>
    rw [PropertyValue.referencesSet, idsCountedSet, references_counted s v, referencesSet_counted s x]
end

theorem idsCountedSet_sum (s : Stream) (x : List (Nat × (Nat × PropertyValue))) :
    idsCountedSet s x = (x.map fun e => idsCounted s e.2.2).sum := by
  induction x with
  | nil => rfl
  | cons e x ih => obtain ⟨a, b, v⟩ := e; rw [idsCountedSet, ih]; rfl

theorem countObjectRefs_eq (x : PropertySet) :
    countObjectRefs x.values = idsCountedSet .objects x := by
  rw [idsCountedSet_sum]
  unfold countObjectRefs PropertySet.values
  rw [List.map_map]
  congr 1
  exact List.map_congr_left fun e _ => references_counted .objects e.2.2

theorem countSpaceRefs_eq (x : PropertySet) :
    countSpaceRefs x.values = idsCountedSet .spaces x := by
  rw [idsCountedSet_sum]
  unfold countSpaceRefs PropertySet.values
  rw [List.map_map]
  congr 1
  exact List.map_congr_left fun e _ => references_counted .spaces e.2.2

theorem objectOffset_iff {t : PropertyType} {o : Object} {pos : Nat} :
    ObjectReference.getOffset t o = .ok pos ↔ StartsAt .objects o.props.properties t.code pos := by
  unfold ObjectReference.getOffset predecessors StartsAt
  cases h : o.props.properties.index t.code with
  | none => simp
  | some i =>
    simp only [Option.some.injEq, exists_eq_left', Except.ok.injEq]
    have := countObjectRefs_eq (o.props.properties.filter fun e => decide (e.2.1 < i))
    rw [idsCountedSet_sum] at this
    rw [← this]
    exact eq_comm

theorem spaceOffset_iff {t : PropertyType} {o : Object} {pos : Nat} :
    ObjectSpaceReference.getOffset t o = .ok pos ↔ StartsAt .spaces o.props.properties t.code pos := by
  unfold ObjectSpaceReference.getOffset predecessors StartsAt
  cases h : o.props.properties.index t.code with
  | none => simp
  | some i =>
    simp only [Option.some.injEq, exists_eq_left', Except.ok.injEq]
    have := countSpaceRefs_eq (o.props.properties.filter fun e => decide (e.2.1 < i))
    rw [idsCountedSet_sum] at this
    rw [← this]
    exact eq_comm

theorem ref_iff {t : PropertyType} {o : Object} {r : Option ExGuid} :
    ObjectReference.parse t o = .ok r ↔ Ref o t.code r := by
  unfold ObjectReference.parse Ref ObjectPropSet.get
  cases hg : o.props.properties.get t.code with
  | none => simp [eq_comm]
  | some v =>
    cases v <;> simp only [reduceCtorEq, false_and, exists_false, or_false,
      Option.some.injEq] <;> try simp
    cases ho : ObjectReference.getOffset t o with
    | error e =>
      simp only [reduceCtorEq, false_iff]
      rintro ⟨pos, hp, _⟩
      rw [← objectOffset_iff, ho] at hp
      cases hp
    | ok pos =>
      simp only
      cases hi : o.props.objectIds[pos]? with
      | none =>
        simp only [reduceCtorEq, false_iff]
        rintro ⟨pos', hp, id, h, _⟩
        rw [← objectOffset_iff, ho] at hp
        cases hp
        rw [hi] at h
        cases h
      | some id =>
        simp only [Except.ok.injEq]
        constructor
        · rintro rfl
          exact ⟨pos, objectOffset_iff.1 ho, id, hi, rfl⟩
        · rintro ⟨pos', hp, id', h, rfl⟩
          rw [← objectOffset_iff, ho] at hp
          cases hp
          rw [hi] at h
          cases h
          rfl

theorem refList_iff {t : PropertyType} {o : Object} {r : Option (List ExGuid)} :
    ObjectReference.parseVec t o = .ok r ↔ (o.props.properties.get t.code = none ∧ r = none) ∨
      ∃ ids, RefList o t.code ids ∧ r = some ids := by
  unfold ObjectReference.parseVec RefList ObjectPropSet.get
  constructor
  · intro h
    split at h
    · next hn => cases h; exact .inl ⟨hn, rfl⟩
    · next n hv =>
      split at h
      · cases h
      · next pos hp =>
        cases h
        refine .inr ⟨_, ⟨n, pos, hv, objectOffset_iff.1 hp, ?_⟩, rfl⟩
        exact filterMap_slice o.props.objectIds pos n (fun p c => o.mapping.getObject p c)
    · cases h
  · rintro (⟨hn, rfl⟩ | ⟨ids, ⟨n, pos, hv, hp, rfl⟩, rfl⟩)
    · rw [hn]
    · rw [hv]
      simp only [objectOffset_iff.2 hp]
      rw [filterMap_slice o.props.objectIds pos n (fun p c => o.mapping.getObject p c)]

theorem cellList_iff {t : PropertyType} {o : Object} {r : Option (List CellId)} :
    ObjectSpaceReference.parseVec t o = .ok r ↔ (o.props.properties.get t.code = none ∧ r = none) ∨
      ∃ ids, (o.props.properties.get t.code ≠ none ∧ CellRefs o t.code ids) ∧ r = some ids := by
  have slice : ∀ pos n, ((o.props.objectSpaceIds.drop pos).take n).zipIdx.filterMap
      (fun e => o.mapping.getObjectSpace e.2 e.1) = (List.range n).filterMap fun j =>
        o.props.objectSpaceIds[pos + j]?.bind (o.mapping.getObjectSpace j) := by
    intro pos n
    have := filterMap_slice (o.props.objectSpaceIds.drop pos) 0 n
      (fun p c => o.mapping.getObjectSpace p c)
    simp only [List.drop_zero, Nat.add_zero, Nat.zero_add, List.getElem?_drop] at this
    exact this
  unfold ObjectSpaceReference.parseVec CellRefs ObjectPropSet.get
  constructor
  · intro h
    split at h
    · next hn => cases h; exact .inl ⟨hn, rfl⟩
    · next n hv =>
      split at h
      · cases h
      · next pos hp =>
        cases h
        exact .inr ⟨_, ⟨by simp [hv], .inr ⟨n, pos, hv, spaceOffset_iff.1 hp, slice pos n⟩⟩, rfl⟩
    · cases h
  · rintro (⟨hn, rfl⟩ | ⟨ids, ⟨hne, ⟨hn, _⟩ | ⟨n, pos, hv, hp, rfl⟩⟩, rfl⟩)
    · rw [hn]
    · exact absurd hn hne
    · rw [hv]
      simp only [spaceOffset_iff.2 hp]
      rw [slice]

theorem refs_getD {t : PropertyType} {o : Object} {ids : List ExGuid} :
    (∃ r, ObjectReference.parseVec t o = .ok r ∧ r.getD [] = ids) ↔ Refs o t.code ids := by
  simp only [refList_iff, Refs]
  constructor
  · rintro ⟨r, ⟨h, rfl⟩ | ⟨i, h, rfl⟩, rfl⟩
    · exact .inl ⟨h, rfl⟩
    · exact .inr h
  · rintro (⟨h, rfl⟩ | h)
    · exact ⟨none, .inl ⟨h, rfl⟩, rfl⟩
    · exact ⟨_, .inr ⟨_, h, rfl⟩, rfl⟩

theorem refs_required {t : PropertyType} {o : Object} {ids : List ExGuid} :
    ObjectReference.parseVec t o = .ok (some ids) ↔ RefList o t.code ids := by
  simp [refList_iff]

theorem cells_getD {t : PropertyType} {o : Object} {ids : List CellId} :
    (∃ r, ObjectSpaceReference.parseVec t o = .ok r ∧ r.getD [] = ids) ↔ CellRefs o t.code ids := by
  simp only [cellList_iff]
  constructor
  · rintro ⟨r, ⟨h, rfl⟩ | ⟨i, h, rfl⟩, rfl⟩
    · exact .inl ⟨h, rfl⟩
    · exact h.2
  · intro h
    by_cases hn : o.props.properties.get t.code = none
    · rcases h with ⟨_, rfl⟩ | ⟨n, pos, hv, _⟩
      · exact ⟨none, .inl ⟨hn, rfl⟩, rfl⟩
      · rw [hv] at hn; cases hn
    · exact ⟨_, .inr ⟨_, ⟨hn, h⟩, rfl⟩, rfl⟩

theorem nestedObject_iff {t : PropertyType} {o inner : Object} {kind : Nat} {set : PropertySet} :
    nestedObject t o kind set = .ok inner ↔ Inside o t.code kind set inner := by
  unfold nestedObject Inside
  constructor
  · intro h
    split at h
    · cases h
    · next pos hp =>
      split at h
      · cases h
      · next pos' hp' =>
        cases h
        refine ⟨pos, pos', objectOffset_iff.1 hp, spaceOffset_iff.1 hp', ?_⟩
        rw [countObjectRefs_eq, countSpaceRefs_eq]
  · rintro ⟨pos, pos', hp, hp', rfl⟩
    simp only [objectOffset_iff.2 hp, spaceOffset_iff.2 hp', countObjectRefs_eq, countSpaceRefs_eq]

end OneNote
