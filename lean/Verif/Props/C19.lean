/-
C19: Each note tag and text run resolves its own references. FALSE of the code: all nested property
sets of an array are given the identifiers of the first one.
-/
import Verif.Lemmas.References
import Verif.Props.C17

namespace OneNote

open Spec

private def x1 : ExGuid := ⟨Guid.nil, 1⟩
private def x2 : ExGuid := ⟨Guid.nil, 2⟩
private def c1 : CompactId := ⟨1, 0⟩
private def c2 : CompactId := ⟨2, 0⟩
private def tag : PropertySet :=
  setOf [(PropertyType.noteTagDefinitionOid.code % 2 ^ 26, .objectId)]
private def tagged : Object :=
  ⟨x1, 0, ⟨[c1, c2], [], [], setOf [(PropertyType.noteTags.code % 2 ^ 26,
    .propertyValues 0 [tag, tag])]⟩, none, MappingTable.fromEntries [(c1, x1), (c2, x2)] []⟩

/-- FALSE in general: an object with two note tags, each holding one reference to its definition;
the identifier stream holds `c1` (recorded as `x1`) for the first tag and `c2` (recorded as `x2`)
for the second. Both tags resolve to `x1`. -/
theorem C19_refuted : ∃ (o : Object) (a b : Object),
    o.props.properties = setOf [(PropertyType.noteTags.code % 2 ^ 26, .propertyValues 0
      [setOf [(PropertyType.noteTagDefinitionOid.code % 2 ^ 26, .objectId)],
       setOf [(PropertyType.noteTagDefinitionOid.code % 2 ^ 26, .objectId)]])] ∧
    o.props.objectIds = [c1, c2] ∧ c1 ≠ c2 ∧
    o.mapping.getObject 0 c1 = some x1 ∧ o.mapping.getObject 1 c2 = some x2 ∧ x1 ≠ x2 ∧
    nestedObjects .noteTags o = .ok (some [a, b]) ∧
    ObjectReference.parse .noteTagDefinitionOid a = .ok (some x1) ∧
    ObjectReference.parse .noteTagDefinitionOid b = .ok (some x1) :=
  ⟨tagged, ⟨x1, 0, ⟨[c1], [], [], tag⟩, none, tagged.mapping⟩,
    ⟨x1, 0, ⟨[c1], [], [], tag⟩, none, tagged.mapping⟩, rfl, rfl, by decide, by decide +kernel,
    by decide +kernel, by decide, rfl, by decide +kernel, by decide +kernel⟩

/-- FALSE in general (2): even the first nested set can resolve wrongly, because its identifiers are
looked up for positions counted from the start of the slice. Here the object has three object ids,
the first taken by an earlier property; `c2` is recorded twice, and the tag's reference is lost. -/
theorem C19_refuted_first : ∃ (o : Object) (a : Object),
    o.props.properties = setOf [(5, .objectId), (PropertyType.noteTags.code % 2 ^ 26,
      .propertyValues 0 [setOf [(PropertyType.noteTagDefinitionOid.code % 2 ^ 26, .objectId)]]),
      (6, .objectId)] ∧
    o.props.objectIds = [c1, c2, c2] ∧
    o.mapping.getObject 1 c2 = some x2 ∧
    nestedObjects .noteTags o = .ok (some [a]) ∧
    ObjectReference.parse .noteTagDefinitionOid a = .ok none :=
  ⟨⟨x1, 0, ⟨[c1, c2, c2], [], [], _⟩, none,
      MappingTable.fromEntries [(c1, x1), (c2, x2), (c2, x2)] []⟩,
    ⟨x1, 0, ⟨[c2], [], [], tag⟩, none,
      MappingTable.fromEntries [(c1, x1), (c2, x2), (c2, x2)] []⟩,
    rfl, rfl, by decide +kernel, rfl, by decide +kernel⟩

/-- What the code does: there is one nested object per nested set, in order, each with the
properties of its set; the object ids of every one are taken from the start of the array's part of
the stream, as many as its set needs. So the first set has its own identifiers.
Missing for the full property: the other sets. -/
theorem C19_slices_partial (o : Object) (t : PropertyType) (pre post : List (Nat × PropertyValue))
    (id : Nat) (sets : List PropertySet)
    (hp : o.props.properties = setOf (pre ++ (t.code % 2 ^ 26, .propertyValues id sets) :: post))
    (hd : DistinctIds (pre ++ (t.code % 2 ^ 26, .propertyValues id sets) :: post))
    (hf : ∀ e ∈ pre, ∀ s, SingleSetsFree s e.2)
    (hs : ∀ s ∈ sets, SingleSetsFreeSet .objects s) :
    ∃ os : List Object, nestedObjects t o = .ok (some os) ∧ os.length = sets.length ∧
      ∀ (k : Nat) (set : PropertySet), sets[k]? = some set → ∃ n : Object, os[k]? = some n ∧
        n.props.properties = set ∧ n.mapping = o.mapping ∧ n.contextId = o.contextId ∧
        n.props.objectIds =
          (o.props.objectIds.drop (idsUsedBy .objects pre)).take (idsUsedSet .objects set) := by
  refine ⟨sets.map fun set => ⟨o.contextId, id,
    ⟨(o.props.objectIds.drop (idsUsedBy .objects pre)).take (countObjectRefs set.values),
     (o.props.objectIds.drop (idsUsedBy .spaces pre)).take (countSpaceRefs set.values), [], set⟩,
    none, o.mapping⟩, ?_, by simp, ?_⟩
  · unfold nestedObjects
    rw [(predecessors_eq hp hd).1]
    simp only
    rw [mapM_ok (nestedObject t o id) _ sets]
    intro set _
    unfold nestedObject
    rw [objectOffset_eq hp hd fun e he => hf e he .objects,
      spaceOffset_eq hp hd fun e he => hf e he .spaces]
  · intro k set hk
    rw [List.getElem?_map, hk]
    refine ⟨_, rfl, rfl, rfl, rfl, ?_⟩
    show List.take (countObjectRefs set.values) _ = _
    congr 1
    unfold countObjectRefs
    rw [referencesSet_values]
    exact referencesSet_eq .objects set (hs set (List.mem_of_getElem? hk))

/-- For an object read from a file, the first nested set resolves its own references (here: a single
reference `t'` behind the properties `pre'` of the set), provided the array comes first in the
identifier stream or no compact id is repeated. -/
theorem C19_first_from_file_partial (oid ctx sid : ExGuid) (objects : GroupMap) (pkg : Package)
    (o : Object) (refs : List ExGuid) (cells : List CellId) (data : Bytes)
    (oids osids ctxs : List CompactId) (t t' : PropertyType)
    (pre post pre' post' : List (Nat × PropertyValue)) (id : Nat) (more : List PropertySet)
    (ho : Object.parse oid ctx sid objects pkg = .ok o)
    (hg : objects.get? (oid, 1) = some (.object refs cells data))
    (hb : ObjectPropSetEnc oids osids ctxs (pre ++ (t.code % 2 ^ 26, .propertyValues id
      (setOf (pre' ++ (t'.code % 2 ^ 26, .objectId) :: post') :: more)) :: post) data)
    (h1 : oids.length < 2 ^ 24 ∧ ∀ c ∈ oids, CompactIdOk c)
    (h2 : osids.length < 2 ^ 24 ∧ ∀ c ∈ osids, CompactIdOk c)
    (h3 : ctxs.length < 2 ^ 24 ∧ ∀ c ∈ ctxs, CompactIdOk c)
    (hl : idsUsedBy .objects pre + idsUsedBy .objects pre' < refs.length)
    (hd : DistinctIds (pre ++ (t.code % 2 ^ 26, .propertyValues id
      (setOf (pre' ++ (t'.code % 2 ^ 26, .objectId) :: post') :: more)) :: post))
    (hd' : DistinctIds (pre' ++ (t'.code % 2 ^ 26, .objectId) :: post'))
    (hf : ∀ e ∈ pre, ∀ s, SingleSetsFree s e.2)
    (hf' : ∀ e ∈ pre', SingleSetsFree .objects e.2)
    (hs : ∀ s ∈ setOf (pre' ++ (t'.code % 2 ^ 26, .objectId) :: post') :: more,
      SingleSetsFreeSet .objects s)
    (hu : idsUsedBy .objects pre = 0 ∨ (oids ++ ctxs).Nodup) :
    ∃ first others, nestedObjects t o = .ok (some (first :: others)) ∧
      ObjectReference.parse t' first =
        .ok refs[idsUsedBy .objects pre + idsUsedBy .objects pre']? := by
  obtain ⟨hpr, hm, -⟩ := object_from_file ho hg hb h1 h2 h3
  have hoids : o.props.objectIds = oids := by rw [hpr]
  obtain ⟨os, hos, hlen, hk⟩ := C19_slices_partial o t pre post id _ (by rw [hpr]) hd hf hs
  obtain ⟨n, hn, hnp, hnm, -, hni⟩ := hk 0 _ rfl
  cases os with
  | nil => cases hn
  | cons first others =>
  cases hn
  refine ⟨n, others, hos, ?_⟩
  rw [C17_single_reference_partial n t' pre' post' hnp hd' hf', hnm, hm, hni, hoids]
  -- the number of references of the whole set exceeds those of its first properties
  have hlt : idsUsedBy .objects pre' <
      idsUsedSet .objects (setOf (pre' ++ (t'.code % 2 ^ 26, .objectId) :: post')) := by
    have haux : ∀ (es : List (Nat × PropertyValue)) (i : Nat),
        idsUsedSet .objects ((es.zipIdx i).map fun e => (e.1.1, (e.2, e.1.2))) =
          idsUsedBy .objects es := by
      intro es
      induction es with
      | nil => intro i; simp [idsUsedSet, idsUsedBy]
      | cons e es ih =>
        intro i
        rw [List.zipIdx_cons, List.map_cons, idsUsedSet, ih]
        simp [idsUsedBy]
    rw [setOf_distinct hd', haux]
    simp only [idsUsedBy, List.map_append, List.map_cons, List.sum_append, List.sum_cons, idsUsed]
    simp
    omega
  rw [List.getElem?_take_of_lt hlt, List.getElem?_drop]
  have hle : refs.length ≤ oids.length := by
    obtain ⟨refs', cells', data', hg', -, hle, -⟩ := object_parse_ok ho
    rw [hg] at hg'
    cases hg'
    rwa [hoids] at hle
  generalize idsUsedBy .objects pre = off at *
  generalize idsUsedBy .objects pre' = off' at *
  have hlt' : off + off' < oids.length := by omega
  have hc : oids[off + off']? = some oids[off + off'] := List.getElem?_eq_getElem hlt'
  have hx : refs[off + off']? = some refs[off + off'] := List.getElem?_eq_getElem hl
  rw [hc, hx]
  simp only
  congr 1
  rcases hu with h0 | hnd
  · subst h0
    exact mapping_object (by simpa using hc) (by simpa using hx)
  · unfold Object.mappingOf MappingTable.getObject MappingTable.fromEntries
    simp only
    have hz : (oids.zip refs)[off + off']? = some (oids[off + off'], refs[off + off']) := by
      rw [List.getElem?_zip_eq_some]; exact ⟨hc, hx⟩
    have hzl := (List.getElem?_eq_some_iff.mp hz).1
    apply MappingTable.lookup_once off' (j := off + off')
    · rw [List.getElem?_append_left hzl, hz]
    · intro k y hk
      by_cases hkl : k < (oids.zip refs).length
      · rw [List.getElem?_append_left hkl, List.getElem?_zip_eq_some] at hk
        exact ((List.getElem?_inj hlt' (List.nodup_append.mp hnd).1).mp (hc.trans hk.1.symm)).symm
      · rw [List.getElem?_append_right (by omega), List.getElem?_zip_eq_some] at hk
        exact absurd rfl ((List.nodup_append.mp hnd).2.2 _ (List.getElem_mem hlt') _
          (List.mem_of_getElem? hk.1))

private def e0 : ExGuid := ⟨Guid.nil, 9⟩
private def bytes : Bytes := [2, 0, 0, 0x80,  1, 0, 0, 0,  2, 0, 0, 0,
  2, 0,  5, 0, 0, 0x20,  0x89, 0x34, 0, 0x40,
  1, 0, 0, 0,  0x89, 0x34, 0, 0x44,  1, 0,  0x88, 0x34, 0, 0x20]
private def group : GroupMap := [((e0, 4), .object [] [] [0x0B, 0, 6, 0]),
  ((e0, 1), .object [x1, x2] [] bytes)]

/-- The hypotheses are met: an earlier property takes the first object id, a note tag the second. -/
example : ∃ o first others, Object.parse e0 e0 e0 group Package.empty = .ok o ∧
    nestedObjects .noteTags o = .ok (some (first :: others)) ∧
    ObjectReference.parse .noteTagDefinitionOid first = .ok (some x2) := by
  have hk : (Object.parse e0 e0 e0 group Package.empty).isOk = true := by decide +kernel
  cases ho : Object.parse e0 e0 e0 group Package.empty with
  | error e => rw [ho] at hk; cases hk
  | ok o =>
    obtain ⟨a, b, h⟩ := C19_first_from_file_partial e0 e0 e0 group _ o [x1, x2] [] bytes
      [c1, c2] [] [] .noteTags .noteTagDefinitionOid [(5, .objectId)] [] [] [] 0x44003489 []
      ho (by decide +kernel)
      (.oids 0 false _ _ (by decide)
        (.mk _ [5, 0, 0, 0x20, 0x89, 0x34, 0, 0x40] _ (by decide)
          (.cons 5 8 false _ [] _ _ _ (by decide) (.objectId _)
            (.cons 0x3489 0x10 false _ _ _ _ _ (by decide)
              (.propertyValues _ 0x44003489 _ [1, 0, 0x88, 0x34, 0, 0x20] (by decide) (by decide)
                (.cons _ _ _ _ (.mk _ [0x88, 0x34, 0, 0x20] [] (by decide)
                  (.cons 0x3488 8 false _ [] _ _ _ (by decide) (.objectId _) .nil)) .nil)) .nil))))
      ⟨by decide, by simp [CompactIdOk, c1, c2]⟩ ⟨by decide, by simp⟩ ⟨by decide, by simp⟩
      (by decide +kernel) (by unfold DistinctIds; decide +kernel)
      (by unfold DistinctIds; decide +kernel) (by simp [SingleSetsFree]) (by simp)
      (by simp [SingleSetsFreeSet, SingleSetsFree, setOf, Map.ofList, Map.extend, Map.insert])
      (.inr (by decide +kernel))
    exact ⟨o, a, b, rfl, h⟩

#print axioms C19_refuted
#print axioms C19_refuted_first
#print axioms C19_slices_partial
#print axioms C19_first_from_file_partial

end OneNote
