/-
C17: Object references select the right identifiers.

FALSE of the code for objects with single nested property sets (type 0x11) that hold references,
because those are not counted, and for objects that repeat a property identifier.
-/
import Verif.Lemmas.References
import Verif.Spec.SampleFile

namespace OneNote

open Spec

/-- Reading the references of property `t`, which is preceded in file order by the properties
`pre`: they are the `n` identifiers from position `idsUsedBy .objects pre` on, each resolved through
the object's mapping table for its own position, in order.
Missing for the full property: objects whose earlier properties include a single nested property
set (0x11) that holds object ids. -/
theorem C17_reference_list_partial (o : Object) (t : PropertyType)
    (pre post : List (Nat × PropertyValue)) (n : Nat)
    (hp : o.props.properties = setOf (pre ++ (t.code % 2 ^ 26, .objectIds n) :: post))
    (hd : DistinctIds (pre ++ (t.code % 2 ^ 26, .objectIds n) :: post))
    (hf : ∀ e ∈ pre, SingleSetsFree .objects e.2) :
    ObjectReference.parseVec t o = .ok (some ((List.range n).filterMap fun j =>
      o.props.objectIds[idsUsedBy .objects pre + j]?.bind
        (o.mapping.getObject (idsUsedBy .objects pre + j)))) := by
  unfold ObjectReference.parseVec
  rw [(predecessors_eq hp hd).1, objectOffset_eq hp hd hf]
  simp only
  rw [filterMap_slice o.props.objectIds (idsUsedBy .objects pre) n
    (fun p c => o.mapping.getObject p c)]

/-- The same for a property that holds a single reference; an object with too few identifiers is
malformed. -/
theorem C17_single_reference_partial (o : Object) (t : PropertyType)
    (pre post : List (Nat × PropertyValue))
    (hp : o.props.properties = setOf (pre ++ (t.code % 2 ^ 26, .objectId) :: post))
    (hd : DistinctIds (pre ++ (t.code % 2 ^ 26, .objectId) :: post))
    (hf : ∀ e ∈ pre, SingleSetsFree .objects e.2) :
    ObjectReference.parse t o =
      match o.props.objectIds[idsUsedBy .objects pre]? with
      | none => .error .malformedOneNoteFile
      | some c => .ok (o.mapping.getObject (idsUsedBy .objects pre) c) := by
  unfold ObjectReference.parse
  rw [(predecessors_eq hp hd).1, objectOffset_eq hp hd hf]
  rfl

/-- For an object read from a file: `refs` are the full identifiers recorded for the object's
identifier stream, `data` the object's bytes. Every property holding `n` references yields exactly
`refs` from position `idsUsedBy .objects pre` on, `n` of them. -/
theorem C17_from_file_partial (id ctx sid : ExGuid) (objects : GroupMap) (pkg : Package)
    (o : Object) (refs : List ExGuid) (cells : List CellId) (data : Bytes)
    (oids osids ctxs : List CompactId) (t : PropertyType)
    (pre post : List (Nat × PropertyValue)) (n : Nat)
    (ho : Object.parse id ctx sid objects pkg = .ok o)
    (hg : objects.get? (id, 1) = some (.object refs cells data))
    (hb : ObjectPropSetEnc oids osids ctxs (pre ++ (t.code % 2 ^ 26, .objectIds n) :: post) data)
    (h1 : oids.length < 2 ^ 24 ∧ ∀ c ∈ oids, CompactIdOk c)
    (h2 : osids.length < 2 ^ 24 ∧ ∀ c ∈ osids, CompactIdOk c)
    (h3 : ctxs.length < 2 ^ 24 ∧ ∀ c ∈ ctxs, CompactIdOk c)
    (hl : refs.length = oids.length)
    (hd : DistinctIds (pre ++ (t.code % 2 ^ 26, .objectIds n) :: post))
    (hf : ∀ e ∈ pre, SingleSetsFree .objects e.2) :
    ObjectReference.parseVec t o =
      .ok (some ((refs.drop (idsUsedBy .objects pre)).take n)) := by
  obtain ⟨hpr, hm, -⟩ := object_from_file ho hg hb h1 h2 h3
  have hoids : o.props.objectIds = oids := by rw [hpr]
  rw [C17_reference_list_partial o t pre post n (by rw [hpr]) hd hf]
  congr 2
  rw [hm, hoids]
  generalize idsUsedBy .objects pre = off
  have key : ∀ ps p, (oids[p]?.bind fun c => (Object.mappingOf ⟨oids, osids, ctxs, ps⟩ sid refs
      cells).getObject p c) = refs[p]? := by
    intro ps p
    cases hx : refs[p]? with
    | none =>
      have : oids.length ≤ p := by rw [← hl]; exact List.getElem?_eq_none_iff.mp hx
      rw [List.getElem?_eq_none_iff.mpr this]; rfl
    | some x =>
      have hlt : p < oids.length := by rw [← hl]; exact (List.getElem?_eq_some_iff.mp hx).1
      have hc : oids[p]? = some oids[p] := List.getElem?_eq_getElem hlt
      rw [hc, Option.bind_some]
      exact mapping_object hc hx
  rw [← filterMap_range]
  congr 1
  funext j
  exact key _ (off + j)

private def x1 : ExGuid := ⟨Guid.nil, 1⟩
private def x2 : ExGuid := ⟨Guid.nil, 2⟩
private def c1 : CompactId := ⟨1, 0⟩
private def c2 : CompactId := ⟨2, 0⟩

/-- An object with the given properties and the identifiers `c1`, `c2` recorded as `x1`, `x2`. -/
private def twoIds (es : List (Nat × PropertyValue)) : Object :=
  ⟨x1, 0, ⟨[c1, c2], [], [], setOf es⟩, none, MappingTable.fromEntries [(c1, x1), (c2, x2)] []⟩

/-- FALSE in general (1): a single nested property set (0x11) in front of the property takes one
identifier, but the reference is resolved as if it took none. -/
theorem C17_refuted_nested_set : ∃ (o : Object) (t : PropertyType)
    (pre : List (Nat × PropertyValue)),
    o.props.properties = setOf (pre ++ [(t.code % 2 ^ 26, .objectId)]) ∧
    DistinctIds (pre ++ [(t.code % 2 ^ 26, .objectId)]) ∧
    o.props.objectIds[idsUsedBy .objects pre]? = some c2 ∧
    o.mapping.getObject (idsUsedBy .objects pre) c2 = some x2 ∧
    ObjectReference.parse t o = .ok (some x1) :=
  ⟨twoIds [(5, .propertySet (setOf [(7, .objectId)])),
      (PropertyType.noteTagDefinitionOid.code % 2 ^ 26, .objectId)],
    .noteTagDefinitionOid, [(5, .propertySet (setOf [(7, .objectId)]))], rfl,
    by unfold DistinctIds; decide +kernel, by decide +kernel, by decide +kernel, by decide +kernel⟩

/-- FALSE in general (2), outside the property's hypothesis of distinct identifiers: a property
whose identifier is repeated later loses its contribution. -/
theorem C17_refuted_repeated : ∃ (o : Object) (t : PropertyType)
    (pre : List (Nat × PropertyValue)),
    o.props.properties = setOf (pre ++ [(t.code % 2 ^ 26, .objectId)]) ∧
    (∀ e ∈ pre, SingleSetsFree .objects e.2) ∧
    o.props.objectIds[idsUsedBy .objects pre]? = some c2 ∧
    o.mapping.getObject (idsUsedBy .objects pre) c2 = some x2 ∧
    ObjectReference.parse t o = .ok (some x1) :=
  ⟨twoIds [(5, .objectId), (5, .u8 1), (PropertyType.noteTagDefinitionOid.code % 2 ^ 26, .objectId)],
    .noteTagDefinitionOid, [(5, .objectId), (5, .u8 1)], rfl, by simp [SingleSetsFree],
    by decide +kernel, by decide +kernel, by decide +kernel⟩

/-- The hypotheses are met: an object with an array of two nested sets (one reference each) in front
of a list of two references, in which one compact id is repeated. -/
example :
    let a : CompactId := ⟨1, 0⟩
    let b : CompactId := ⟨2, 0⟩
    let x (n : Nat) : ExGuid := ⟨Guid.nil, n⟩
    let pre : List (Nat × PropertyValue) :=
      [(5, .propertyValues 0 [setOf [(7, .objectId)], setOf [(7, .objectIds 1), (8, .u8 3)]]),
       (6, .objectSpaceId)]
    let o : Object := ⟨x 0, 0, ⟨[a, b, a, b], [], [],
      setOf (pre ++ [(PropertyType.contentChildNodes.code % 2 ^ 26, .objectIds 2)])⟩, none,
      MappingTable.fromEntries [(a, x 1), (b, x 2), (a, x 3), (b, x 4)] []⟩
    ObjectReference.parseVec .contentChildNodes o = .ok (some [x 3, x 4]) := by
  intro a b x pre o
  rw [C17_reference_list_partial o .contentChildNodes pre [] 2 rfl
    (by unfold DistinctIds; decide +kernel)
    (by simp [pre, SingleSetsFree, SingleSetsFreeSets, SingleSetsFreeSet, setOf, Map.ofList,
      Map.extend, Map.insert])]
  decide +kernel

/-- The hypotheses of the theorem about files are met by an object of 22 bytes: two object ids, a
single reference, then a list of one reference. -/
example : ∃ o, Object.parse x1 x1 x1 [((x1, 4), .object [] [] [0x0B, 0, 6, 0]),
      ((x1, 1), .object [x1, x2] [] [2, 0, 0, 0x80, 1, 0, 0, 0, 2, 0, 0, 0,
        2, 0, 5, 0, 0, 0x20, 0x20, 0x1C, 0, 0x24, 1, 0, 0, 0])] Package.empty = .ok o ∧
    ObjectReference.parseVec .elementChildNodes o = .ok (some [x2]) := by
  have hk : (Object.parse x1 x1 x1 [((x1, 4), .object [] [] [0x0B, 0, 6, 0]),
      ((x1, 1), .object [x1, x2] [] [2, 0, 0, 0x80, 1, 0, 0, 0, 2, 0, 0, 0,
        2, 0, 5, 0, 0, 0x20, 0x20, 0x1C, 0, 0x24, 1, 0, 0, 0])] Package.empty).isOk = true := by
    decide +kernel
  cases ho : Object.parse x1 x1 x1 [((x1, 4), .object [] [] [0x0B, 0, 6, 0]),
      ((x1, 1), .object [x1, x2] [] [2, 0, 0, 0x80, 1, 0, 0, 0, 2, 0, 0, 0,
        2, 0, 5, 0, 0, 0x20, 0x20, 0x1C, 0, 0x24, 1, 0, 0, 0])] Package.empty with
  | error e => rw [ho] at hk; cases hk
  | ok o =>
    refine ⟨o, rfl, ?_⟩
    exact C17_from_file_partial x1 x1 x1 _ _ o [x1, x2] [] _ [c1, c2] [] [] .elementChildNodes
      [(5, .objectId)] [] 1 ho rfl
      (.oids 0 false _ _ (by decide) (.mk _ [5, 0, 0, 0x20, 0x20, 0x1C, 0, 0x24] [1, 0, 0, 0]
        (by decide) (.cons 5 8 false _ [] _ _ _ (by decide) (.objectId _)
          (.cons 0x1C20 9 false _ [1, 0, 0, 0] _ _ _ (by decide) (.objectIds _ 1 (by decide)) .nil))))
      ⟨by decide, by simp [CompactIdOk, c1, c2]⟩ ⟨by decide, by simp⟩ ⟨by decide, by simp⟩ rfl
      (by unfold DistinctIds; decide +kernel) (by simp [SingleSetsFree])

#print axioms C17_reference_list_partial
#print axioms C17_single_reference_partial
#print axioms C17_from_file_partial
#print axioms C17_refuted_nested_set
#print axioms C17_refuted_repeated

/-! ### A whole file -/

/-- A section file with one outline, whose identifiers are `refs`. Among its properties is the list of
its items, one, after the properties `before` (id word and value). The items 3002 and 3003 have the text
`a` and `b`. -/
private def outlineFile (before : List (Nat × PropertyValue)) (refs : List Nat) : Bytes :=
  let props := before ++ [(PropertyType.lastModifiedTime.code, .u32 0),
    (PropertyType.elementChildNodes.code, .objectIds 1),
    (PropertyType.outlineElementChildLevel.code, .u8 1),
    (PropertyType.rgOutlineIndentDistance.code, .vec [0, 0, 0, 0])]
  sectionFile none [3001]
    [{ id := 3001, jcid := PropertySetId.outlineNode.asJcid, refs := refs.map sx
       props := streamHeader refs.length 0 false true ++
         (compactIds ((List.range refs.length).map (⟨·, 0⟩)) ++ (leBytes 2 props.length ++
           ((props.flatMap fun e => leBytes 4 e.1) ++ props.flatMap fun e => valueW e.2))) },
     outlineElementW 3002 [] [3004] [], outlineElementW 3003 [] [3005] [],
     objectW 3004 .richTextNode [(.lastModifiedTime, .u32 0), (.paragraphStyle, .objectId),
      (.richEditTextUnicode, stringW ['a'])] [3006],
     objectW 3005 .richTextNode [(.lastModifiedTime, .u32 0), (.paragraphStyle, .objectId),
      (.richEditTextUnicode, stringW ['b'])] [3006],
     objectW 3006 .paragraphStyleObject []]

/-- The texts in the first level of the outlines that are shown. -/
private def shownTexts (s : Section) : List Text :=
  s.pageSeries.flatMap fun series => series.pages.flatMap fun p => p.contents.flatMap fun
    | .outline o => o.items.flatMap fun
      | .element e => e.contents.flatMap fun
        | .richText t => [t.text]
        | _ => []
      | _ => []
    | _ => []

/-- **Refuted for a file**: an outline whose item is the element with the text `a`, and the same outline
with one more property, a nested property set with one reference, in front. The identifiers are now that
of the nested reference and that of the item. The first file shows the text `a`, the second the text `b`,
which is that of the object the nested property refers to. -/
theorem C17_file_refuted :
    (parseSectionBuffer 3 Order.id (outlineFile [] [3002]) []).toOption.map shownTexts =
      some [['a']] ∧
    (parseSectionBuffer 3 Order.id
        (outlineFile [(0x44000005, .propertySet [(0x20000007, (0, .objectId))])] [3003, 3002])
        []).toOption.map shownTexts = some [['b']] := by
  constructor <;> decide +kernel

end OneNote
#print axioms OneNote.C17_file_refuted
