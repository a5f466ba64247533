/-
C18: Object space references resolve like object references. FALSE of the code: the position passed
to the mapping table is relative to the property's own identifiers instead of the stream.
-/
import Verif.Lemmas.References
import Verif.Spec.SampleFile

namespace OneNote

open Spec

/-- What the code does, for every object with distinct property ids: the `j`-th identifier of the
property is looked up for position `j`, not for its position in the stream. -/
theorem C18_characterisation_partial (o : Object) (t : PropertyType)
    (pre post : List (Nat × PropertyValue)) (n : Nat)
    (hp : o.props.properties = setOf (pre ++ (t.code % 2 ^ 26, .objectSpaceIds n) :: post))
    (hd : DistinctIds (pre ++ (t.code % 2 ^ 26, .objectSpaceIds n) :: post))
    (hf : ∀ e ∈ pre, SingleSetsFree .spaces e.2) :
    ObjectSpaceReference.parseVec t o = .ok (some ((List.range n).filterMap fun j =>
      o.props.objectSpaceIds[idsUsedBy .spaces pre + j]?.bind (o.mapping.getObjectSpace j))) := by
  unfold ObjectSpaceReference.parseVec
  rw [(predecessors_eq hp hd).1, spaceOffset_eq hp hd hf]
  simp only
  have := filterMap_slice (o.props.objectSpaceIds.drop (idsUsedBy .spaces pre)) 0 n
    (fun p c => o.mapping.getObjectSpace p c)
  simp only [List.drop_zero, Nat.add_zero, Nat.zero_add, List.getElem?_drop] at this
  rw [this]

/-- For an object read from a file, in an object space `sid`: the cells recorded for the object
space stream are those of other object spaces. If no earlier property takes an object space id, or
no compact id is repeated in the stream, the property resolves to its own cells.
Missing for the full property: repeated compact ids behind an earlier property (refuted below). -/
theorem C18_from_file_partial (id ctx sid : ExGuid) (objects : GroupMap) (pkg : Package)
    (o : Object) (refs : List ExGuid) (cells : List CellId) (data : Bytes)
    (oids osids ctxs : List CompactId) (t : PropertyType)
    (pre post : List (Nat × PropertyValue)) (n : Nat)
    (ho : Object.parse id ctx sid objects pkg = .ok o)
    (hg : objects.get? (id, 1) = some (.object refs cells data))
    (hb : ObjectPropSetEnc oids osids ctxs
      (pre ++ (t.code % 2 ^ 26, .objectSpaceIds n) :: post) data)
    (h1 : oids.length < 2 ^ 24 ∧ ∀ c ∈ oids, CompactIdOk c)
    (h2 : osids.length < 2 ^ 24 ∧ ∀ c ∈ osids, CompactIdOk c)
    (h3 : ctxs.length < 2 ^ 24 ∧ ∀ c ∈ ctxs, CompactIdOk c)
    (hl : (cells.filter fun c => decide (c.snd ≠ sid)).length = osids.length)
    (hd : DistinctIds (pre ++ (t.code % 2 ^ 26, .objectSpaceIds n) :: post))
    (hf : ∀ e ∈ pre, SingleSetsFree .spaces e.2)
    (hu : idsUsedBy .spaces pre = 0 ∨ osids.Nodup) :
    ObjectSpaceReference.parseVec t o = .ok (some
      (((cells.filter fun c => decide (c.snd ≠ sid)).drop (idsUsedBy .spaces pre)).take n)) := by
  obtain ⟨hpr, hm, -⟩ := object_from_file ho hg hb h1 h2 h3
  have hosids : o.props.objectSpaceIds = osids := by rw [hpr]
  rw [C18_characterisation_partial o t pre post n (by rw [hpr]) hd hf, hm, hosids]
  congr 2
  rw [← filterMap_range]
  congr 1
  funext j
  unfold Object.mappingOf MappingTable.getObjectSpace MappingTable.fromEntries
  simp only
  generalize hs : cells.filter (fun c => decide (c.snd ≠ sid)) = srefs at hl ⊢
  generalize idsUsedBy .spaces pre = off at hu ⊢
  cases hx : srefs[off + j]? with
  | none =>
    have : osids.length ≤ off + j := by rw [← hl]; exact List.getElem?_eq_none_iff.mp hx
    rw [List.getElem?_eq_none_iff.mpr this]; rfl
  | some x =>
    have hlt : off + j < osids.length := by rw [← hl]; exact (List.getElem?_eq_some_iff.mp hx).1
    have hc : osids[off + j]? = some osids[off + j] := List.getElem?_eq_getElem hlt
    have hz : (osids.zip srefs)[off + j]? = some (osids[off + j], x) := by
      rw [List.getElem?_zip_eq_some]; exact ⟨hc, hx⟩
    rw [hc, Option.bind_some]
    rcases hu with h0 | hnd
    · subst h0
      exact MappingTable.lookup_at (by simpa using hz)
    · apply MappingTable.lookup_once j hz
      intro k y hk
      rw [List.getElem?_zip_eq_some] at hk
      exact ((List.getElem?_inj hlt hnd).mp (hc.trans hk.1.symm)).symm

private def sa : CellId := ⟨⟨Guid.nil, 1⟩, ⟨Guid.nil, 1⟩⟩
private def sb : CellId := ⟨⟨Guid.nil, 2⟩, ⟨Guid.nil, 2⟩⟩
private def ca : CompactId := ⟨1, 0⟩
private def cb : CompactId := ⟨2, 0⟩

/-- FALSE in general: an object with object space ids `ca, cb, cb`, the first taken by an earlier
property, the other two by the page list. Each of them resolves at its own position in the stream,
but the code returns one of the two pages only. -/
theorem C18_refuted : ∃ (o : Object) (t : PropertyType) (pre : List (Nat × PropertyValue)),
    o.props.properties = setOf (pre ++ [(t.code % 2 ^ 26, .objectSpaceIds 2)]) ∧
    DistinctIds (pre ++ [(t.code % 2 ^ 26, .objectSpaceIds 2)]) ∧
    idsUsedBy .spaces pre = 1 ∧
    o.props.objectSpaceIds = [ca, cb, cb] ∧
    o.mapping.getObjectSpace 1 cb = some sb ∧ o.mapping.getObjectSpace 2 cb = some sb ∧
    ObjectSpaceReference.parseVec t o = .ok (some [sb]) :=
  ⟨⟨⟨Guid.nil, 1⟩, 0, ⟨[], [ca, cb, cb], [], setOf [(5, .objectSpaceId),
      (PropertyType.childGraphSpaceElementNodes.code % 2 ^ 26, .objectSpaceIds 2)]⟩, none,
      MappingTable.fromEntries [] [(ca, sa), (cb, sb), (cb, sb)]⟩,
    .childGraphSpaceElementNodes, [(5, .objectSpaceId)], rfl, by unfold DistinctIds; decide +kernel,
    by decide +kernel, rfl, by decide +kernel, by decide +kernel, by decide +kernel⟩

/-- Also FALSE with different cells for the repeated compact id: the wrong page is returned. -/
theorem C18_refuted_wrong_cell : ∃ (o : Object) (t : PropertyType)
    (pre : List (Nat × PropertyValue)),
    o.props.properties = setOf (pre ++ [(t.code % 2 ^ 26, .objectSpaceIds 1)]) ∧
    DistinctIds (pre ++ [(t.code % 2 ^ 26, .objectSpaceIds 1)]) ∧
    idsUsedBy .spaces pre = 1 ∧
    o.props.objectSpaceIds = [ca, ca] ∧
    o.mapping.getObjectSpace 1 ca = some sb ∧
    ObjectSpaceReference.parseVec t o = .ok (some [sa]) :=
  ⟨⟨⟨Guid.nil, 1⟩, 0, ⟨[], [ca, ca], [], setOf [(5, .objectSpaceId),
      (PropertyType.childGraphSpaceElementNodes.code % 2 ^ 26, .objectSpaceIds 1)]⟩, none,
      MappingTable.fromEntries [] [(ca, sa), (ca, sb)]⟩,
    .childGraphSpaceElementNodes, [(5, .objectSpaceId)], rfl, by unfold DistinctIds; decide +kernel,
    by decide +kernel, rfl, by decide +kernel, by decide +kernel⟩

private def e0 : ExGuid := ⟨Guid.nil, 9⟩
private def bytes : Bytes := [0, 0, 0, 0,  3, 0, 0, 0,  1, 0, 0, 0,  2, 0, 0, 0,  3, 0, 0, 0,
  2, 0,  5, 0, 0, 0x28,  0x63, 0x1D, 0, 0x2C,  2, 0, 0, 0]
private def group : GroupMap := [((e0, 4), .object [] [] [0x0B, 0, 6, 0]),
  ((e0, 1), .object [] [sa, sb, sa] bytes)]

/-- The hypotheses of the theorem about files are met: three object space ids, the first taken by
an earlier property. -/
example : ∃ o, Object.parse e0 e0 e0 group Package.empty = .ok o ∧
    ObjectSpaceReference.parseVec .childGraphSpaceElementNodes o = .ok (some [sb, sa]) := by
  have hk : (Object.parse e0 e0 e0 group Package.empty).isOk = true := by decide +kernel
  cases ho : Object.parse e0 e0 e0 group Package.empty with
  | error e => rw [ho] at hk; cases hk
  | ok o =>
    refine ⟨o, rfl, ?_⟩
    exact C18_from_file_partial e0 e0 e0 group _ o [] [sa, sb, sa] bytes [] [ca, cb, ⟨3, 0⟩] []
      .childGraphSpaceElementNodes [(5, .objectSpaceId)] [] 2 ho (by decide +kernel)
      (.osids 0 0 false false _ _ _ (by decide) (by decide)
        (.mk _ [5, 0, 0, 0x28, 0x63, 0x1D, 0, 0x2C] [2, 0, 0, 0]
        (by decide) (.cons 5 0xA false _ [] _ _ _ (by decide) (.objectSpaceId _)
          (.cons 0x1D63 0xB false _ [2, 0, 0, 0] _ _ _ (by decide)
            (.objectSpaceIds _ 2 (by decide)) .nil))))
      ⟨by decide, by simp⟩ ⟨by decide, by simp [CompactIdOk, ca, cb]⟩ ⟨by decide, by simp⟩
      (by decide +kernel) (by unfold DistinctIds; decide +kernel) (by simp [SingleSetsFree])
      (.inr (by decide +kernel))

#print axioms C18_characterisation_partial
#print axioms C18_from_file_partial
#print axioms C18_refuted
#print axioms C18_refuted_wrong_cell

/-! ### A whole file -/

/-- The cell of a second page. -/
private def secondCell : CellId := ⟨sx 6, sx 6⟩

/-- A section file with two pages, whose titles in the metadata are at levels 1 and 2. The page series has
the given properties and object space identifiers. -/
private def seriesFile (props : List (Nat × PropertyValue)) (ids : List (CompactId × CellId)) : Bytes :=
  let props := (PropertyType.notebookManagementEntityGuid.code, .vec (guid sampleGuid)) :: props
  let page (level : Nat) : List SampleObject :=
    [objectW 2001 .pageMetadata
      [(.notebookManagementEntityGuid, .vec (guid sampleGuid)), (.cachedTitleString, stringW ['t']),
       (.topologyCreationTimeStamp, .u64 0), (.pageLevel, .u32 level)],
     objectW 2002 .pageManifestNode [(.contentChildNodes, .objectIds 1)] [2003],
     objectW 2003 .pageNode [(.elementChildNodes, .objectIds 0)]]
  storeFile sectionGuid [.root contentRole (sx 1000), .root metadataRole (sx 1001)]
    [sectionMetadataW none,
     objectW 1000 .sectionNode
      [(.notebookManagementEntityGuid, .vec (guid sampleGuid)), (.elementChildNodes, .objectIds 1),
       (.topologyCreationTimeStamp, .u64 0)] [1002],
     { id := 1002, jcid := PropertySetId.pageSeriesNode.asJcid, cells := ids.map (·.2)
       props := streamHeader 0 0 false false ++ (streamHeader ids.length 0 false false ++
         (compactIds (ids.map (·.1)) ++ (leBytes 2 props.length ++
           ((props.flatMap fun e => leBytes 4 e.1) ++ props.flatMap fun e => valueW e.2)))) }]
    [(pageCell, 5, [.root contentRole (sx 2002), .root metadataRole (sx 2001)], page 1),
     (secondCell, 6, [.root contentRole (sx 2002), .root metadataRole (sx 2001)], page 2)]

/-- The levels of the pages that are shown. -/
private def shownLevels (s : Section) : List Int :=
  s.pageSeries.flatMap fun series => series.pages.map (·.level)

/-- **Refuted for a file**: a page series with one page, the second page of the file, and the same page
series with one more object space reference in front, to the first page. Both have the same compact id.
The first file shows the page of the series, the second file the other page. -/
theorem C18_file_refuted :
    (parseSectionBuffer 3 Order.id (seriesFile
        [(PropertyType.childGraphSpaceElementNodes.code, .objectSpaceIds 1)]
        [(⟨0, 1⟩, secondCell)]) []).toOption.map shownLevels = some [2] ∧
    (parseSectionBuffer 3 Order.id (seriesFile
        [(0x28000005, .objectSpaceId), (PropertyType.childGraphSpaceElementNodes.code, .objectSpaceIds 1)]
        [(⟨0, 1⟩, pageCell), (⟨0, 1⟩, secondCell)]) []).toOption.map shownLevels = some [1] := by
  constructor <;> decide +kernel

end OneNote
#print axioms OneNote.C18_file_refuted
